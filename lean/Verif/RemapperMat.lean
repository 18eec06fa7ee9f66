import Verif.RemapperProps

/-!
# Changes of the crude matrix: small coefficients, transposition, extruded meshes
-/

set_option linter.unusedSectionVars false

namespace MC
section
open Finset
variable {K : Type} [Field K] [LinearOrder K] [IsStrictOrderedRing K]

/-! ## Loops which only add -/

theorem mono_foldlM {σ ι : Type} {I : σ → Prop} {R : σ → σ → Prop} {P : ι → σ → Prop} (hrefl : ∀ s, R s s) (htrans : ∀ {a b c}, R a b → R b c → R a c)
    (hmono : ∀ {x s s'}, R s s' → P x s → P x s') {l : List ι} {b : σ → ι → M σ}
    (h : ∀ x ∈ l, ∀ s, I s → ∃ s', b s x = .ok s' ∧ I s' ∧ R s s' ∧ P x s') {s : σ} (hs : I s) :
    ∃ s', l.foldlM b s = .ok s' ∧ I s' ∧ R s s' ∧ ∀ x ∈ l, P x s' := by
  induction l generalizing s with
  | nil => exact ⟨s, rfl, hs, hrefl s, by simp⟩
  | cons x l ih =>
    obtain ⟨t, t1, t2, t3, t4⟩ := h x (by simp) s hs
    obtain ⟨u, u1, u2, u3, u4⟩ := ih (fun y hy => h y (List.mem_cons_of_mem _ hy)) t2
    refine ⟨u, by rw [List.foldlM_cons, t1, ok_bind, u1], u2, htrans t3 u3, ?_⟩
    intro y hy
    rcases List.mem_cons.mp hy with rfl | hy
    · exact hmono u3 t4
    · exact u4 y hy

theorem mono_loop {σ : Type} {I : σ → Prop} {R : σ → σ → Prop} {P : Nat → σ → Prop} (hrefl : ∀ s, R s s) (htrans : ∀ {a b c}, R a b → R b c → R a c)
    (hmono : ∀ {x s s'}, R s s' → P x s → P x s') {n : Nat} {b : Nat → σ → M σ}
    (h : ∀ x < n, ∀ s, I s → ∃ s', b x s = .ok s' ∧ I s' ∧ R s s' ∧ P x s') {s : σ} (hs : I s) :
    ∃ s', loop n s b = .ok s' ∧ I s' ∧ R s s' ∧ ∀ x < n, P x s' := by
  have : wp (loop n s b) (fun s' => I s' ∧ R s s' ∧ ∀ x < n, P x s') False := by
    refine wp_loop (fun k s' => I s' ∧ R s s' ∧ ∀ x < k, P x s') ⟨hs, hrefl s, fun x hx => absurd hx (Nat.not_lt_zero _)⟩ ?_
    rintro k hk u ⟨u1, u2, u3⟩
    obtain ⟨t, t1, t2, t3, t4⟩ := h k hk u u1
    rw [t1, wp_ok]
    refine ⟨t2, htrans u2 t3, fun x hx => ?_⟩
    rcases Nat.lt_succ_iff_lt_or_eq.mp hx with hx | rfl
    · exact hmono t3 (u3 x hx)
    · exact t4
  exact wp_exists this

/-- a matrix under construction: `N` rows, sorted, with right values only -/
def Building (N : Nat) (Good : Int → Int → K → Prop) (out : List (Row K)) : Prop :=
  out.length = N ∧ (∀ row ∈ out, StrictSorted (mapKeys row)) ∧ ∀ (t : Nat) (s : Int) (v : K), mapFind (out.getD t []) s = some v → Good t s v

/-- all the places of the first matrix are in the second one -/
def Grows (a b : List (Row K)) : Prop := ∀ (t : Nat) (s : Int), s ∈ mapKeys (a.getD t []) → s ∈ mapKeys (b.getD t [])

theorem Grows.refl (a : List (Row K)) : Grows a a := fun _ _ h => h
theorem Grows.trans {a b c : List (Row K)} (h : Grows a b) (h' : Grows b c) : Grows a c := fun t s hs => h' t s (h t s hs)

theorem put_ok {N : Nat} {Good : Int → Int → K → Prop} {out : List (Row K)} (h : Building N Good out) {t s : Int} {v : K} (h0 : 0 ≤ t) (h1 : t < N) (hg : Good t s v) :
    ∃ o, (do let row ← rd out t; wr out t (mapSet row s v)) = .ok o ∧ Building N Good o ∧ Grows out o ∧ s ∈ mapKeys (o.getD t.toNat []) := by
  obtain ⟨a1, a2, a3⟩ := h
  have hl : t.toNat < out.length := by omega
  have hget : ∀ t' : Nat, (out.set t.toNat (mapSet out[t.toNat] s v)).getD t' [] = if t' = t.toNat then mapSet (out.getD t.toNat []) s v else out.getD t' [] := by
    intro t'
    by_cases he : t' = t.toNat
    · subst he; rw [if_pos rfl, List.getD_eq_getElem _ _ (by rw [List.length_set]; exact hl), List.getElem_set_self, List.getD_eq_getElem _ _ hl]
    · rw [if_neg he, List.getD_eq_getElem?_getD, List.getElem?_set_ne (Ne.symm he), ← List.getD_eq_getElem?_getD]
  refine ⟨out.set t.toNat (mapSet out[t.toNat] s v), ?_, ⟨by rw [List.length_set]; exact a1, fun row hrow => ?_, fun t' s' v' hv => ?_⟩, fun t' s' hs => ?_, ?_⟩
  · rw [rd_ok h0 (by omega), ok_bind, wr_ok h0 (by omega)]
  · rcases List.mem_or_eq_of_mem_set hrow with h | rfl
    · exact a2 row h
    · exact sorted_mapSet (a2 _ (List.getElem_mem hl)) _ _
  · rw [hget] at hv
    split at hv
    · rename_i he
      rw [mapFind_set] at hv
      split at hv
      · rename_i hs
        simp only [Option.some.injEq] at hv
        rw [hs, ← hv, he, show ((t.toNat : Nat) : Int) = t by omega]; exact hg
      · rw [he]; exact a3 _ _ _ hv
    · exact a3 _ _ _ hv
  · rw [hget]
    split
    · rename_i he
      rw [← mapFind_isSome, mapFind_set]
      split
      · exact ⟨_, rfl⟩
      · rw [mapFind_isSome, ← he]; exact hs
    · exact hs
  · rw [hget, if_pos rfl, ← mapFind_isSome, mapFind_set, if_pos rfl]
    exact ⟨_, rfl⟩

theorem building_empty (N : Nat) (Good : Int → Int → K → Prop) : Building N Good (List.replicate N []) := by
  refine ⟨by simp, fun row hrow => ?_, fun t s v h => ?_⟩
  · rw [List.eq_of_mem_replicate hrow]; exact List.Pairwise.nil
  · by_cases ht : t < N
    · rw [List.getD_eq_getElem _ _ (by simpa using ht), List.getElem_replicate] at h; cases h
    · rw [List.getD_eq_default _ _ (by simpa using ht)] at h; cases h

/-- **C82.** `ReverseMatrix` gives the transposed matrix: the coefficient of row `j` and column `i` exists exactly when the one of row `i` and column
`j` exists, and they are equal. -/
theorem C82_transposed {W : List (Row K)} {n m : Nat} (hW : CrudeOK W n m) :
    ∃ out, reverseMatrix W m = .ok out ∧ CrudeOK out m n ∧ ∀ i < n, ∀ j < m, mapFind (out.getD j []) (i : Int) = mapFind (W.getD i []) (j : Int) := by
  have step : ∀ i < W.length, ∀ out, Building m (fun t s v => 0 ≤ s ∧ s < (n : Int) ∧ mapFind (W.getD s.toNat []) t = some v) out →
      ∃ o, (do
        let row ← rd W i
        row.foldlM (fun (out : List (Row K)) (e : Int × K) => do
          let r ← rd out e.1
          wr out e.1 (mapSet r (i : Int) e.2)) out) = .ok o ∧ Building m (fun t s v => 0 ≤ s ∧ s < (n : Int) ∧ mapFind (W.getD s.toNat []) t = some v) o ∧ Grows out o ∧
        ∀ e ∈ W.getD i [], (i : Int) ∈ mapKeys (o.getD e.1.toNat []) := by
    intro i hi out ho
    rw [hW.len] at hi
    obtain ⟨e1, e2, e3⟩ := hW.row hi
    rw [e1, ok_bind]
    refine mono_foldlM (P := fun (e : Int × K) (o : List (Row K)) => (i : Int) ∈ mapKeys (o.getD e.1.toNat [])) Grows.refl (fun h h' => h.trans h') (fun h h' => h _ _ h') ?_ ho
    intro e he s hs
    have := e3 e he
    exact put_ok hs this.1 this.2 ⟨by omega, by omega, by rw [Int.toNat_natCast]; exact mapFind_of_mem e2 he⟩
  obtain ⟨out, o1, ⟨b1, b2, b3⟩, -, o3⟩ := mono_loop (P := fun i (o : List (Row K)) => ∀ e ∈ W.getD i [], (i : Int) ∈ mapKeys (o.getD e.1.toNat []))
    Grows.refl (fun h h' => h.trans h') (fun h h' e he => h _ _ (h' e he)) step (building_empty m _)
  rw [hW.len] at o3
  refine ⟨out, o1, ⟨b1, b2, fun row hrow e he => ?_⟩, fun i hi j hj => ?_⟩
  · obtain ⟨t, ht, rfl⟩ := List.mem_iff_getElem.mp hrow
    have hf := mapFind_of_mem (b2 _ hrow) (k := e.1) (v := e.2) he
    rw [← List.getD_eq_getElem _ [] ht] at hf
    have := b3 t e.1 e.2 hf
    exact ⟨this.1, this.2.1⟩
  · cases hq : mapFind (W.getD i []) (j : Int) with
    | some v =>
      have := o3 i hi _ (mem_of_mapFind hq)
      simp only [Int.toNat_natCast] at this
      obtain ⟨v', hv'⟩ := mapFind_isSome.mpr this
      have h3 := (b3 j i v' hv').2.2
      rw [Int.toNat_natCast, hq] at h3
      rw [hv', h3]
    | none =>
      cases hp : mapFind (out.getD j []) (i : Int) with
      | none => rfl
      | some v =>
        have h3 := (b3 j i v hp).2.2
        rw [Int.toNat_natCast, hq] at h3
        cases h3

/-- **C82.** Transposing twice gives the matrix back. -/
theorem C82_transposed_twice {W : List (Row K)} {n m : Nat} (hW : CrudeOK W n m) : (do let out ← reverseMatrix W m; reverseMatrix out n) = .ok W := by
  obtain ⟨o, o1, o2, o3⟩ := C82_transposed hW
  obtain ⟨p, p1, p2, p3⟩ := C82_transposed o2
  rw [o1, ok_bind, p1]
  congr 1
  refine List.ext_getElem (by rw [p2.len, hW.len]) fun i h1 h2 => ?_
  have hi : i < n := by rw [← hW.len]; exact h2
  have e1 := (p2.row hi).2
  have e2 := (hW.row hi).2
  rw [← List.getD_eq_getElem _ [] h1, ← List.getD_eq_getElem _ [] h2]
  refine map_ext e1.1 e2.1 fun k => ?_
  by_cases hk : 0 ≤ k ∧ k < (m : Int)
  · obtain ⟨j, rfl⟩ := Int.eq_ofNat_of_zero_le hk.1
    rw [p3 j (by omega) i hi, o3 i hi j (by omega)]
  · have aux : ∀ r : Row K, (∀ e ∈ r, 0 ≤ e.1 ∧ e.1 < (m : Int)) → mapFind r k = none := by
      intro r hr
      rw [mapFind_eq_none]
      intro hm
      obtain ⟨e, he, rfl⟩ := List.mem_map.mp hm
      exact hk (hr e he)
    rw [aux _ e1.2, aux _ e2.2]

example : CrudeOK exW 3 3 := (setCrude_ok (r0 := (newRemapper 3 : Rem ℚ)) (clock := 5) (src := exSrc) (trg := exTrg) (r := exRem) (by unfold StrictSorted exW; decide +kernel) (by decide +kernel)).1
example : reverseMatrix exW 3 = .ok [[(0, 1)], [(0, 2), (1, 1)], [(1, 4)]] := by decide +kernel

theorem idx_val {a b p q N : Nat} (hq : q < N) (hb : b < N) (h : p * N + q = a * N + b) : p = a ∧ q = b := idx_inj hq hb h

/-- **C82.** The matrix of extruded meshes: the coefficient between two extruded cells is the product of the coefficients of their bases and of their
levels, for every numbering of the extruded cells. -/
theorem C82_extruded {W1 W2 : List (Row K)} {n1 n2 k1 k2 : Nat} (h1 : CrudeOK W1 n1 k1) (h2 : CrudeOK W2 n2 k2) {cs ct : List Int}
    (hcs : cs.length = k1 * k2) (hct : ct.length = n1 * n2) (hcs' : cs.Nodup) (hct' : ct.Nodup) (hcsr : ∀ x ∈ cs, 0 ≤ x ∧ x < ((k1 * k2 : Nat) : Int))
    (hctr : ∀ x ∈ ct, 0 ≤ x ∧ x < ((n1 * n2 : Nat) : Int)) :
    ∃ out, matrixByConvolution W1 W2 cs k2 ct = .ok out ∧ CrudeOK out (n1 * n2) (k1 * k2) ∧ ∀ r1 < n1, ∀ r2 < n2, ∀ c1 < k1, ∀ c2 < k2,
      coef out (ct.getD (r1 * n2 + r2) 0).toNat (cs.getD (c1 * k2 + c2) 0).toNat = coef W1 r1 c1 * coef W2 r2 c2 := by
  -- the values which may be found
  let Good : Int → Int → K → Prop := fun t s v => ∃ r1 r2 c1 c2 : Nat, ∃ w1 w2 : K, r1 < n1 ∧ r2 < n2 ∧ c1 < k1 ∧ c2 < k2 ∧ mapFind (W1.getD r1 []) (c1 : Int) = some w1 ∧
    mapFind (W2.getD r2 []) (c2 : Int) = some w2 ∧ t = ct.getD (r1 * n2 + r2) 0 ∧ s = cs.getD (c1 * k2 + c2) 0 ∧ v = w1 * w2
  have rdct : ∀ r1 < n1, ∀ r2 < n2, rd ct ((r1 * n2 + r2 : Nat) : Int) = .ok (ct.getD (r1 * n2 + r2) 0) ∧ ct.getD (r1 * n2 + r2) 0 ∈ ct := by
    intro r1 hr1 r2 hr2
    have hl : r1 * n2 + r2 < ct.length := by rw [hct]; exact idx_lt hr1 hr2
    rw [rd_natCast hl, List.getD_eq_getElem _ _ hl]
    exact ⟨rfl, List.getElem_mem hl⟩
  have rdcs : ∀ c1 < k1, ∀ c2 < k2, rd cs ((c1 * k2 + c2 : Nat) : Int) = .ok (cs.getD (c1 * k2 + c2) 0) ∧ cs.getD (c1 * k2 + c2) 0 ∈ cs := by
    intro c1 hc1 c2 hc2
    have hl : c1 * k2 + c2 < cs.length := by rw [hcs]; exact idx_lt hc1 hc2
    rw [rd_natCast hl, List.getD_eq_getElem _ _ hl]
    exact ⟨rfl, List.getElem_mem hl⟩
  -- what one element of each row adds
  let Done : Nat → (Int × K) → Nat → (Int × K) → List (Row K) → Prop := fun r2 e2 r1 e1 o =>
    cs.getD (e1.1.toNat * k2 + e2.1.toNat) 0 ∈ mapKeys (o.getD (ct.getD (r1 * n2 + r2) 0).toNat [])
  have mono : ∀ {r2 e2 r1 e1} {a b : List (Row K)}, Grows a b → Done r2 e2 r1 e1 a → Done r2 e2 r1 e1 b := fun h h' => h _ _ h'
  have step1 : ∀ r2 < n2, ∀ e2 ∈ W2.getD r2 [], ∀ r1 < n1, ∀ out, Building (n1 * n2) Good out → ∃ o, (do
      let row1 ← rd W1 (r1 : Int)
      row1.foldlM (fun (out : List (Row K)) (c1 : Int × K) => do
          let t ← rd ct ((r1 * W2.length + r2 : Nat) : Int)
          let s ← rd cs (c1.1 * k2 + e2.1)
          let row ← rd out t
          wr out t (mapSet row s (c1.2 * e2.2))) out) = .ok o ∧ Building (n1 * n2) Good o ∧ Grows out o ∧ ∀ e1 ∈ W1.getD r1 [], Done r2 e2 r1 e1 o := by
    intro r2 hr2 e2 he2 r1 hr1 out ho
    obtain ⟨a1, a2, a3⟩ := h1.row hr1
    obtain ⟨b1, b2, b3⟩ := h2.row hr2
    rw [a1, ok_bind, h2.len]
    refine mono_foldlM (P := fun e1 o => Done r2 e2 r1 e1 o) Grows.refl (fun h h' => h.trans h') mono ?_ ho
    intro e1 he1 s hs
    have q1 := a3 e1 he1
    have q2 := b3 e2 he2
    have ecast : e1.1 * (k2 : Int) + e2.1 = ((e1.1.toNat * k2 + e2.1.toNat : Nat) : Int) := by
      push_cast
      rw [Int.toNat_of_nonneg q1.1, Int.toNat_of_nonneg q2.1]
    obtain ⟨x1, x2⟩ := rdct r1 hr1 r2 hr2
    obtain ⟨y1, y2⟩ := rdcs e1.1.toNat (by omega) e2.1.toNat (by omega)
    rw [x1, ok_bind, ecast, y1, ok_bind]
    have hx := hctr _ x2
    refine put_ok hs hx.1 hx.2 ⟨r1, r2, e1.1.toNat, e2.1.toNat, e1.2, e2.2, hr1, hr2, by omega, by omega, ?_, ?_, rfl, rfl, rfl⟩
    · rw [show ((e1.1.toNat : Nat) : Int) = e1.1 by omega]; exact mapFind_of_mem a2 he1
    · rw [show ((e2.1.toNat : Nat) : Int) = e2.1 by omega]; exact mapFind_of_mem b2 he2
  have step2 : ∀ r2 < W2.length, ∀ out, Building (n1 * n2) Good out → ∃ o, (do
      let row2 ← rd W2 (r2 : Int)
      row2.foldlM (fun (out : List (Row K)) (c2 : Int × K) =>
        loop W1.length out fun r1 out => do
          let row1 ← rd W1 (r1 : Int)
          row1.foldlM (fun (out : List (Row K)) (c1 : Int × K) => do
            let t ← rd ct ((r1 * W2.length + r2 : Nat) : Int)
            let s ← rd cs (c1.1 * k2 + c2.1)
            let row ← rd out t
            wr out t (mapSet row s (c1.2 * c2.2))) out) out) = .ok o ∧ Building (n1 * n2) Good o ∧ Grows out o ∧
        ∀ e2 ∈ W2.getD r2 [], ∀ r1 < W1.length, ∀ e1 ∈ W1.getD r1 [], Done r2 e2 r1 e1 o := by
    intro r2 hr2 out ho
    rw [h2.len] at hr2
    rw [(h2.row hr2).1, ok_bind]
    refine mono_foldlM (P := fun e2 o => ∀ r1 < W1.length, ∀ e1 ∈ W1.getD r1 [], Done r2 e2 r1 e1 o) Grows.refl (fun h h' => h.trans h')
      (fun h h' r1 hr1 e1 he1 => mono h (h' r1 hr1 e1 he1)) ?_ ho
    intro e2 he2 s hs
    refine mono_loop (P := fun r1 o => ∀ e1 ∈ W1.getD r1 [], Done r2 e2 r1 e1 o) Grows.refl (fun h h' => h.trans h') (fun h h' e1 he1 => mono h (h' e1 he1)) ?_ hs
    intro r1 hr1 u hu
    exact step1 r2 hr2 e2 he2 r1 (by rw [← h1.len]; exact hr1) u hu
  obtain ⟨out, o1, ⟨b1, b2, b3⟩, -, o3⟩ := mono_loop (P := fun r2 o => ∀ e2 ∈ W2.getD r2 [], ∀ r1 < W1.length, ∀ e1 ∈ W1.getD r1 [], Done r2 e2 r1 e1 o)
    Grows.refl (fun h h' => h.trans h') (fun h h' e2 he2 r1 hr1 e1 he1 => mono h (h' e2 he2 r1 hr1 e1 he1)) step2
    (s := List.replicate (W2.length * W1.length) []) (by rw [h1.len, h2.len, Nat.mul_comm]; exact building_empty _ _)
  rw [h1.len, h2.len] at o3
  refine ⟨out, o1, ⟨b1, b2, fun row hrow e he => ?_⟩, fun r1 hr1 r2 hr2 c1 hc1 c2 hc2 => ?_⟩
  · obtain ⟨t, ht, rfl⟩ := List.mem_iff_getElem.mp hrow
    have hf := mapFind_of_mem (b2 _ hrow) (k := e.1) (v := e.2) he
    rw [← List.getD_eq_getElem _ [] ht] at hf
    obtain ⟨r1, r2, c1, c2, w1, w2, -, -, z1, z2, -, -, -, hs, -⟩ := b3 t e.1 e.2 hf
    rw [hs]
    exact hcsr _ (rdcs c1 z1 c2 z2).2
  · obtain ⟨x1, x2⟩ := rdct r1 hr1 r2 hr2
    obtain ⟨y1, y2⟩ := rdcs c1 hc1 c2 hc2
    have hx := hctr _ x2
    have hy := hcsr _ y2
    -- a value found at this place comes from these four entities
    have uniq : ∀ v, mapFind (out.getD (ct.getD (r1 * n2 + r2) 0).toNat []) (cs.getD (c1 * k2 + c2) 0) = some v →
        ∃ w1 w2, mapFind (W1.getD r1 []) (c1 : Int) = some w1 ∧ mapFind (W2.getD r2 []) (c2 : Int) = some w2 ∧ v = w1 * w2 := by
      intro v hv
      obtain ⟨p1, p2, d1, d2, w1, w2, z1, z2, z3, z4, z5, z6, z7, z8, z9⟩ := b3 _ _ _ hv
      rw [show (((ct.getD (r1 * n2 + r2) 0).toNat : Nat) : Int) = ct.getD (r1 * n2 + r2) 0 by omega] at z7
      have l1 : r1 * n2 + r2 < ct.length := by rw [hct]; exact idx_lt hr1 hr2
      have l2 : p1 * n2 + p2 < ct.length := by rw [hct]; exact idx_lt z1 z2
      have l3 : c1 * k2 + c2 < cs.length := by rw [hcs]; exact idx_lt hc1 hc2
      have l4 : d1 * k2 + d2 < cs.length := by rw [hcs]; exact idx_lt z3 z4
      rw [List.getD_eq_getElem _ _ l1, List.getD_eq_getElem _ _ l2] at z7
      rw [List.getD_eq_getElem _ _ l3, List.getD_eq_getElem _ _ l4] at z8
      obtain ⟨rfl, rfl⟩ := idx_inj hr2 z2 ((hct'.getElem_inj_iff).mp z7)
      obtain ⟨rfl, rfl⟩ := idx_inj hc2 z4 ((hcs'.getElem_inj_iff).mp z8)
      exact ⟨w1, w2, z5, z6, z9⟩
    rw [coef, rowAt, mapAt, show (((cs.getD (c1 * k2 + c2) 0).toNat : Nat) : Int) = cs.getD (c1 * k2 + c2) 0 by omega]
    cases hf : mapFind (out.getD (ct.getD (r1 * n2 + r2) 0).toNat []) (cs.getD (c1 * k2 + c2) 0) with
    | some v =>
      obtain ⟨w1, w2, e1, e2, rfl⟩ := uniq v hf
      simp only [coef, rowAt, mapAt, e1, e2, Option.getD_some]
    | none =>
      rw [Option.getD_none]
      by_cases hw1 : inRow W1 r1 c1
      · by_cases hw2 : inRow W2 r2 c2
        · exfalso
          obtain ⟨e1, g1, g1'⟩ := List.mem_map.mp hw1
          obtain ⟨e2, g2, g2'⟩ := List.mem_map.mp hw2
          have := o3 r2 hr2 e2 g2 r1 hr1 e1 g1
          simp only [Done] at this
          rw [g1', g2', Int.toNat_natCast, Int.toNat_natCast] at this
          exact mapFind_eq_none.mp hf this
        · rw [coef_not_in hw2, mul_zero]
      · rw [coef_not_in hw1, zero_mul]

-- two levels and three bases to one level and two bases, with a numbering of the target cells
example : CrudeOK ([[(0, 2), (1, 3)]] : List (Row ℚ)) 1 2 ∧ CrudeOK ([[(0, 1), (2, 5)], [(1, 7)]] : List (Row ℚ)) 2 3 :=
  ⟨⟨rfl, by unfold StrictSorted; decide +kernel, by decide +kernel⟩, ⟨rfl, by unfold StrictSorted; decide +kernel, by decide +kernel⟩⟩
example : ([0, 1, 2, 3, 4, 5] : List Int).Nodup ∧ ([1, 0] : List Int).Nodup := by decide
example : matrixByConvolution ([[(0, 2), (1, 3)]] : List (Row ℚ)) [[(0, 1), (2, 5)], [(1, 7)]] [0, 1, 2, 3, 4, 5] 3 [1, 0] =
    .ok [[(1, 14), (4, 21)], [(0, 2), (2, 10), (3, 3), (5, 15)]] := by decide +kernel

/-! ## Small coefficients -/

theorem mapSet_last {row : Row K} {k : Int} {v : K} (h : ∀ e ∈ row, e.1 < k) : mapSet row k v = row ++ [(k, v)] := by
  induction row with
  | nil => rfl
  | cons e row ih =>
    obtain ⟨a, b⟩ := e
    have ha : a < k := h (a, b) (by simp)
    rw [mapSet, if_neg (by omega), if_neg (by omega), ih fun e he => h e (List.mem_cons_of_mem _ he)]; rfl

/-- the row without its small coefficients -/
def keepBig (maxVal : K) (row : Row K) : Row K := row.filter fun e => |e.2| > maxVal

/-- the number of small coefficients of a row -/
def nbSmall (maxVal : K) (row : Row K) : Nat := row.countP fun e => |e.2| ≤ maxVal

theorem nullifyRow {maxVal : K} {row : Row K} {acc : Row K} {c : Nat} (hs : StrictSorted (mapKeys row)) (h : ∀ e ∈ acc, ∀ e' ∈ row, e.1 < e'.1) :
    row.foldl (fun (t : Row K × Nat) e => if |e.2| > maxVal then (mapSet t.1 e.1 e.2, t.2) else (t.1, t.2 + 1)) (acc, c) =
      (acc ++ keepBig maxVal row, c + nbSmall maxVal row) := by
  induction row generalizing acc c with
  | nil => simp [keepBig, nbSmall]
  | cons e row ih =>
    simp only [mapKeys, List.map_cons, StrictSorted, List.pairwise_cons] at hs
    have hlt : ∀ e' ∈ row, e.1 < e'.1 := fun e' he' => hs.1 _ (List.mem_map_of_mem he')
    rw [List.foldl_cons]
    by_cases hb : |e.2| > maxVal
    · rw [if_pos hb, mapSet_last (fun a ha => h a ha e (by simp)), ih hs.2]
      · have e1 : keepBig maxVal (e :: row) = e :: keepBig maxVal row := by rw [keepBig, List.filter_cons_of_pos (by simpa using hb)]; rfl
        have e2 : nbSmall maxVal (e :: row) = nbSmall maxVal row := by rw [nbSmall, List.countP_cons_of_neg (by simpa using hb)]; rfl
        rw [e1, e2, List.append_assoc]; rfl
      · intro a ha e' he'
        rcases List.mem_append.mp ha with ha | ha
        · exact h a ha e' (List.mem_cons_of_mem _ he')
        · rw [List.mem_singleton.mp ha]; exact hlt e' he'
    · rw [if_neg hb, ih hs.2 fun a ha e' he' => h a ha e' (List.mem_cons_of_mem _ he')]
      have e1 : keepBig maxVal (e :: row) = keepBig maxVal row := by rw [keepBig, List.filter_cons_of_neg (by simpa using hb)]; rfl
      have e2 : nbSmall maxVal (e :: row) = nbSmall maxVal row + 1 := by rw [nbSmall, List.countP_cons_of_pos (by simpa using hb)]; rfl
      rw [e1, e2]; congr 1; omega

theorem nullifyRows {maxVal : K} {W : List (Row K)} (hs : ∀ row ∈ W, StrictSorted (mapKeys row)) (out : List (Row K)) (c : Nat) :
    W.foldl (fun (s : List (Row K) × Nat) row =>
      let t := row.foldl (fun (t : Row K × Nat) e => if |e.2| > maxVal then (mapSet t.1 e.1 e.2, t.2) else (t.1, t.2 + 1)) (([] : Row K), s.2)
      (s.1 ++ [t.1], t.2)) (out, c) = (out ++ W.map (keepBig maxVal), c + (W.map (nbSmall maxVal)).sum) := by
  induction W generalizing out c with
  | nil => simp
  | cons row W ih =>
    rw [List.foldl_cons]
    simp only
    rw [nullifyRow (hs row (by simp)) (by simp), ih fun r hr => hs r (List.mem_cons_of_mem _ hr)]
    simp [Nat.add_assoc]

/-- **C82.** `nullifiedTinyCoeffInCrudeMatrixAbs` removes exactly the coefficients whose magnitude is not above the threshold, returns their number,
and leaves the object as it is when there are none. -/
theorem C82_small_removed {r : Rem K} (hs : ∀ row ∈ r.matrix, StrictSorted (mapKeys row)) (maxVal : K) :
    nullifiedTinyCoeffAbs r maxVal = ((r.matrix.map fun row => row.countP fun e => |e.2| ≤ maxVal).sum,
      { r with matrix := r.matrix.map fun row => row.filter fun e => |e.2| > maxVal }) := by
  rw [nullifiedTinyCoeffAbs]
  simp only
  rw [nullifyRows hs]
  simp only [List.nil_append, Nat.zero_add]
  refine Prod.ext rfl ?_
  simp only
  by_cases h : (r.matrix.map (nbSmall maxVal)).sum > 0
  · rw [if_pos h]; rfl
  · rw [if_neg h]
    have hz : ∀ row ∈ r.matrix, nbSmall maxVal row = 0 := by
      have := List.sum_eq_zero_iff.mp (Nat.eq_zero_of_not_pos h)
      exact fun row hrow => this _ (List.mem_map_of_mem hrow)
    have : (r.matrix.map fun row => row.filter fun e => |e.2| > maxVal) = r.matrix := by
      conv_rhs => rw [← List.map_id r.matrix]
      refine List.map_congr_left fun row hrow => ?_
      have := List.countP_eq_zero.mp (hz row hrow)
      exact List.filter_eq_self.mpr fun e he => by simpa using this e he
    rw [this]

theorem foldl_max_row (row : Row K) (m : K) : m ≤ row.foldl (fun m e => if |e.2| > m then |e.2| else m) m ∧
    (∀ e ∈ row, |e.2| ≤ row.foldl (fun m e => if |e.2| > m then |e.2| else m) m) ∧
    (row.foldl (fun m e => if |e.2| > m then |e.2| else m) m = m ∨ ∃ e ∈ row, |e.2| = row.foldl (fun m e => if |e.2| > m then |e.2| else m) m) := by
  induction row generalizing m with
  | nil => simp
  | cons e row ih =>
    rw [List.foldl_cons]
    obtain ⟨i1, i2, i3⟩ := ih (if |e.2| > m then |e.2| else m)
    refine ⟨le_trans ?_ i1, fun a ha => ?_, ?_⟩
    · split
      · rename_i h; exact h.le
      · exact le_refl _
    · rcases List.mem_cons.mp ha with rfl | ha
      · refine le_trans ?_ i1
        split
        · exact le_refl _
        · rename_i h; exact not_lt.mp h
      · exact i2 a ha
    · rcases i3 with h | ⟨a, ha, h⟩
      · by_cases hb : |e.2| > m
        · rw [if_pos hb] at h ⊢; exact Or.inr ⟨e, by simp, h.symm⟩
        · rw [if_neg hb] at h ⊢; exact Or.inl h
      · exact Or.inr ⟨a, List.mem_cons_of_mem _ ha, h⟩

theorem foldl_max_rows (W : List (Row K)) (m : K) : m ≤ W.foldl (fun m row => row.foldl (fun m e => if |e.2| > m then |e.2| else m) m) m ∧
    (∀ row ∈ W, ∀ e ∈ row, |e.2| ≤ W.foldl (fun m row => row.foldl (fun m e => if |e.2| > m then |e.2| else m) m) m) ∧
    (W.foldl (fun m row => row.foldl (fun m e => if |e.2| > m then |e.2| else m) m) m = m ∨
      ∃ row ∈ W, ∃ e ∈ row, |e.2| = W.foldl (fun m row => row.foldl (fun m e => if |e.2| > m then |e.2| else m) m) m) := by
  induction W generalizing m with
  | nil => simp
  | cons row W ih =>
    rw [List.foldl_cons]
    obtain ⟨j1, j2, j3⟩ := foldl_max_row row m
    obtain ⟨i1, i2, i3⟩ := ih (row.foldl (fun m e => if |e.2| > m then |e.2| else m) m)
    refine ⟨j1.trans i1, fun a ha e he => ?_, ?_⟩
    · rcases List.mem_cons.mp ha with rfl | ha
      · exact (j2 e he).trans i1
      · exact i2 a ha e he
    · rcases i3 with h | ⟨a, ha, e, he, h⟩
      · rw [h]
        rcases j3 with h' | ⟨e, he, h'⟩
        · exact Or.inl h'
        · exact Or.inr ⟨row, by simp, e, he, h'⟩
      · exact Or.inr ⟨a, List.mem_cons_of_mem _ ha, e, he, h⟩

/-- **C82.** `getMaxValueInCrudeMatrix` is the largest magnitude of a coefficient, zero for a matrix without coefficients. -/
theorem C82_max (r : Rem K) : (∀ row ∈ r.matrix, ∀ e ∈ row, |e.2| ≤ getMaxValueInCrudeMatrix r) ∧
    (getMaxValueInCrudeMatrix r = 0 ∨ ∃ row ∈ r.matrix, ∃ e ∈ row, |e.2| = getMaxValueInCrudeMatrix r) :=
  ⟨(foldl_max_rows r.matrix 0).2.1, (foldl_max_rows r.matrix 0).2.2⟩

/-- **C82.** `nullifiedTinyCoeffInCrudeMatrix`: -1 and no change when all the coefficients are zero, otherwise the threshold is a part of the largest
magnitude. -/
theorem C82_small_removed_relative {r : Rem K} (hs : ∀ row ∈ r.matrix, StrictSorted (mapKeys row)) (scale : K) :
    ((∀ row ∈ r.matrix, ∀ e ∈ row, e.2 = 0) → nullifiedTinyCoeff r scale = (-1, r)) ∧
    (∀ mx, (∃ row ∈ r.matrix, ∃ e ∈ row, |e.2| = mx) → mx ≠ 0 → (∀ row ∈ r.matrix, ∀ e ∈ row, |e.2| ≤ mx) →
      nullifiedTinyCoeff r scale = ((((r.matrix.map fun row => row.countP fun e => |e.2| ≤ scale * mx).sum : Nat) : Int),
        { r with matrix := r.matrix.map fun row => row.filter fun e => |e.2| > scale * mx })) := by
  obtain ⟨m1, m2⟩ := C82_max r
  constructor
  · intro h
    have : getMaxValueInCrudeMatrix r = 0 := by
      rcases m2 with h' | ⟨row, hrow, e, he, h'⟩
      · exact h'
      · rw [← h', h row hrow e he, abs_zero]
    rw [nullifiedTinyCoeff, if_pos this]
  · rintro mx ⟨row, hrow, e, he, h⟩ hz hm
    have hmx : getMaxValueInCrudeMatrix r = mx := by
      refine le_antisymm ?_ (h ▸ m1 row hrow e he)
      rcases m2 with h' | ⟨row', hrow', e', he', h'⟩
      · rw [h', ← h]; exact abs_nonneg _
      · rw [← h']; exact hm row' hrow' e' he'
    rw [nullifiedTinyCoeff, if_neg (by rw [hmx]; exact hz), hmx, C82_small_removed hs]

/-- **C82.** After the removal of small coefficients from a fresh matrix, the object is the one prepared with the reduced matrix: the transfers which
follow use this matrix only. -/
theorem C82_small_removed_then_transfer {r0 r : Rem K} {clock : Nat} (hc : clock ≠ 0) {src trg : RTempl} {W : List (Row K)}
    (hs : ∀ row ∈ W, StrictSorted (mapKeys row)) (h : setCrudeMatrix r0 clock src trg W = .ok r) (maxVal : K) :
    setCrudeMatrix r0 clock src trg (W.map fun row => row.filter fun e => |e.2| > maxVal) = .ok (nullifiedTinyCoeffAbs r maxVal).2 ∧
    RemReach src trg (W.map fun row => row.filter fun e => |e.2| > maxVal) (nullifiedTinyCoeffAbs r maxVal).2 := by
  obtain ⟨h1, rfl⟩ := setCrude_ok hs h
  have hs' : ∀ row ∈ (W.map fun row => row.filter fun e => |e.2| > maxVal), StrictSorted (mapKeys row) := by
    intro row hrow
    obtain ⟨row', hr', rfl⟩ := List.mem_map.mp hrow
    exact List.Pairwise.sublist (List.Sublist.map _ List.filter_sublist) (hs row' hr')
  have : setCrudeMatrix r0 clock src trg (W.map fun row => row.filter fun e => |e.2| > maxVal) = .ok (nullifiedTinyCoeffAbs
      ⟨some (src, trg), W, List.replicate W.length [], List.replicate src.nbTup [], r0.nature, clock⟩ maxVal).2 := by
    rw [C82_small_removed (by exact hs)]
    rw [setCrudeMatrix, if_neg (by rw [List.length_map, h1.len]; simp), if_neg, List.length_map]
    simp only [List.any_eq_true, not_exists, not_and, decide_eq_true_eq, not_or]
    intro row hrow e he
    obtain ⟨row', hr', rfl⟩ := List.mem_map.mp hrow
    have := h1.cols row' hr' e (List.mem_of_mem_filter he)
    omega
  exact ⟨this, .init hc hs' this⟩

-- the hypotheses on a concrete remapper
example := C82_small_removed_then_transfer (r0 := (newRemapper 3 : Rem ℚ)) (clock := 5) (src := exSrc) (trg := exTrg) (r := exRem) (W := exW) (by decide)
  (by unfold StrictSorted exW; decide +kernel) (by decide +kernel) 1
example : (nullifiedTinyCoeffAbs exRem 1).1 = 2 ∧ (nullifiedTinyCoeffAbs exRem 1).2.matrix = [[(1, 2)], [(2, 4)], []] := by decide +kernel
example : (nullifiedTinyCoeff exRem (1 / 2)).1 = 3 ∧ getMaxValueInCrudeMatrix exRem = 4 := by decide +kernel

/-- **C82 (finding).** When a transfer came before the removal, the denominators of the removed coefficients stay in the object and the denominators
which remain are read at the wrong places: a uniform field is not kept any more. -/
theorem C82_removed_after_transfer : ∃ (r r' : Rem ℚ) (f g g' : RField ℚ), RemReach ⟨0, 2⟩ ⟨0, 1⟩ [[(0, 1), (1, 2)]] r ∧
    RLiesOn f ⟨0, 2⟩ ∧ RLiesOn g ⟨0, 1⟩ ∧ f.nature = .intensiveMaximum ∧ f.arr = some (1, [1, 1]) ∧
    (nullifiedTinyCoeffAbs r 1).2.matrix = [[(1, 2)]] ∧
    transferUnderground (nullifiedTinyCoeffAbs r 1).2 f g (some 0) 0 = .ok (r', g') ∧ g'.arr = some (1, [2 / 3]) := by
  have h0 : RemReach ⟨0, 2⟩ ⟨0, 1⟩ [[(0, 1), (1, 2)]] (⟨some (⟨0, 2⟩, ⟨0, 1⟩), [[(0, 1), (1, 2)]], [[]], [[], []], .noNature, 5⟩ : Rem ℚ) :=
    .init (r0 := newRemapper 3) (clock := 5) (by decide) (by unfold StrictSorted; decide +kernel) (by decide +kernel)
  have h1 : RemReach ⟨0, 2⟩ ⟨0, 1⟩ [[(0, 1), (1, 2)]] (⟨some (⟨0, 2⟩, ⟨0, 1⟩), [[(0, 1), (1, 2)]], [[(0, 3), (1, 3)]], [[(0, 1)], [(0, 2)]], .intensiveMaximum, 5⟩ : Rem ℚ) :=
    .transfer (f := ⟨0, .intensiveMaximum, 2, 2, [1, 2], some (1, [1, 1])⟩) (g := ⟨0, .intensiveMaximum, 1, 2, [3], none⟩)
      (g' := ⟨0, .intensiveMaximum, 1, 2, [3], some (1, [1])⟩) (dft := some 0) (junk := 0) h0 ⟨rfl, rfl, rfl⟩ ⟨rfl, rfl, rfl⟩ (by decide +kernel)
  exact ⟨_, ⟨some (⟨0, 2⟩, ⟨0, 1⟩), [[(1, 2)]], [[(0, 3), (1, 2)]], [[(0, 1)], [(0, 2)]], .intensiveMaximum, 5⟩, ⟨0, .intensiveMaximum, 2, 2, [1, 2], some (1, [1, 1])⟩,
    ⟨0, .intensiveMaximum, 1, 2, [3], none⟩, ⟨0, .intensiveMaximum, 1, 2, [3], some (1, [2 / 3])⟩, h1, ⟨rfl, rfl, rfl⟩, ⟨rfl, rfl, rfl⟩, rfl, rfl,
    by decide +kernel, by decide +kernel, rfl⟩

end
end MC
