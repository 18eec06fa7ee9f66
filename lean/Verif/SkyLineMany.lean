import Verif.SkyLineProps

/-!
# C104: operations on several packs of skyline arrays
-/

namespace MC

theorem packRead {s : SkyL} {ps : List (List Int)} (h : s.Packs ps) {i : Nat} (hi : i < ps.length) :
    rd s.idx (i : Int) = .ok ((ps.take i).flatten.length : Int) ∧
    rd s.idx ((i : Int) + 1) = .ok (((ps.take i).flatten.length : Int) + ps[i].length) ∧
    readIn s.vals ((ps.take i).flatten.length : Int) (((ps.take i).flatten.length : Int) + ps[i].length) = .ok ps[i] := by
  obtain ⟨e, hl⟩ := split_at ps hi
  obtain ⟨hv, hx⟩ := h
  have e1 := rd_sky_mid (ps.take i) ps[i] (ps.drop (i + 1)) (i := i) (by omega)
  have e2 := rd_sky_next (ps.take i) ps[i] (ps.drop (i + 1)) (i := (i : Int) + 1) (by omega)
  rw [← e] at e1 e2
  refine ⟨by rw [hx, e1], by rw [hx, e2], ?_⟩
  have e3 : ps.flatten = (ps.take i).flatten ++ ps[i] ++ (ps.drop (i + 1)).flatten := by
    have := congrArg List.flatten e
    rwa [List.flatten_append, List.flatten_cons, ← List.append_assoc] at this
  rw [hv, e3]
  exact readIn_mid rfl rfl

theorem map_getD_range {α : Type} (l : List α) (d : α) : (List.range l.length).map (fun k => l.getD k d) = l := by
  apply List.ext_getElem
  · simp
  · intro i h1 h2
    simp [h2]

theorem readPacks_ok {s : SkyL} {ps : List (List Int)} (h : s.Packs ps) : s.readPacks = .ok ps := by
  rw [SkyL.readPacks, h.2, skyIdx_length, Nat.add_sub_cancel]
  rw [mapM_ok_map (g := fun k => ps.getD k [])]
  · rw [map_getD_range]
  · intro k hk
    have hk' : k < ps.length := List.mem_range.1 hk
    obtain ⟨h1, h2, h3⟩ := packRead h hk'
    rw [h.2] at h1 h2
    rw [h1, ok_bind, h2, ok_bind, h3]
    simp [hk']

/-! ## Deletion of several packs -/

/-- The packs whose number, counted from `b`, is not in `D` -/
def keepNot (b : Nat) (R : List (List Int)) (D : List Int) : List (List Int) :=
  ((R.zipIdx b).filter fun q => decide ((q.2 : Int) ∉ D)).map (·.1)

theorem keepNot_none (R : List (List Int)) (b : Nat) (D : List Int) (h : ∀ d ∈ D, d ≥ (b : Int) + R.length) : keepNot b R D = R := by
  induction R generalizing b with
  | nil => rfl
  | cons p R ih =>
    have hb : (b : Int) ∉ D := by
      intro hm
      have := h _ hm
      simp at this
      omega
    have hi := ih (b + 1) (fun d hd => by have := h d hd; simp at this; push_cast; omega)
    rw [keepNot] at hi ⊢
    rw [List.zipIdx_cons, List.filter_cons, if_pos (by simpa using hb), List.map_cons, hi]

theorem keepNot_split (R1 : List (List Int)) (p : List Int) (R2 : List (List Int)) (b : Nat) (k : Int) (D : List Int) (hk : k = (b : Int) + R1.length)
    (hD : ∀ d ∈ D, k < d) : keepNot b (R1 ++ p :: R2) (k :: D) = R1 ++ keepNot (b + R1.length + 1) R2 D := by
  have h1 : keepNot b R1 (k :: D) = R1 := by
    apply keepNot_none
    intro d hd
    rcases List.mem_cons.1 hd with rfl | hd
    · omega
    · have := hD d hd
      omega
  rw [keepNot] at h1 ⊢
  rw [List.zipIdx_append, List.filter_append, List.map_append, h1, List.zipIdx_cons, List.filter_cons, if_neg (by simp; omega)]
  rw [keepNot]
  congr 2
  apply List.filter_congr
  intro q hq
  have := List.le_snd_of_mem_zipIdx hq
  have h2 : (q.2 : Int) ≠ k := by omega
  simp [h2]

theorem moveNZ_down {P D S T : List Int} {a b c : Int} (ha : a = P.length + D.length) (hb : b = P.length + D.length + S.length)
    (hc : c = P.length) : ∃ W, W.length = D.length ∧ moveNZ (P ++ D ++ S ++ T) a b c = .ok (P ++ S ++ W ++ T) := by
  rw [moveNZ]
  by_cases h : a = 0
  · have hP : P = [] := List.length_eq_zero_iff.1 (by omega)
    have hD : D = [] := List.length_eq_zero_iff.1 (by omega)
    refine ⟨[], by simp [hD], ?_⟩
    rw [if_neg (by simpa using h)]
    simp [hP, hD]
  · rw [if_pos h]
    exact moveIn_down ha hb hc

theorem moveAddNZ_down {P D S T : List Int} {a b c d : Int} (ha : a = P.length + D.length) (hb : b = P.length + D.length + S.length)
    (hc : c = P.length) (h0 : a = 0 → d = 0) : ∃ W, W.length = D.length ∧ moveAddNZ (P ++ D ++ S ++ T) a b c d = .ok (P ++ S.map (· + d) ++ W ++ T) := by
  rw [moveAddNZ]
  by_cases h : a = 0
  · have hP : P = [] := List.length_eq_zero_iff.1 (by omega)
    have hD : D = [] := List.length_eq_zero_iff.1 (by omega)
    refine ⟨[], by simp [hD], ?_⟩
    rw [if_neg (by simpa using h)]
    simp [hP, hD, h0 h]
  · rw [if_pos h]
    obtain ⟨W, hW, hm⟩ := moveIn_down (T := T) ha hb hc
    refine ⟨W.map (· + d), by simp [hW], ?_⟩
    have e : P ++ S ++ W ++ T = P ++ (S ++ W) ++ T := by simp
    rw [hm, ok_bind, e, addRange_mid (by omega) (by simp; omega)]
    simp

/-- the values, all packs of `D` deleted -/
theorem delVal_fold (D : List Int) : ∀ (idx : List Int) (done K R : List (List Int)) (dead : List Int), idx = skyIdx (done ++ R) →
    done.flatten.length = K.flatten.length + dead.length →
    D.Pairwise (· < ·) → (∀ d ∈ D, (done.length : Int) ≤ d ∧ d < (done ++ R).length) →
    ∃ K' R' dead', D.foldlM (delValStep idx) (K.flatten ++ dead ++ R.flatten, (K.flatten.length : Int), (K.flatten.length : Int) + dead.length) =
        .ok (K'.flatten ++ dead' ++ R'.flatten, (K'.flatten.length : Int), (K'.flatten.length : Int) + dead'.length) ∧
      K' ++ R' = K ++ keepNot done.length R D ∧
      K'.flatten.length + dead'.length + R'.flatten.length = K.flatten.length + dead.length + R.flatten.length := by
  induction D with
  | nil =>
    intro idx done K R dead _ _ _ _
    exact ⟨K, R, dead, rfl, by rw [keepNot_none _ _ _ (by simp)], rfl⟩
  | cons k D ih =>
    intro idx done K R dead hx hl hD hr
    rw [List.pairwise_cons] at hD
    obtain ⟨hk1, hk2⟩ := hr k (by simp)
    have hkl : (k - done.length).toNat < R.length := by simp at hk2; omega
    obtain ⟨e, hl1⟩ := split_at R hkl
    generalize hR1 : R.take (k - done.length).toNat = R1 at *
    generalize R[(k - done.length).toNat] = p at *
    generalize R.drop ((k - done.length).toNat + 1) = R2 at *
    subst e
    have hx' : idx = skyIdx ((done ++ R1) ++ p :: R2) := by rw [hx]; simp
    rw [List.foldlM_cons, delValStep, hx', rd_sky_mid _ _ _ (by simp; omega), ok_bind]
    simp only
    have e2 : K.flatten ++ dead ++ (R1 ++ p :: R2).flatten = K.flatten ++ dead ++ R1.flatten ++ (p ++ R2.flatten) := by simp
    obtain ⟨W, hW, hm⟩ := moveNZ_down (P := K.flatten) (D := dead) (S := R1.flatten) (T := p ++ R2.flatten) (a := (K.flatten.length : Int) + dead.length)
      (b := ((done ++ R1).flatten.length : Int)) (c := (K.flatten.length : Int)) rfl (by simp at hl ⊢; omega) rfl
    rw [e2, hm, ok_bind, rd_sky_next _ _ _ (by simp; omega), ok_bind, ok_bind]
    obtain ⟨K', R', dead', h1, h2, h5⟩ := ih idx (done ++ R1 ++ [p]) (K ++ R1) R2 (W ++ p) (by rw [hx']; simp) (by simp at hl ⊢; omega) hD.2 (by
      intro d hd
      have h3 := hD.1 d hd
      have h4 := (hr d (by simp [hd])).2
      simp at h4 ⊢
      omega)
    refine ⟨K', R', dead', ?_, ?_, ?_⟩
    · rw [← h1, ← hx']
      congr 1
      refine Prod.ext ?_ (Prod.ext ?_ ?_)
      · simp
      · simp at hl ⊢; omega
      · simp at hl ⊢; omega
    · rw [h2, keepNot_split R1 p R2 done.length k D (by omega) hD.1]
      simp [Nat.add_assoc]
    · rw [h5]; simp; omega

/-- the index, all packs of `D` deleted -/
theorem delIdx_fold (D : List Int) : ∀ (K R : List (List Int)) (dead : List Int) (off : Int), (dead = [] → K = [] ∧ off = 0) →
    D.Pairwise (· < ·) → (∀ d ∈ D, ((K.length + dead.length : Nat) : Int) ≤ d ∧ d < (K.length + dead.length + R.length : Nat)) →
    ∃ K' R' dead' off', D.foldlM delIdxStep (preIdx K ++ dead ++ (skyIdx R).map (· + ((K.flatten.length : Int) + off)), off, (K.length : Int), ((K.length + dead.length : Nat) : Int), (dead.length : Int)) =
        .ok (preIdx K' ++ dead' ++ (skyIdx R').map (· + ((K'.flatten.length : Int) + off')), off', (K'.length : Int), ((K'.length + dead'.length : Nat) : Int), (dead'.length : Int)) ∧
      (dead' = [] → K' = [] ∧ off' = 0) ∧ K' ++ R' = K ++ keepNot (K.length + dead.length) R D ∧
      K'.length + dead'.length + R'.length = K.length + dead.length + R.length := by
  induction D with
  | nil =>
    intro K R dead off h0 _ _
    exact ⟨K, R, dead, off, rfl, h0, by rw [keepNot_none _ _ _ (by simp)], rfl⟩
  | cons k D ih =>
    intro K R dead off h0 hD hr
    rw [List.pairwise_cons] at hD
    obtain ⟨hk1, hk2⟩ := hr k (by simp)
    have hkl : (k - (K.length + dead.length : Nat)).toNat < R.length := by omega
    obtain ⟨e, hl1⟩ := split_at R hkl
    generalize hR1 : R.take (k - (K.length + dead.length : Nat)).toNat = R1 at *
    generalize R[(k - (K.length + dead.length : Nat)).toNat] = p at *
    generalize R.drop ((k - (K.length + dead.length : Nat)).toNat + 1) = R2 at *
    subst e
    rw [List.foldlM_cons, delIdxStep]
    simp only
    have e2 : preIdx K ++ dead ++ (skyIdx (R1 ++ p :: R2)).map (· + ((K.flatten.length : Int) + off)) =
        preIdx K ++ dead ++ (preIdx R1).map (· + ((K.flatten.length : Int) + off)) ++
          ((R1.flatten.length : Int) + ((K.flatten.length : Int) + off)) :: (skyIdx R2).map (· + ((K ++ R1).flatten.length + (off + p.length))) := by
      rw [skyIdx_mid, List.map_append, List.map_cons, List.map_map, ← List.append_assoc]
      congr 2
      apply List.map_congr_left
      intro x _
      simp
      omega
    obtain ⟨W, hW, hm⟩ := moveAddNZ_down (P := preIdx K) (D := dead) (S := (preIdx R1).map (· + ((K.flatten.length : Int) + off)))
      (T := ((R1.flatten.length : Int) + ((K.flatten.length : Int) + off)) :: (skyIdx R2).map (· + ((K ++ R1).flatten.length + (off + p.length))))
      (a := ((K.length + dead.length : Nat) : Int)) (b := k) (c := (K.length : Int)) (d := -off) (by simp) (by simp; omega) (by simp) (by
        intro h
        have := h0 (List.length_eq_zero_iff.1 (by omega))
        omega)
    have e3 : preIdx K ++ ((preIdx R1).map (· + ((K.flatten.length : Int) + off))).map (· + -off) = preIdx (K ++ R1) := by
      rw [preIdx_append, List.map_map]
      congr 1
      apply List.map_congr_left
      intro x _
      simp
      omega
    rw [e2, hm, ok_bind, e3]
    have e4 : rd (preIdx (K ++ R1) ++ W ++ ((R1.flatten.length : Int) + ((K.flatten.length : Int) + off)) :: (skyIdx R2).map (· + ((K ++ R1).flatten.length + (off + p.length)))) (k + 1) =
        .ok ((K ++ R1).flatten.length + (off + p.length)) := by
      obtain ⟨T, hT, _⟩ := skyIdx_head R2
      have : preIdx (K ++ R1) ++ W ++ ((R1.flatten.length : Int) + ((K.flatten.length : Int) + off)) :: (skyIdx R2).map (· + ((K ++ R1).flatten.length + (off + p.length))) =
          (preIdx (K ++ R1) ++ W ++ [(R1.flatten.length : Int) + ((K.flatten.length : Int) + off)]) ++
            (0 + ((K ++ R1).flatten.length + (off + p.length))) :: T.map (· + ((K ++ R1).flatten.length + (off + p.length))) := by
        rw [hT]; simp
      rw [this, rd_mid (by simp; omega)]
      simp
    rw [e4, ok_bind, rd_mid (by simp; omega), ok_bind, ok_bind]
    obtain ⟨K', R', dead', off', h1, h2, h3, h4⟩ := ih (K ++ R1) R2 (W ++ [(R1.flatten.length : Int) + ((K.flatten.length : Int) + off)]) (off + p.length) (by simp) hD.2 (by
      intro d hd
      have h3 := hD.1 d hd
      have h4 := (hr d (by simp [hd])).2
      simp at h4 ⊢
      omega)
    refine ⟨K', R', dead', off', ?_, h2, ?_, ?_⟩
    · rw [← h1]
      congr 1
      refine Prod.ext ?_ (Prod.ext ?_ (Prod.ext ?_ (Prod.ext ?_ ?_)))
      · simp
      · simp; omega
      · simp; omega
      · simp; omega
      · simp; omega
    · rw [h3, keepNot_split R1 p R2 _ k D (by omega) hD.1]
      have : (K ++ R1).length + (W ++ [(R1.flatten.length : Int) + ((K.flatten.length : Int) + off)]).length = K.length + dead.length + R1.length + 1 := by
        simp; omega
      rw [this, List.append_assoc]
    · rw [h4]; simp; omega

theorem forM_ok {α : Type} {l : List α} {f : α → M Unit} (h : ∀ x ∈ l, f x = .ok ()) : l.forM f = .ok () := by
  induction l with
  | nil => rfl
  | cons a l ih =>
    have : (a :: l).forM f = (f a >>= fun _ => l.forM f) := rfl
    rw [this, h a (by simp), ok_bind, ih fun x hx => h x (by simp [hx])]

theorem C104_deleteSimplePacks (junk : Nat → Int) {s : SkyL} {ps : List (List Int)} (h : s.Packs ps) {ids : List Int}
    (hi : ∀ d ∈ ids, 0 ≤ d ∧ d < ps.length) :
    ∃ s', s.deleteSimplePacks junk ids = .ok s' ∧ s'.Packs ((ps.zipIdx.filter fun q => decide ((q.2 : Int) ∉ ids)).map (·.1)) ∧ s'.si = s.si := by
  obtain ⟨hv, hx⟩ := h
  have hS : (setInsertAll [] ids).Pairwise (· < ·) := sorted_setInsertAll List.Pairwise.nil
  have hmem : ∀ d, d ∈ setInsertAll [] ids ↔ d ∈ ids := fun d => by rw [mem_setInsertAll]; simp
  have hkeep : (ps.zipIdx.filter fun q => decide ((q.2 : Int) ∉ ids)).map (·.1) = keepNot 0 ps (setInsertAll [] ids) := by
    rw [keepNot]
    congr 1
    apply List.filter_congr
    intro q _
    exact decide_eq_decide.2 (not_congr (hmem _).symm)
  rw [hkeep]
  refine ⟨⟨s.si, skyIdx (keepNot 0 ps (setInsertAll [] ids)), (keepNot 0 ps (setInsertAll [] ids)).flatten⟩, ?_, ⟨rfl, rfl⟩, rfl⟩
  rw [SkyL.deleteSimplePacks, forM_ok, ok_bind]
  · simp only
    have hr : ∀ d ∈ setInsertAll [] ids, 0 ≤ d ∧ d < (ps.length : Int) := fun d hd => hi d ((hmem d).1 hd)
    obtain ⟨K, R, dead, h1, h2, h7⟩ := delVal_fold (setInsertAll [] ids) s.idx [] [] ps [] (by simpa using hx) rfl hS (by simpa using hr)
    obtain ⟨K2, R2, dead2, off2, h3, h4, h5, h6⟩ := delIdx_fold (setInsertAll [] ids) [] ps [] 0 (by simp) hS (by simpa using hr)
    simp only [List.flatten_nil, List.length_nil, Nat.cast_zero, Int.add_zero, List.nil_append, preIdx_nil, List.append_nil, ← hv, List.map_id', ← hx, Nat.zero_add] at h1 h2 h3 h5 h6 h7
    obtain ⟨W, hW, hm⟩ := moveNZ_down (P := K.flatten) (D := dead) (S := R.flatten) (T := []) (a := (K.flatten.length : Int) + dead.length)
      (b := (s.vals.length : Int)) (c := (K.flatten.length : Int)) rfl (by omega) rfl
    obtain ⟨W2, hW2, hm2⟩ := moveAddNZ_down (P := preIdx K2) (D := dead2) (S := (skyIdx R2).map (· + ((K2.flatten.length : Int) + off2))) (T := [])
      (a := ((K2.length + dead2.length : Nat) : Int)) (b := (s.idx.length : Int)) (c := (K2.length : Int)) (d := -off2) (by simp)
      (by rw [hx]; simp; omega) (by simp) (by
        intro h
        have := h4 (List.length_eq_zero_iff.1 (by omega))
        omega)
    rw [List.append_nil, List.append_nil] at hm hm2
    rw [h1, ok_bind]
    simp only
    rw [hm, ok_bind, reAllocL_cut junk (by rw [List.length_append]; omega), ok_bind, h3, ok_bind]
    simp only
    have e : preIdx K2 ++ ((skyIdx R2).map (· + ((K2.flatten.length : Int) + off2))).map (· + -off2) = skyIdx (K2 ++ R2) := by
      rw [skyIdx_app, List.map_map]
      congr 1
      apply List.map_congr_left
      intro x _
      simp
      omega
    rw [hm2, ok_bind, e, reAllocL_cut junk (by rw [hx]; simp; omega), ok_bind, h5, ← h2, List.flatten_append]
  · intro d hd
    have := hi d hd
    rw [SkyL.validIdx, if_neg (by rw [hx, skyIdx_length]; omega)]

/-! ## Replacement of several packs -/

theorem wr_fold {β γ : Type} (f : γ → β) (g : List (Int × γ)) : ∀ l : List β, (∀ q ∈ g, 0 ≤ q.1 ∧ q.1 < l.length) →
    g.foldlM (fun (l : List β) q => wr l q.1 (f q.2)) l = .ok (g.foldl (fun (l : List β) q => l.set q.1.toNat (f q.2)) l) := by
  induction g with
  | nil => intro l _; rfl
  | cons q g ih =>
    intro l h
    have := h q (by simp)
    rw [List.foldlM_cons, wr_ok this.1 (by omega), ok_bind, ih _ (by intro q' hq'; have := h q' (by simp [hq']); simpa using this), List.foldl_cons]

theorem foldl_set_map {β δ : Type} (f : δ → β) (g : List (Int × δ)) : ∀ l : List δ,
    g.foldl (fun (l : List β) q => l.set q.1.toNat (f q.2)) (l.map f) = (g.foldl (fun (l : List δ) q => l.set q.1.toNat q.2) l).map f := by
  induction g with
  | nil => intro l; rfl
  | cons q g ih =>
    intro l
    rw [List.foldl_cons, List.foldl_cons, ← ih, List.map_set]

/-- `b` holds the values of `a`, each once, ascending -/
def IsSetOf (a b : List Int) : Prop := b.Pairwise (· < ·) ∧ ∀ x, x ∈ b ↔ x ∈ a

theorem isSetOf_setInsertAll (a : List Int) : IsSetOf a (setInsertAll [] a) :=
  ⟨sorted_setInsertAll List.Pairwise.nil, fun x => by rw [mem_setInsertAll]; simp⟩

theorem forall2_map_right {α β : Type} {R : α → β → Prop} (f : α → β) (h : ∀ a, R a (f a)) (l : List α) : List.Forall₂ R l (l.map f) := by
  induction l with
  | nil => exact .nil
  | cons a l ih => exact .cons (h a) ih

/-- All packs become sets, also those which are not replaced. -/
theorem C104_replaceSimplePacks {s : SkyL} {ps : List (List Int)} (h : s.Packs ps) {ids : List Int} (hne : ids ≠ [])
    (hi : ∀ d ∈ ids, 0 ≤ d ∧ d < ps.length) {packs : List (List Int)} (hl : ids.length = packs.length) :
    ∃ s' ps', s.replaceSimplePacks ids packs = .ok s' ∧ s'.Packs ps' ∧ s'.si = s.si ∧
      List.Forall₂ IsSetOf ((ids.zip packs).foldl (fun l q => l.set q.1.toNat q.2) ps) ps' := by
  obtain ⟨hv, hx⟩ := id h
  refine ⟨⟨s.si, _, _⟩, ((ids.zip packs).foldl (fun l q => l.set q.1.toNat q.2) ps).map (setInsertAll []), ?_, ⟨rfl, rfl⟩, rfl,
    forall2_map_right _ isSetOf_setInsertAll _⟩
  rw [SkyL.replaceSimplePacks, if_neg hne, forM_ok, ok_bind, if_neg (by simpa using hl)]
  · have hm : ((List.range (s.idx.length - 1)).mapM fun k : Nat => do
        let a ← rd s.idx (k : Int)
        let b ← rd s.idx (k + 1 : Int)
        let p ← readIn s.vals a b
        .ok (setInsertAll [] p)) = (.ok (ps.map (setInsertAll [])) : M (List (List Int))) := by
      have hlen : s.idx.length - 1 = ps.length := by rw [hx, skyIdx_length]; omega
      rw [mapM_ok_map (g := fun k => setInsertAll [] (ps.getD k [])), hlen]
      · conv_rhs => rw [← map_getD_range ps [], List.map_map]
        rfl
      · intro k hk
        have hk' : k < ps.length := by rw [← hlen]; exact List.mem_range.1 hk
        obtain ⟨h1, h2, h3⟩ := packRead h hk'
        rw [h1, ok_bind, h2, ok_bind, h3, ok_bind]
        simp [hk']
    rw [hm, ok_bind, wr_fold (setInsertAll []), ok_bind, foldl_set_map, scanl_sizes]
    · rfl
    · intro q hq
      have := hi q.1 (List.of_mem_zip hq).1
      simpa using this
  · intro d hd
    have := hi d hd
    rw [SkyL.validIdx, if_neg (by rw [hx, skyIdx_length]; omega)]

/-! ## Packs made from packs -/

theorem thr_inner (t : Int) (p : List Int) : ∀ o : List Int × List Int,
    p.foldl (fun (o : List Int × List Int) v => if v < t then (o.1 ++ [v], o.2) else (o.1, o.2 ++ [v])) o =
      (o.1 ++ p.filter (fun v => decide (v < t)), o.2 ++ p.filter (fun v => decide (t ≤ v))) := by
  induction p with
  | nil => intro o; simp
  | cons v p ih =>
    intro o
    rw [List.foldl_cons, ih]
    by_cases hv : v < t
    · have : ¬ t ≤ v := by omega
      simp [hv, this]
    · have : t ≤ v := by omega
      simp [hv, this]

theorem thr_outer (t : Int) (ps : List (List Int)) : ∀ o : List Int × List Int,
    ps.foldl (fun (o : List Int × List Int) p => p.foldl (fun o v => if v < t then (o.1 ++ [v], o.2) else (o.1, o.2 ++ [v])) o) o =
      (o.1 ++ (ps.map fun p => p.filter (fun v => decide (v < t))).flatten, o.2 ++ (ps.map fun p => p.filter (fun v => decide (t ≤ v))).flatten) := by
  induction ps with
  | nil => intro o; simp
  | cons p ps ih =>
    intro o
    rw [List.foldl_cons, ih, thr_inner]
    simp

theorem C104_thresholdPerPack {s : SkyL} {ps : List (List Int)} (h : s.Packs ps) (t : Int) :
    ∃ l r, s.thresholdPerPack t = .ok (l, r) ∧ l.Packs (ps.map fun p => p.filter fun v => decide (v < t)) ∧
      r.Packs (ps.map fun p => p.filter fun v => decide (t ≤ v)) := by
  refine ⟨⟨[], skyIdx (ps.map fun p => p.filter fun v => decide (v < t)), (ps.map fun p => p.filter fun v => decide (v < t)).flatten⟩,
    ⟨[], skyIdx (ps.map fun p => p.filter fun v => decide (t ≤ v)), (ps.map fun p => p.filter fun v => decide (t ≤ v)).flatten⟩, ?_, ⟨rfl, rfl⟩, ⟨rfl, rfl⟩⟩
  rw [SkyL.thresholdPerPack, readPacks_ok h, ok_bind]
  simp only
  rw [thr_outer, ← scanl_sizes, ← scanl_sizes, List.map_map, List.map_map, List.nil_append, List.nil_append]
  congr 6
  · funext p
    simp [List.countP_eq_length_filter]
  · funext p
    have h1 := List.length_eq_countP_add_countP (fun v => decide (v < t)) (l := p)
    simp only [Function.comp]
    rw [← List.countP_eq_length_filter]
    simp at h1
    omega

theorem C104_uniqueNotSortedByPack {s : SkyL} {ps : List (List Int)} (h : s.Packs ps) :
    ∃ s' ps', s.uniqueByPack = .ok s' ∧ s'.Packs ps' ∧ List.Forall₂ IsSetOf ps ps' := by
  refine ⟨⟨[], skyIdx (ps.map (setInsertAll [])), (ps.map (setInsertAll [])).flatten⟩, ps.map (setInsertAll []), ?_, ⟨rfl, rfl⟩, forall2_map_right _ isSetOf_setInsertAll _⟩
  rw [SkyL.uniqueByPack, readPacks_ok h, ok_bind, ← scanl_sizes, List.map_map]
  rfl

/-- Pack `j` of the result is made of the packs from `ids[j]` to `ids[j+1]`. -/
theorem C104_groupPacks {s : SkyL} {ps : List (List Int)} (h : s.Packs ps) {ids : List Nat} (hne : ids ≠ []) (hi : ∀ d ∈ ids, d ≤ ps.length) :
    ∃ s', s.groupPacks (ids.map fun d : Nat => (d : Int)) = .ok s' ∧ s'.idx.length = ids.length ∧
      ∀ (j a b : Nat), ids[j]? = some a → ids[j + 1]? = some b → a ≤ b → s'.getSimplePackSafe j = .ok ((ps.drop a).take (b - a)).flatten := by
  refine ⟨⟨[], ids.map fun d => ((ps.take d).flatten.length : Int), s.vals⟩, ?_, by simp, ?_⟩
  · rw [SkyL.groupPacks, if_neg (by simpa using hne)]
    have : (ids.map fun d : Nat => (d : Int)).mapM (fun i : Int => if i < 0 ∨ i ≥ s.idx.length then throwX else rd s.idx i) =
        (.ok ((ids.map fun d : Nat => (d : Int)).map fun i => ((ps.take i.toNat).flatten.length : Int)) : M (List Int)) := by
      apply mapM_ok_map
      intro i hm
      obtain ⟨d, hd, rfl⟩ := List.mem_map.1 hm
      have hd' := hi d hd
      rw [if_neg (by rw [h.2, skyIdx_length]; omega), h.2]
      exact rd_of_getElem? (by omega) (by rw [Int.toNat_natCast, skyIdx_getElem? _ hd'])
    rw [this, ok_bind, List.map_map]
    rfl
  · intro j a b ha hb hab
    have hjl : j + 1 < ids.length := (List.getElem?_eq_some_iff.1 hb).1
    have hb' : b ≤ ps.length := hi b (List.mem_of_getElem? hb)
    rw [SkyL.getSimplePackSafe, if_neg (by simp; omega)]
    have e1 : rd (ids.map fun d => ((ps.take d).flatten.length : Int)) (j : Int) = .ok ((ps.take a).flatten.length : Int) :=
      rd_of_getElem? (by omega) (by simp [ha])
    have e2 : rd (ids.map fun d => ((ps.take d).flatten.length : Int)) ((j : Int) + 1) = .ok ((ps.take b).flatten.length : Int) :=
      rd_of_getElem? (by omega) (by
        have : ((j : Int) + 1).toNat = j + 1 := by omega
        rw [this, List.getElem?_map, hb]; rfl)
    simp only
    rw [e1, ok_bind, e2, ok_bind, h.1]
    have e3 : ps = ps.take a ++ (ps.drop a).take (b - a) ++ ps.drop b := by
      have : ps.drop b = (ps.drop a).drop (b - a) := by rw [List.drop_drop]; congr 1; omega
      rw [this, List.append_assoc, List.take_append_drop, List.take_append_drop]
    have e4 : ps.take b = ps.take a ++ (ps.drop a).take (b - a) := by
      conv_lhs => rw [e3]
      rw [List.take_append_of_le_length (by simp; omega), List.take_of_length_le (by simp; omega)]
    rw [e4]
    conv_lhs => arg 1; rw [e3]
    rw [List.flatten_append, List.flatten_append]
    exact readIn_mid rfl (by simp)

theorem C104_groupPacks_throws {s : SkyL} {ids : List Int} (h : ids = [] ∨ ∃ d ∈ ids, d < 0 ∨ d ≥ s.idx.length) :
    s.groupPacks ids = throwX := by
  rcases h with rfl | ⟨d, hd, hr⟩
  · rfl
  · rw [SkyL.groupPacks]
    split
    · rfl
    · have key : ∀ l : List Int, d ∈ l → (l.mapM fun i : Int => if i < 0 ∨ i ≥ s.idx.length then throwX else rd s.idx i) = throwX := by
        intro l
        induction l with
        | nil => simp
        | cons a l ih =>
          intro hm
          rw [List.mapM_cons]
          by_cases ha : a < 0 ∨ a ≥ s.idx.length
          · rw [if_pos ha]; rfl
          · rw [if_neg ha, rd_ok (by omega) (by omega), ok_bind, ih]
            · rfl
            · rcases List.mem_cons.1 hm with rfl | h
              · exact absurd hr ha
              · exact h
      rw [key ids hd]
      rfl

/-! ## Packs of several arrays put together -/

theorem aggSize {ks : List (SkyL × List (List Int))} {n : Nat} (h : ∀ q ∈ ks, q.1.Packs q.2 ∧ q.2.length = n) {k : Nat} (hk : k < n) : ∀ a : Int,
    (ks.map (·.1)).foldlM (fun (n : Int) s => do
        let b ← rd s.idx (k + 1 : Int)
        let a ← rd s.idx (k : Int)
        .ok (n + (b - a))) a = (.ok (a + (((ks.map fun q => q.2.getD k []).flatten.length : Nat) : Int)) : M Int) := by
  induction ks with
  | nil => intro a; simp; rfl
  | cons q ks ih =>
    intro a
    obtain ⟨hq, hl⟩ := h q (by simp)
    obtain ⟨h1, h2, _⟩ := packRead hq (i := k) (by omega)
    rw [List.map_cons, List.foldlM_cons, h2, ok_bind, h1, ok_bind, ok_bind, ih fun q hq => h q (by simp [hq])]
    have : q.2.getD k [] = q.2[k]'(by omega) := by simp [List.getD, show k < q.2.length by omega]
    rw [List.map_cons, List.flatten_cons, List.length_append, this]
    congr 1
    push_cast
    omega

/-- Pack `k` of the result is made of the packs `k` of the arrays, in this order. -/
theorem C104_AggregatePacks {ks : List (SkyL × List (List Int))} {n : Nat} (hne : ks ≠ []) (h : ∀ q ∈ ks, q.1.Packs q.2 ∧ q.2.length = n) :
    ∃ s', aggregatePacks (ks.map (·.1)) = .ok s' ∧ s'.Packs ((List.range n).map fun k => (ks.map fun q => q.2.getD k []).flatten) := by
  refine ⟨⟨[], skyIdx ((List.range n).map fun k => (ks.map fun q => q.2.getD k []).flatten), ((List.range n).map fun k => (ks.map fun q => q.2.getD k []).flatten).flatten⟩,
    ?_, ⟨rfl, rfl⟩⟩
  obtain ⟨q0, ks', rfl⟩ := List.exists_cons_of_ne_nil hne
  have hlen : ∀ q ∈ q0 :: ks', q.1.idx.length = n + 1 := fun q hq => by rw [(h q hq).1.2, skyIdx_length, (h q hq).2]
  have hany : ((q0 :: ks').map (·.1)).any (fun s => decide (s.idx.length ≠ q0.1.idx.length)) = false := by
    rw [List.any_eq_false]
    intro s hs
    obtain ⟨q, hq, rfl⟩ := List.mem_map.1 hs
    simp [hlen q hq, hlen q0 (by simp)]
  have e : aggregatePacks ((q0 :: ks').map (·.1)) = (do
      let sizes ← (List.range (q0.1.idx.length - 1)).mapM fun k : Nat => ((q0 :: ks').map (·.1)).foldlM (fun (n : Int) s => do
        let b ← rd s.idx (k + 1 : Int)
        let a ← rd s.idx (k : Int)
        .ok (n + (b - a))) 0
      let ps ← (List.range (q0.1.idx.length - 1)).mapM fun k : Nat => ((q0 :: ks').map (·.1)).mapM fun s => do
        let a ← rd s.idx (k : Int)
        let b ← rd s.idx (k + 1 : Int)
        readIn s.vals a b
      .ok ⟨[], sizes.scanl (· + ·) 0, (ps.map List.flatten).flatten⟩) := by
    show (if ((q0 :: ks').map (·.1)).any (fun s => decide (s.idx.length ≠ q0.1.idx.length)) = true then _ else _) = _
    rw [hany]
    rfl
  rw [e, hlen q0 (by simp), Nat.add_sub_cancel]
  rw [mapM_ok_map (g := fun k => (((((q0 :: ks').map fun q => q.2.getD k []).flatten.length : Nat)) : Int))]
  · rw [ok_bind, mapM_ok_map (g := fun k => ((q0 :: ks').map fun q => q.2.getD k []))]
    · rw [ok_bind, ← scanl_sizes, List.map_map, List.map_map]
      rfl
    · intro k hk
      have hk' := List.mem_range.1 hk
      generalize q0 :: ks' = l at h
      clear e hany hlen
      induction l with
      | nil => rfl
      | cons q l ih =>
        obtain ⟨hq, hl⟩ := h q (by simp)
        obtain ⟨h1, h2, h3⟩ := packRead hq (i := k) (by omega)
        rw [List.map_cons, List.mapM_cons, h1, ok_bind, h2, ok_bind, h3, ok_bind, ih fun q hq => h q (by simp [hq]), ok_bind]
        have : q.2.getD k [] = q.2[k]'(by omega) := by simp [List.getD, show k < q.2.length by omega]
        rw [List.map_cons, this]
        rfl
  · intro k hk
    rw [aggSize h (List.mem_range.1 hk)]
    simp

theorem C104_AggregatePacks_throws {ks : List SkyL} (h : ks = [] ∨ ∃ a ∈ ks, ∃ b ∈ ks, a.idx.length ≠ b.idx.length) : aggregatePacks ks = throwX := by
  rcases h with rfl | ⟨a, ha, b, hb, hab⟩
  · rfl
  · cases ks with
    | nil => simp at ha
    | cons s0 ks =>
      have : (s0 :: ks).any (fun s => decide (s.idx.length ≠ s0.idx.length)) = true := by
        rw [List.any_eq_true]
        by_cases h0 : a.idx.length = s0.idx.length
        · exact ⟨b, hb, by simp; omega⟩
        · exact ⟨a, ha, by simpa using h0⟩
      show (if (s0 :: ks).any (fun s => decide (s.idx.length ≠ s0.idx.length)) = true then _ else _) = _
      rw [this]
      rfl

/-! ## Search of packs -/

theorem findPack_ok {s : SkyL} {ps : List (List Int)} (h : s.Packs ps) (pack : List Int) (start : Nat) : ∀ (n j : Nat), start + j + n ≤ ps.length →
    s.findPack pack start n j = .ok (match ((ps.drop (start + j)).take n).findIdx? (· == pack) with | some i => ((j + i : Nat) : Int) | none => -1) := by
  intro n
  induction n with
  | zero => intro j _; simp [SkyL.findPack]
  | succ n ih =>
    intro j hj
    have hk : start + j < ps.length := by omega
    obtain ⟨h1, h2, h3⟩ := packRead h hk
    have hn := ih (j + 1) (by omega)
    rw [SkyL.findPack]
    have c1 : (start : Int) + (j : Int) = ((start + j : Nat) : Int) := by push_cast; rfl
    rw [c1, h2, ok_bind, h1, ok_bind]
    have hd : (ps.drop (start + j)).take (n + 1) = ps[start + j] :: (ps.drop (start + (j + 1))).take n := by
      rw [List.drop_eq_getElem_cons hk, List.take_succ_cons]
      rfl
    rw [hd, List.findIdx?_cons]
    have hmap : (match Option.map (fun i => i + 1) (((ps.drop (start + (j + 1))).take n).findIdx? (· == pack)) with | some i => ((j + i : Nat) : Int) | none => -1) =
        (match ((ps.drop (start + (j + 1))).take n).findIdx? (· == pack) with | some i => ((j + 1 + i : Nat) : Int) | none => -1) := by
      cases ((ps.drop (start + (j + 1))).take n).findIdx? (· == pack) with
      | none => rfl
      | some i => simp only [Option.map_some]; congr 1; omega
    by_cases hp : ps[start + j] = pack
    · rw [if_pos (by rw [hp]; omega), h3, ok_bind, if_pos hp, if_pos (by simpa using hp)]
      simp
    · have hb : (ps[start + j] == pack) = false := by simpa using hp
      rw [hb]
      simp only [Bool.false_eq_true, if_false]
      rw [hmap, ← hn]
      split
      · rw [h3, ok_bind, if_neg hp]
      · rfl

theorem C104_findPackIds {s : SkyL} {g : List (List (List Int))} (h : s.Supers g) {supers : List Nat} (hs : ∀ k ∈ supers, k < g.length)
    {pack : List Int} (hp : pack ≠ []) :
    s.findPackIds (supers.map fun k : Nat => (k : Int)) pack =
      .ok (supers.map fun k => match (g.getD k []).findIdx? (· == pack) with | some i => (i : Int) | none => -1) := by
  rw [SkyL.findPackIds, checkSuper_ok h, ok_bind, if_neg (by simpa using hp)]
  rw [mapM_ok_map (g := fun i : Int => match (g.getD i.toNat []).findIdx? (· == pack) with | some i => (i : Int) | none => -1), List.map_map]
  · rfl
  · intro i hm
    obtain ⟨k, hk, rfl⟩ := List.mem_map.1 hm
    have hk' := hs k hk
    obtain ⟨e, hl⟩ := split_at g hk'
    have e1 := rd_sky_mid (g.take k) g[k] (g.drop (k + 1)) (i := k) (by omega)
    have e2 := rd_sky_next (g.take k) g[k] (g.drop (k + 1)) (i := (k : Int) + 1) (by omega)
    rw [← e] at e1 e2
    have e3 : g.flatten = (g.take k).flatten ++ g[k] ++ (g.drop (k + 1)).flatten := by
      have := congrArg List.flatten e
      rwa [List.flatten_append, List.flatten_cons, ← List.append_assoc] at this
    have e4 : (((g.take k).flatten.length : Int) + g[k].length - (g.take k).flatten.length).toNat = g[k].length := by omega
    have e5 : g.flatten.length = (g.take k).flatten.length + g[k].length + (g.drop (k + 1)).flatten.length := by
      rw [e3, List.length_append, List.length_append]
    rw [h.1, e1, ok_bind, e2, ok_bind, e4, findPack_ok h.2 pack _ _ _ (by omega)]
    have e6 : ((g.flatten).drop ((g.take k).flatten.length + 0)).take g[k].length = g[k] := by
      rw [e3, Nat.add_zero, List.append_assoc, List.drop_left, List.take_left]
    rw [e6]
    have e7 : g.getD ((k : Int).toNat) [] = g[k] := by simp [hk']
    rw [e7]
    simp only [Nat.zero_add]

end MC
