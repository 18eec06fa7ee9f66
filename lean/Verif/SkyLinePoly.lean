import Verif.SkyLineMany

/-!
# C104: histories of operations, polyhedra and examples
-/

namespace MC

instance (s : SkyL) (ps : List (List Int)) : Decidable (s.Packs ps) := inferInstanceAs (Decidable (_ ∧ _))
instance (s : SkyL) (g : List (List (List Int))) : Decidable (s.Supers g) := inferInstanceAs (Decidable (_ ∧ _))

/-! ## Histories -/

/-- The operations which keep the three levels -/
inductive SkyOp where
  | push (k : Nat) (pack : List Int)
  | del (k i : Nat)
  | repl (k i : Nat) (pack : List Int)

/-- The calls -/
def SkyOp.run (junk : Nat → Int) (s : SkyL) : SkyOp → M SkyL
  | .push k pack => s.pushBackPack junk k pack
  | .del k i => s.deletePack junk k i
  | .repl k i pack => s.replacePack junk k i pack

/-- The same operations on lists of lists -/
def SkyOp.onLists (g : List (List (List Int))) : SkyOp → List (List (List Int))
  | .push k pack => g.modify k (· ++ [pack])
  | .del k i => g.modify k (·.eraseIdx i)
  | .repl k i pack => g.modify k (·.set i pack)

/-- The super pack and the pack exist -/
def SkyOp.Valid (g : List (List (List Int))) : SkyOp → Prop
  | .push k _ => k < g.length
  | .del k i => ∃ X, g[k]? = some X ∧ i < X.length
  | .repl k i _ => ∃ X, g[k]? = some X ∧ i < X.length

def SkyOp.ValidAll (g : List (List (List Int))) : List SkyOp → Prop
  | [] => True
  | o :: os => o.Valid g ∧ ValidAll (o.onLists g) os

theorem modify_eq_set {α : Type} (l : List α) {k : Nat} (f : α → α) (hk : k < l.length) : l.modify k f = l.set k (f l[k]) := by
  apply List.ext_getElem
  · simp
  · intro i h1 h2
    simp only [List.getElem_modify, List.getElem_set]
    split
    · subst_vars; rfl
    · rfl

theorem run_ok (junk : Nat → Int) {s : SkyL} {g : List (List (List Int))} (h : s.Supers g) (o : SkyOp) (ho : o.Valid g) :
    ∃ s', o.run junk s = .ok s' ∧ s'.Supers (o.onLists g) := by
  cases o with
  | push k pack =>
    have hk : k < g.length := ho
    rw [SkyOp.onLists, modify_eq_set _ _ hk]
    exact C104_pushBackPack junk h hk pack
  | del k i =>
    obtain ⟨X, hX, hi⟩ := ho
    obtain ⟨hk, rfl⟩ := List.getElem?_eq_some_iff.1 hX
    rw [SkyOp.onLists, modify_eq_set _ _ hk]
    exact C104_deletePack junk h hk hi
  | repl k i pack =>
    obtain ⟨X, hX, hi⟩ := ho
    obtain ⟨hk, rfl⟩ := List.getElem?_eq_some_iff.1 hX
    rw [SkyOp.onLists, modify_eq_set _ _ hk]
    exact C104_replacePack junk h hk hi pack

/-- Any history of operations acts as on lists of lists, whatever is in the memory given by `reAlloc`. -/
theorem C104_history (junk : Nat → Int) (os : List SkyOp) {s : SkyL} {g : List (List (List Int))} (h : s.Supers g) (ho : SkyOp.ValidAll g os) :
    ∃ s', os.foldlM (SkyOp.run junk) s = .ok s' ∧ s'.Supers (os.foldl SkyOp.onLists g) := by
  induction os generalizing s g with
  | nil => exact ⟨s, rfl, h⟩
  | cons o os ih =>
    obtain ⟨s1, h1, h2⟩ := run_ok junk h o ho.1
    obtain ⟨s2, h3, h4⟩ := ih h2 ho.2
    exact ⟨s2, by rw [List.foldlM_cons, h1, ok_bind, h3], h4⟩

/-! ## Polyhedra -/

/-- The connectivity of a polyhedron given by its faces -/
def polyCell (X : List (List Int)) : List Int := 31 :: [(-1 : Int)].intercalate X

theorem intercalate_cons_cons (p q : List Int) (r : List (List Int)) : [(-1 : Int)].intercalate (p :: q :: r) = p ++ -1 :: [(-1 : Int)].intercalate (q :: r) := by
  simp [List.intercalate, List.intersperse]

theorem intercalate_one (p : List Int) : [(-1 : Int)].intercalate [p] = p := by simp [List.intercalate, List.intersperse]

theorem intercalate_snoc (Y : List (List Int)) (z : List Int) : [(-1 : Int)].intercalate (Y ++ [z]) = Y.flatMap (· ++ [-1]) ++ z := by
  induction Y with
  | nil => simp [intercalate_one]
  | cons p Y ih =>
    cases Y with
    | nil => rw [List.singleton_append, intercalate_cons_cons, intercalate_one]; simp
    | cons q Y =>
      rw [List.cons_append, List.cons_append, intercalate_cons_cons, ← List.cons_append, ih]
      simp

theorem flatMap_sep_length (Y : List (List Int)) : (Y.flatMap (· ++ [(-1 : Int)])).length = Y.flatten.length + Y.length := by
  induction Y with
  | nil => rfl
  | cons p Y ih =>
    rw [List.flatMap_cons, List.length_append, ih]
    simp
    omega

theorem polyCell_length {X : List (List Int)} (h : X ≠ []) : (polyCell X).length = X.flatten.length + X.length := by
  have e : X = X.dropLast ++ [X.getLast h] := (List.dropLast_append_getLast h).symm
  rw [e, polyCell, intercalate_snoc, List.length_cons, List.length_append, flatMap_sep_length]
  simp
  omega

theorem map_polyCell_length {g : List (List (List Int))} (h : ∀ X ∈ g, X ≠ []) :
    (g.map polyCell).flatten.length = g.flatten.flatten.length + g.flatten.length := by
  induction g with
  | nil => rfl
  | cons X g ih =>
    rw [List.map_cons, List.flatten_cons, List.length_append, polyCell_length (h X (by simp)), ih fun Y hY => h Y (by simp [hY])]
    simp only [List.flatten_cons, List.flatten_append, List.length_append]
    omega

theorem pushMax_ok {sz : Int} {c l : List Int} (h : (c.length : Int) + l.length ≤ sz) : pushMax sz c l = .ok (c ++ l) := if_pos h

/-- `convertToPolyhedronConn` gives the cells with their faces separated by -1. -/
theorem C104_convertToPolyhedronConn {s : SkyL} {g : List (List (List Int))} (h : s.Supers g) (hg : ∀ X ∈ g, X ≠ []) :
    s.convertToPolyhedronConn = .ok ((g.map polyCell).flatten, skyIdx (g.map polyCell)) := by
  have hsi := h.1
  have hx := h.2.2
  rw [SkyL.convertToPolyhedronConn, checkSuper_ok h, ok_bind]
  have e0 := rd_sky_end ([] : List (List Int)) g.flatten (i := 0) rfl
  have e1 := rd_sky_end g.flatten [] (i := ((g.flatten.length : Nat) : Int)) rfl
  rw [List.nil_append] at e0
  rw [List.append_nil] at e1
  have e2 : ((skyIdx g.flatten).length : Int) - 1 = (g.flatten.length : Int) := by rw [skyIdx_length]; omega
  rw [hx, e0, ok_bind, e2, e1, ok_bind]
  simp only [List.flatten_nil, List.length_nil, Nat.cast_zero, Int.sub_zero]
  have key : wp (loop (s.si.length - 1) (([] : List Int), ([] : List Int)) fun i r => do
      let e ← rd s.si (i + 1 : Int)
      let c ← pushMax ((g.flatten.flatten.length : Int) + g.flatten.length) r.1 [31]
      let b ← rd s.si (i : Int)
      let c' ← loop (e - b).toNat c fun j c => do
        let x ← rd (skyIdx g.flatten) (b + j)
        let y ← rd (skyIdx g.flatten) (b + j + 1)
        let p ← readIn s.vals x y
        let c ← pushMax ((g.flatten.flatten.length : Int) + g.flatten.length) c p
        if b + j ≠ e - 1 then pushMax ((g.flatten.flatten.length : Int) + g.flatten.length) c [-1] else .ok c
      .ok (c', r.2 ++ [(r.1.length : Int)])) (fun r => r.1 = (g.map polyCell).flatten ∧ r.2 = preIdx (g.map polyCell)) False := by
    have hn : s.si.length - 1 = g.length := by rw [hsi, skyIdx_length]; omega
    rw [hn]
    refine wp_mono (wp_loop (E := False) (fun i (r : List Int × List Int) => r.1 = ((g.take i).map polyCell).flatten ∧ r.2 = preIdx ((g.take i).map polyCell)) ?_ ?_) ?_ id
    · simp
    · rintro i hi ⟨c0, ci⟩ ⟨h1, h2⟩
      simp only at h1 h2
      obtain ⟨eg, hlg⟩ := split_at g hi
      have a1 := rd_sky_mid (g.take i) g[i] (g.drop (i + 1)) (i := i) (by omega)
      have a2 := rd_sky_next (g.take i) g[i] (g.drop (i + 1)) (i := (i : Int) + 1) (by omega)
      rw [← eg, ← hsi] at a1 a2
      have hX : g[i] ≠ [] := hg _ (List.getElem_mem hi)
      have hXl : 0 < g[i].length := List.length_pos_iff.2 hX
      have ef : g.flatten = (g.take i).flatten ++ g[i] ++ (g.drop (i + 1)).flatten := by
        have := congrArg List.flatten eg
        rwa [List.flatten_append, List.flatten_cons, ← List.append_assoc] at this
      have hl0 : c0.length = (g.take i).flatten.flatten.length + (g.take i).flatten.length := by
        rw [h1, map_polyCell_length fun X hX => hg X (List.mem_of_mem_take hX)]
      have ht1 : g.flatten.length = (g.take i).flatten.length + g[i].length + (g.drop (i + 1)).flatten.length := by
        rw [ef, List.length_append, List.length_append]
      have ht2 : g.flatten.flatten.length = (g.take i).flatten.flatten.length + g[i].flatten.length + (g.drop (i + 1)).flatten.flatten.length := by
        rw [ef, List.flatten_append, List.flatten_append, List.length_append, List.length_append]
      simp only
      rw [a2, ok_bind, pushMax_ok (by simp only [List.length_cons, List.length_nil]; omega), ok_bind, a1, ok_bind, wp_bind]
      have hnn : (((g.take i).flatten.length : Int) + g[i].length - (g.take i).flatten.length).toNat = g[i].length := by omega
      rw [hnn]
      refine wp_mono (wp_loop (E := False) (fun j (c : List Int) => if j < g[i].length then c = c0 ++ 31 :: (g[i].take j).flatMap (· ++ [-1]) else c = c0 ++ polyCell g[i]) ?_ ?_) ?_ id
      · rw [if_pos hXl]; simp
      · intro j hj c hc
        rw [if_pos hj] at hc
        have hjf : (g.take i).flatten.length + j < g.flatten.length := by omega
        obtain ⟨r1, r2, r3⟩ := packRead h.2 hjf
        have hpe : g.flatten[(g.take i).flatten.length + j] = g[i][j] := by
          apply Option.some.inj
          rw [← List.getElem?_eq_getElem, ← List.getElem?_eq_getElem, ef, List.append_assoc, List.getElem?_append_right (by omega),
            List.getElem?_append_left (by omega)]
          congr 1
          omega
        rw [hx] at r1 r2
        have cc : ((g.take i).flatten.length : Int) + (j : Int) = (((g.take i).flatten.length + j : Nat) : Int) := by push_cast; rfl
        have hcl : c.length = c0.length + 1 + ((g[i].take j).flatten.length + j) := by
          rw [hc, List.length_append, List.length_cons, flatMap_sep_length, List.length_take, Nat.min_eq_left (by omega)]
          omega
        have hsplit := split_at g[i] hj
        have hfl : g[i].flatten.length = (g[i].take j).flatten.length + g[i][j].length + (g[i].drop (j + 1)).flatten.length := by
          have := congrArg (fun l => (List.flatten l).length) hsplit.1
          simp only [List.flatten_append, List.flatten_cons, List.length_append] at this
          omega
        rw [cc, r1, ok_bind, r2, ok_bind, r3, ok_bind, hpe, pushMax_ok (by omega), ok_bind]
        by_cases hlast : j + 1 = g[i].length
        · rw [if_neg (by omega), wp_ok, if_neg (by omega), hc, polyCell]
          have e3 : g[i] = g[i].take j ++ [g[i][j]] := by
            have := hsplit.1
            rwa [List.drop_eq_nil_of_le (by omega)] at this
          conv_rhs => rw [e3]
          rw [intercalate_snoc]
          simp
        · rw [if_pos (by omega), pushMax_ok (by simp only [List.length_append, List.length_cons, List.length_nil]; omega), wp_ok, if_pos (by omega), hc,
            List.take_succ_eq_append_getElem hj, List.flatMap_append]
          simp only [List.append_assoc, List.cons_append, List.flatMap_cons, List.flatMap_nil, List.append_nil]
      · intro c hc
        rw [if_neg (by omega)] at hc
        rw [wp_ok]
        simp only
        rw [List.take_succ_eq_append_getElem hi, List.map_append, List.flatten_append, preIdx_append, h2, hc, ← h1]
        simp [preIdx_cons]
    · intro r hr
      rw [List.take_of_length_le (Nat.le_refl _)] at hr
      exact hr
  obtain ⟨r, hr, h1, h2⟩ := wp_exists key
  rw [hr, ok_bind, h1, h2]
  have := skyIdx_app (g.map polyCell) []
  rw [List.append_nil] at this
  rw [this, skyIdx_nil]
  simp

theorem cutAtMinus_ne (l : List Int) : cutAtMinus l ≠ [] := by
  cases l with
  | nil => simp [cutAtMinus]
  | cons x l =>
    rw [cutAtMinus]
    split
    · simp
    · split <;> simp

theorem C104_cut_join (l : List Int) : [(-1 : Int)].intercalate (cutAtMinus l) = l ∧ ∀ f ∈ cutAtMinus l, (-1 : Int) ∉ f := by
  induction l with
  | nil => simp [cutAtMinus, intercalate_one]
  | cons x l ih =>
    rw [cutAtMinus]
    obtain ⟨f, fs, hf⟩ := List.exists_cons_of_ne_nil (cutAtMinus_ne l)
    rw [hf] at ih ⊢
    by_cases hx : x = -1
    · rw [if_pos hx, intercalate_cons_cons, ih.1]
      refine ⟨by simp [hx], ?_⟩
      intro p hp
      rcases List.mem_cons.1 hp with rfl | hp
      · simp
      · exact ih.2 p hp
    · rw [if_neg hx]
      simp only
      constructor
      · cases fs with
        | nil => rw [intercalate_one] at ih ⊢; rw [ih.1]
        | cons f2 fs => rw [intercalate_cons_cons] at ih ⊢; rw [List.cons_append, ih.1]
      · intro p hp
        rcases List.mem_cons.1 hp with rfl | hp
        · have := ih.2 f (by simp)
          simp only [List.mem_cons, not_or]
          exact ⟨fun h => hx h.symm, this⟩
        · exact ih.2 p (by simp [hp])

theorem cut_face (p : List Int) (hp : (-1 : Int) ∉ p) (l : List Int) : cutAtMinus (p ++ -1 :: l) = p :: cutAtMinus l ∧ cutAtMinus p = [p] := by
  induction p with
  | nil => simp [cutAtMinus]
  | cons x p ih =>
    simp only [List.mem_cons, not_or] at hp
    have := ih hp.2
    rw [List.cons_append, cutAtMinus, cutAtMinus, if_neg (fun h => hp.1 h.symm), if_neg (fun h => hp.1 h.symm), this.1, this.2]
    simp

theorem join_cut {X : List (List Int)} (hne : X ≠ []) (h : ∀ p ∈ X, (-1 : Int) ∉ p) : cutAtMinus ([(-1 : Int)].intercalate X) = X := by
  induction X with
  | nil => exact absurd rfl hne
  | cons p X ih =>
    cases X with
    | nil => rw [intercalate_one]; exact (cut_face p (h p (by simp)) []).2
    | cons q X =>
      rw [intercalate_cons_cons, (cut_face p (h p (by simp)) _).1, ih (by simp) fun p hp => h p (by simp [hp])]

theorem polyCheck_wp {c cI : List Int} {G : List (List Int)} (h : IsSky c cI G) (hne : ∀ l ∈ G, l ≠ []) :
    wp (polyConnCheck c cI) (fun _ => ∀ l ∈ G, l.head? = some 31) (∃ l ∈ G, l.head? ≠ some 31) := by
  obtain ⟨hc, hI⟩ := h
  have e1 := rd_sky_end G [] (i := ((G.length : Nat) : Int)) rfl
  rw [List.append_nil] at e1
  have e2 : ((skyIdx G).length : Int) - 1 = (G.length : Int) := by rw [skyIdx_length]; omega
  rw [polyConnCheck, hI, e2, e1, ok_bind, if_neg (by rw [hc]; simp), wp_bind, skyIdx_length]
  refine wp_mono (wp_loop (E := ∃ l ∈ G, l.head? ≠ some 31) (fun i (prev : Int) => (i ≤ G.length → prev ≤ (G.take i).flatten.length) ∧
    ∀ (m : Nat) (l : List Int), m < i → G[m]? = some l → l.head? = some 31) ?_ ?_) ?_ id
  · simp
  · rintro i hi prev ⟨h1, h2⟩
    have hr : rd (skyIdx G) (i : Int) = .ok ((G.take i).flatten.length : Int) :=
      rd_of_getElem? (by omega) (by rw [Int.toNat_natCast, skyIdx_getElem? _ (by omega)])
    have h1' := h1 (by omega)
    rw [hr, ok_bind, if_neg (by omega)]
    by_cases hlast : i = G.length
    · rw [if_neg (by omega), wp_ok]
      refine ⟨fun h => by omega, ?_⟩
      intro m l hm hl
      have : m < G.length := (List.getElem?_eq_some_iff.1 hl).1
      exact h2 m l (by omega) hl
    · have hil : i < G.length := by omega
      rw [if_pos (by omega)]
      obtain ⟨e, hlt⟩ := split_at G hil
      obtain ⟨t, l', hl'⟩ := List.exists_cons_of_ne_nil (hne G[i] (List.getElem_mem hil))
      have ef : c = (G.take i).flatten ++ t :: (l' ++ (G.drop (i + 1)).flatten) := by
        have := congrArg List.flatten e
        rw [List.flatten_append, List.flatten_cons, hl', List.cons_append] at this
        rw [hc, this]
      rw [ef, rd_mid rfl, ok_bind]
      by_cases ht : t = 31
      · rw [if_neg (by simpa using ht), wp_ok]
        constructor
        · intro _
          rw [List.take_succ_eq_append_getElem hil, List.flatten_append, List.length_append]
          push_cast
          omega
        · intro m l hm hl
          rcases Nat.lt_succ_iff_lt_or_eq.1 hm with hm | rfl
          · exact h2 m l hm hl
          · rw [List.getElem?_eq_getElem hil] at hl
            cases hl
            rw [hl', ht]
            rfl
      · rw [if_pos ht, wp_throwX]
        exact ⟨G[i], List.getElem_mem hil, by rw [hl']; simpa using ht⟩
  · rintro prev ⟨_, h2⟩
    rw [wp_ok]
    intro l hl
    obtain ⟨m, hm, rfl⟩ := List.mem_iff_getElem.1 hl
    exact h2 m _ (by omega) (List.getElem?_eq_getElem hm)

/-- `BuildFromPolyhedronConn` cuts the cells at the separators. -/
theorem C104_BuildFromPolyhedronConn {c cI : List Int} {bodies : List (List Int)} (h : IsSky c cI (bodies.map fun l => (31 : Int) :: l)) :
    ∃ s, buildFromPolyhedronConn c cI = .ok s ∧ s.Supers (bodies.map cutAtMinus) := by
  have hw := polyCheck_wp h (by
    intro l hl
    obtain ⟨b, _, rfl⟩ := List.mem_map.1 hl
    simp)
  have hw' : wp (polyConnCheck c cI) (fun _ => True) False := by
    refine wp_mono hw (fun _ _ => trivial) ?_
    rintro ⟨l, hl, hn⟩
    obtain ⟨b, _, rfl⟩ := List.mem_map.1 hl
    simp at hn
  obtain ⟨u, hu, _⟩ := wp_exists hw'
  rw [buildFromPolyhedronConn, hu, ok_bind]
  have hp : (⟨[], cI, c⟩ : SkyL).Packs (bodies.map fun l => (31 : Int) :: l) := h
  rw [mapM_ok_map (g := fun k => cutAtMinus (bodies.getD k []))]
  · have hlen : cI.length - 1 = bodies.length := by rw [h.2, skyIdx_length, List.length_map]; omega
    have e : (List.range (cI.length - 1)).map (fun k => cutAtMinus (bodies.getD k [])) = bodies.map cutAtMinus := by
      rw [hlen]
      conv_rhs => rw [← map_getD_range bodies [], List.map_map]
      rfl
    rw [ok_bind, e, scanl_sizes, scanl_sizes]
    exact ⟨_, rfl, rfl, rfl, rfl⟩
  · intro k hk
    have hk' : k < (bodies.map fun l => (31 : Int) :: l).length := by
      have := List.mem_range.1 hk
      rw [h.2, skyIdx_length] at this
      omega
    obtain ⟨r1, r2, _⟩ := packRead hp hk'
    obtain ⟨e, hl⟩ := split_at _ hk'
    simp only at r1 r2
    rw [r1, ok_bind, r2, ok_bind]
    have hkb : k < bodies.length := by simpa using hk'
    have e4 : (bodies.map fun l => (31 : Int) :: l)[k] = 31 :: bodies[k] := by simp
    rw [e4] at e ⊢
    have ef : c = (((bodies.map fun l => (31 : Int) :: l).take k).flatten ++ [31]) ++ bodies[k] ++ ((bodies.map fun l => (31 : Int) :: l).drop (k + 1)).flatten := by
      have := congrArg List.flatten e
      rw [List.flatten_append, List.flatten_cons] at this
      rw [h.1, this]
      simp
    rw [ef, readIn_mid (by simp) (by simp; omega), ok_bind]
    simp [hkb]

theorem C104_BuildFromPolyhedronConn_throws {c cI : List Int} {G : List (List Int)} (h : IsSky c cI G) (hne : ∀ l ∈ G, l ≠ [])
    (ht : ∃ l ∈ G, l.head? ≠ some 31) : buildFromPolyhedronConn c cI = throwX := by
  have hw : wp (polyConnCheck c cI) (fun _ => False) True := by
    refine wp_mono (polyCheck_wp h hne) (fun _ hq => ?_) (fun _ => trivial)
    obtain ⟨l, hl, hn⟩ := ht
    exact hn (hq l hl)
  rw [buildFromPolyhedronConn, wp_throws hw]
  rfl

/-- From faces to a connectivity and back -/
theorem C104_round_trip {s : SkyL} {g : List (List (List Int))} (h : s.Supers g) (hg : ∀ X ∈ g, X ≠ [] ∧ ∀ p ∈ X, (-1 : Int) ∉ p) :
    ∃ c cI s', s.convertToPolyhedronConn = .ok (c, cI) ∧ buildFromPolyhedronConn c cI = .ok s' ∧ s'.Supers g := by
  have h1 := C104_convertToPolyhedronConn h fun X hX => (hg X hX).1
  have hs : IsSky (g.map polyCell).flatten (skyIdx (g.map polyCell)) ((g.map fun X => [(-1 : Int)].intercalate X).map fun l => (31 : Int) :: l) := by
    rw [List.map_map]
    exact ⟨rfl, rfl⟩
  obtain ⟨s', h2, h3⟩ := C104_BuildFromPolyhedronConn hs
  refine ⟨_, _, s', h1, h2, ?_⟩
  rw [List.map_map] at h3
  have : g.map (cutAtMinus ∘ fun X => [(-1 : Int)].intercalate X) = g := by
    conv_rhs => rw [← List.map_id g]
    apply List.map_congr_left
    intro X hX
    exact join_cut (hg X hX).1 (hg X hX).2
  rwa [this] at h3

/-- From a connectivity to faces and back -/
theorem C104_round_trip_conn {c cI : List Int} {bodies : List (List Int)} (h : IsSky c cI (bodies.map fun l => (31 : Int) :: l)) :
    ∃ s, buildFromPolyhedronConn c cI = .ok s ∧ s.convertToPolyhedronConn = .ok (c, cI) := by
  obtain ⟨s, h1, h2⟩ := C104_BuildFromPolyhedronConn h
  refine ⟨s, h1, ?_⟩
  rw [C104_convertToPolyhedronConn h2]
  · have : (bodies.map cutAtMinus).map polyCell = bodies.map fun l => (31 : Int) :: l := by
      rw [List.map_map]
      apply List.map_congr_left
      intro l _
      show (31 : Int) :: [(-1 : Int)].intercalate (cutAtMinus l) = _
      rw [(C104_cut_join l).1]
    rw [this, ← h.1, ← h.2]
  · intro X hX
    obtain ⟨l, _, rfl⟩ := List.mem_map.1 hX
    exact cutAtMinus_ne l

theorem C104_two_level_throws (junk : Nat → Int) {s : SkyL} (h : s.si = []) (k i : Int) (ks pack : List Int) :
    s.deletePack junk k i = throwX ∧ s.pushBackPack junk k pack = throwX ∧ s.replacePack junk k i pack = throwX ∧
      s.findPackIds ks pack = throwX ∧ s.convertToPolyhedronConn = throwX := by
  have : s.checkSuper = throwX := by rw [SkyL.checkSuper, h]; rfl
  refine ⟨?_, ?_, ?_, ?_, ?_⟩
  · rw [SkyL.deletePack, this]; rfl
  · rw [SkyL.pushBackPack, this]; rfl
  · rw [SkyL.replacePack, this]; rfl
  · rw [SkyL.findPackIds, this]; rfl
  · rw [SkyL.convertToPolyhedronConn, this]; rfl

/-! ## Findings -/

/-- A pack number outside of the super pack is accepted: here pack 1 of super pack 0, which has one pack, is the pack of super pack 1, and the
super index is wrong afterwards. -/
theorem C104_finding_deletePack :
    (⟨[0, 1, 2], [0, 2, 5], [1, 2, 3, 4, 5]⟩ : SkyL).Supers [[[1, 2]], [[3, 4, 5]]] ∧
    SkyL.deletePack (fun _ => 0) ⟨[0, 1, 2], [0, 2, 5], [1, 2, 3, 4, 5]⟩ 0 1 = .ok ⟨[0, 0, 1], [0, 2], [1, 2]⟩ ∧
    (⟨[0, 0, 1], [0, 2], [1, 2]⟩ : SkyL).Supers [[], [[1, 2]]] := by decide +kernel

/-- A super pack number equal to the number of super packs is accepted: the read is then out of the super index. -/
theorem C104_finding_pushBackPack : SkyL.pushBackPack (fun _ => 0) ⟨[0, 1], [0, 2], [1, 2]⟩ 1 [7] = undef := by decide +kernel

/-- The allocated connectivity is too small when there is a super pack without pack. -/
theorem C104_finding_convert : SkyL.convertToPolyhedronConn ⟨[0, 0], [0], []⟩ = undef ∧ SkyL.convertToPolyhedronConn ⟨[0, 1, 1], [0, 2], [5, 6]⟩ = undef := by
  decide +kernel

/-- Packs which are not replaced are sorted and lose their repeated values. -/
theorem C104_finding_replaceSimplePacks :
    SkyL.replaceSimplePacks ⟨[], [0, 3, 5], [3, 1, 3, 9, 8]⟩ [1] [[4]] = .ok ⟨[], [0, 2, 3], [1, 3, 4]⟩ := by decide +kernel

/-- The number of packs is accepted by `deleteSimplePacks` and is then read out of the index. -/
theorem C104_finding_deleteSimplePacks : SkyL.deleteSimplePacks (fun _ => 0) ⟨[], [0, 2], [1, 2]⟩ [1] = undef := by decide +kernel

/-! ## Examples -/

example : (⟨[0, 2, 3], [0, 2, 3, 6], [1, 2, 7, 3, 4, 5]⟩ : SkyL).Supers [[[1, 2], [7]], [[3, 4, 5]]] := by decide +kernel
example : SkyL.pushBackPack (fun _ => 77) ⟨[0, 2, 3], [0, 2, 3, 6], [1, 2, 7, 3, 4, 5]⟩ 0 [8, 9] = .ok ⟨[0, 3, 4], [0, 2, 3, 5, 8], [1, 2, 7, 8, 9, 3, 4, 5]⟩ := by
  decide +kernel
example : SkyL.deletePack (fun _ => 77) ⟨[0, 2, 3], [0, 2, 3, 6], [1, 2, 7, 3, 4, 5]⟩ 0 0 = .ok ⟨[0, 1, 2], [0, 1, 4], [7, 3, 4, 5]⟩ := by decide +kernel
example : SkyL.replacePack (fun _ => 77) ⟨[0, 2, 3], [0, 2, 3, 6], [1, 2, 7, 3, 4, 5]⟩ 0 1 [8, 9] = .ok ⟨[0, 2, 3], [0, 2, 4, 7], [1, 2, 8, 9, 3, 4, 5]⟩ := by
  decide +kernel
example : SkyL.replaceSimplePack (fun _ => 77) ⟨[], [0, 2, 3, 6], [1, 2, 7, 3, 4, 5]⟩ 2 [] = .ok ⟨[], [0, 2, 3, 3], [1, 2, 7]⟩ := by decide +kernel
example : SkyL.deleteSimplePack (fun _ => 77) ⟨[], [0, 2, 3, 6], [1, 2, 7, 3, 4, 5]⟩ 1 = .ok ⟨[], [0, 2, 5], [1, 2, 3, 4, 5]⟩ := by decide +kernel
example : SkyL.deleteSimplePacks (fun _ => 77) ⟨[], [0, 2, 3, 6, 8], [1, 2, 7, 3, 4, 5, 8, 8]⟩ [2, 0, 2] = .ok ⟨[], [0, 1, 3], [7, 8, 8]⟩ := by decide +kernel
example : SkyL.thresholdPerPack ⟨[], [0, 2, 3, 6], [1, 6, 7, 3, 8, 5]⟩ 6 = .ok (⟨[], [0, 1, 1, 3], [1, 3, 5]⟩, ⟨[], [0, 1, 2, 3], [6, 7, 8]⟩) := by decide +kernel
example : SkyL.groupPacks ⟨[], [0, 2, 3, 6], [1, 6, 7, 3, 8, 5]⟩ [0, 2, 3] = .ok ⟨[], [0, 3, 6], [1, 6, 7, 3, 8, 5]⟩ := by decide +kernel
example : SkyL.uniqueByPack ⟨[], [0, 3, 6], [7, 6, 7, 3, 8, 5]⟩ = .ok ⟨[], [0, 2, 5], [6, 7, 3, 5, 8]⟩ := by decide +kernel
example : aggregatePacks [⟨[], [0, 1, 3], [7, 6, 5]⟩, ⟨[], [0, 2, 2], [1, 2]⟩] = .ok ⟨[], [0, 3, 5], [7, 1, 2, 6, 5]⟩ := by decide +kernel
example : SkyL.findPackIds ⟨[0, 2, 3], [0, 2, 3, 5], [1, 2, 7, 1, 2]⟩ [1, 0, 0] [1, 2] = .ok [0, 0, 0] ∧
    SkyL.findPackIds ⟨[0, 2, 3], [0, 2, 3, 5], [1, 2, 7, 1, 2]⟩ [1, 0] [7] = .ok [-1, 1] := by decide +kernel
example : SkyL.convertToPolyhedronConn ⟨[0, 2, 3], [0, 2, 3, 5], [1, 2, 7, 1, 2]⟩ = .ok ([31, 1, 2, -1, 7, 31, 1, 2], [0, 5, 8]) ∧
    buildFromPolyhedronConn [31, 1, 2, -1, 7, 31, 1, 2] [0, 5, 8] = .ok ⟨[0, 2, 3], [0, 2, 3, 5], [1, 2, 7, 1, 2]⟩ := by decide +kernel
example : buildFromPolyhedronConn [31, 1, 2, 14, 1, 2] [0, 3, 6] = throwX := by decide +kernel

end MC
