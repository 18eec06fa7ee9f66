import Verif.DegenTab

/-!
# Polyhedra with the faces of a usual cell are recognized, on the positions of the nodes (C105)
-/

namespace MC

/-- The faces with their types -/
def typed {α : Type} (gs : List (List α)) : List (Int × List α) := gs.map fun g => (unPoly2DType false g.length, g)

theorem typed_snd {α : Type} (gs : List (List α)) : (typed gs).map Prod.snd = gs := by simp [typed, Function.comp_def]

theorem typed_fst {α : Type} (gs : List (List α)) : (typed gs).map Prod.fst = (gs.map List.length).map (unPoly2DType false) := by
  simp [typed, Function.comp_def]

theorem firstSide_some {α : Type} {gs : List (List α)} (h : 3 ≤ gs.length) (b o : Nat) :
    ∃ (j : Nat) (S : List α), firstSide gs b o = some S ∧ gs[j]? = some S ∧ j ≠ b ∧ j ≠ o := by
  have hj : ∃ j, j < 3 ∧ j ≠ b ∧ j ≠ o := by
    by_cases h0 : 0 ≠ b ∧ 0 ≠ o
    · exact ⟨0, by omega, h0.1, h0.2⟩
    · by_cases h1 : 1 ≠ b ∧ 1 ≠ o
      · exact ⟨1, by omega, h1.1, h1.2⟩
      · exact ⟨2, by omega, by omega, by omega⟩
  obtain ⟨j, hj3, hjb, hjo⟩ := hj
  unfold firstSide
  cases hf : gs.zipIdx.find? fun p => decide (p.2 ≠ b ∧ p.2 ≠ o) with
  | none =>
    have := List.find?_eq_none.mp hf (gs[j]'(by omega), j) (List.mem_zipIdx_iff_getElem?.mpr (by simp [List.getElem?_eq_getElem (show j < gs.length by omega)]))
    simp [hjb, hjo] at this
  | some p =>
    have h1 := List.mem_of_find?_eq_some hf
    have h2 := List.find?_some hf
    simp only [decide_eq_true_eq] at h2
    exact ⟨p.2, p.1, rfl, List.mem_zipIdx_iff_getElem?.mp h1, h2.1, h2.2⟩

theorem meet_nil_iff {α : Type} [DecidableEq α] (a b : List α) : meet a b = [] ↔ ∀ x ∈ a, x ∉ b := by
  unfold meet
  rw [List.filter_eq_nil_iff]
  simp

/-- The position of a face among the faces of the cell. -/
theorem sameFaces_get {gs B : List (List Nat)} (h : SameFaces gs B) {i : Nat} {F : List Nat} (hF : gs[i]? = some F) :
    ∃ s ∈ B, (F : Cycle Nat) = (s : Cycle Nat) := by
  have : (F : Cycle Nat) ∈ B.map fun l : List Nat => (l : Cycle Nat) :=
    h.mem_iff.mp (List.mem_map.mpr ⟨F, List.mem_of_getElem? hF, rfl⟩)
  obtain ⟨s, h1, h2⟩ := List.mem_map.mp this
  exact ⟨s, h1, h2.symm⟩

theorem sameFaces_ne {gs B : List (List Nat)} (h : SameFaces gs B) (hB : (B.map fun l : List Nat => (l : Cycle Nat)).Nodup) {i j : Nat} (hij : i ≠ j)
    {F G : List Nat} (hF : gs[i]? = some F) (hG : gs[j]? = some G) : (F : Cycle Nat) ≠ (G : Cycle Nat) := by
  have hn : (gs.map fun l : List Nat => (l : Cycle Nat)).Nodup := h.nodup_iff.mpr hB
  intro he
  obtain ⟨hi, ei⟩ := List.getElem?_eq_some_iff.mp hF
  obtain ⟨hj, ej⟩ := List.getElem?_eq_some_iff.mp hG
  have := (List.Nodup.getElem_inj_iff hn (i := i) (j := j) (hi := by simpa using hi) (hj := by simpa using hj)).mp (by
    simp only [List.getElem_map, ei, ej]; exact he)
  exact hij this

theorem sameFaces_find {gs B : List (List Nat)} (h : SameFaces gs B) {s : List Nat} (hs : s ∈ B) :
    ∃ (i : Nat) (F : List Nat), gs[i]? = some F ∧ (F : Cycle Nat) = (s : Cycle Nat) := by
  have : (s : Cycle Nat) ∈ gs.map fun l : List Nat => (l : Cycle Nat) := h.mem_iff.mpr (List.mem_map.mpr ⟨s, hs, rfl⟩)
  obtain ⟨F, h1, h2⟩ := List.mem_map.mp this
  obtain ⟨i, hi⟩ := List.mem_iff_getElem?.mp h1
  exact ⟨i, F, hi, h2⟩

theorem cyc_len {F s : List Nat} (h : (F : Cycle Nat) = (s : Cycle Nat)) : F.length = s.length := (Cycle.coe_eq_coe.mp h).perm.length_eq

theorem cyc_mem {F s : List Nat} (h : (F : Cycle Nat) = (s : Cycle Nat)) (x : Nat) : x ∈ F ↔ x ∈ s := (Cycle.coe_eq_coe.mp h).mem_iff

theorem sameFaces_lengths {gs B : List (List Nat)} (h : SameFaces gs B) : (gs.map List.length).Perm (B.map List.length) := by
  have := List.Perm.map Cycle.length h
  rw [List.map_map, List.map_map] at this
  exact this

theorem orient_length {α : Type} [DecidableEq α] {base ret side r : List α} (h : orientOppositeFace base ret side = some r) : r.length = ret.length := by
  unfold orientOppositeFace at h
  split_ifs at h
  split at h
  · obtain ⟨s, -, h2⟩ := Option.bind_eq_some_iff.mp h
    unfold turnOpposite at h2
    split_ifs at h2
    all_goals
      simp only [Option.some.injEq] at h2
      rw [← h2, List.length_rotate]
  · cases h

theorem flip_length {α : Type} (l : List α) : (l.take 1 ++ (l.drop 1).reverse).length = l.length := by
  cases l <;> simp

theorem prismOf_length {α : Type} [DecidableEq α] {gs : List (List α)} {b o : Nat} {r : List α} (h : prismOf gs b o = some r) :
    ∃ F O r', gs[b]? = some F ∧ gs[o]? = some O ∧ r = F ++ r' ∧ r'.length = O.length := by
  unfold prismOf at h
  split at h
  · rename_i F O hF hO
    obtain ⟨r', h1, h2⟩ := Option.map_eq_some_iff.mp h
    refine ⟨F, O, r', hF, hO, h2.symm, ?_⟩
    unfold arrangeOpposite at h1
    split at h1
    · rw [orient_length h1, flip_length]
    · simp only [Option.some.injEq] at h1
      rw [← h1, flip_length]
  · cases h

/-- A prism is found between two opposite faces. -/
theorem prismOf_good {cm : CellModel} {n : Nat} (htab : prismTab cm n = true) (hnd : ((cm.sons.map Prod.snd).map fun l : List Nat => (l : Cycle Nat)).Nodup)
    (hne : ∀ s ∈ cm.sons, s.2 ≠ []) (h3 : 3 ≤ cm.sons.length) {gs : List (List Nat)} (hg : SameFaces gs (cm.sons.map Prod.snd)) {b o : Nat} (hbo : b ≠ o) {F O : List Nat}
    (hF : gs[b]? = some F) (hO : gs[o]? = some O) (hFl : F.length = n) (hOl : O.length = n) (hm : meet F O = []) :
    ∃ r, prismOf gs b o = some r ∧ SameFaces (sonsOf cm r) (cm.sons.map Prod.snd) ∧ r.length = 2 * n := by
  have hlen : gs.length = cm.sons.length := by simpa using (sameFaces_lengths hg).length_eq
  obtain ⟨j, S, hS, hjS, hjb, hjo⟩ := firstSide_some (gs := gs) (by omega) b o
  obtain ⟨s0, m0, c0⟩ := sameFaces_get hg hF
  obtain ⟨s1, m1, c1⟩ := sameFaces_get hg hO
  obtain ⟨s2, m2, c2⟩ := sameFaces_get hg hjS
  have d01 := sameFaces_ne hg hnd hbo hF hO
  have d02 := sameFaces_ne hg hnd hjb hjS hF
  have d12 := sameFaces_ne hg hnd hjo hjS hO
  rw [c0, c1] at d01
  rw [c2, c0] at d02
  rw [c2, c1] at d12
  have hne' : ∀ s ∈ cm.sons.map Prod.snd, s ≠ [] := by
    intro s hs
    obtain ⟨x, hx, rfl⟩ := List.mem_map.mp hs
    exact hne x hx
  unfold prismTab at htab
  rw [List.all_eq_true] at htab
  have t := htab s0 m0
  rw [List.all_eq_true] at t
  have t := t s1 m1
  rw [List.all_eq_true] at t
  have t := t s2 m2
  have hm' : meet s0 s1 = [] := by
    rw [meet_nil_iff] at hm ⊢
    intro x hx hx1
    exact hm x ((cyc_mem c0 x).mpr hx) ((cyc_mem c1 x).mpr hx1)
  have e01 : s0 ≠ s1 := fun h => d01 (by rw [h])
  have e02 : s0 ≠ s2 := fun h => d02 (by rw [h])
  have e12 : s1 ≠ s2 := fun h => d12 (by rw [h])
  have l0 : s0.length = n := by rw [← cyc_len c0]; exact hFl
  have l1 : s1.length = n := by rw [← cyc_len c1]; exact hOl
  simp only [l0, l1, hm', e01, e02, e12, bne_self_eq_false, List.isEmpty_nil, Bool.not_true, Bool.false_or, beq_eq_false_iff_ne.mpr e01,
    beq_eq_false_iff_ne.mpr e02, beq_eq_false_iff_ne.mpr e12, List.all_eq_true] at t
  have ok := t F (mem_rots (hne' _ m0) c0) O (mem_rots (hne' _ m1) c1) S (mem_rots (hne' _ m2) c2)
  unfold okPrism at ok
  unfold prismOf arrangeOpposite
  rw [hF, hO]
  dsimp only
  rw [hS]
  dsimp only
  cases hr : orientOppositeFace F (O.take 1 ++ (O.drop 1).reverse) S with
  | none => rw [hr] at ok; simp at ok
  | some r =>
    rw [hr] at ok
    refine ⟨F ++ r, rfl, sameFaces_of_test ok, ?_⟩
    rw [List.length_append, orient_length hr, flip_length]
    omega

theorem twoOfType_spec {ts : List Int} {t : Int} (h : ts.count t = 2) :
    (twoOfType ts t).1 < (twoOfType ts t).2 ∧ ts[(twoOfType ts t).1]? = some t ∧ ts[(twoOfType ts t).2]? = some t := by
  have h1 : t ∈ ts := List.count_pos_iff.mp (by omega)
  have hi : ts.idxOf t < ts.length := List.idxOf_lt_length_iff.mpr h1
  have hg : ts[ts.idxOf t] = t := List.getElem_idxOf hi
  have hsplit : ts = ts.take (ts.idxOf t) ++ t :: ts.drop (ts.idxOf t + 1) := by
    conv_lhs => rw [← List.take_append_drop (ts.idxOf t) ts, List.drop_eq_getElem_cons hi, hg]
  have h0 : (ts.take (ts.idxOf t)).count t = 0 := by
    rw [List.count_eq_zero]
    intro hm
    obtain ⟨k, hk, he⟩ := List.mem_iff_getElem.mp hm
    rw [List.length_take] at hk
    rw [List.getElem_take] at he
    have := List.not_of_lt_findIdx (p := fun x => x == t) (xs := ts) (i := k) (by
      have : ts.findIdx (fun x => x == t) = ts.idxOf t := rfl
      omega)
    simp [he] at this
  have hc : (ts.drop (ts.idxOf t + 1)).count t = 1 := by
    rw [hsplit, List.count_append, List.count_cons_self, h0] at h
    omega
  have h2 : t ∈ ts.drop (ts.idxOf t + 1) := List.count_pos_iff.mp (by omega)
  have hi2 : (ts.drop (ts.idxOf t + 1)).idxOf t < (ts.drop (ts.idxOf t + 1)).length := List.idxOf_lt_length_iff.mpr h2
  have hg2 := List.getElem_idxOf hi2
  refine ⟨by simp only [twoOfType]; omega, by simp only [twoOfType]; rw [List.getElem?_eq_getElem hi, hg], ?_⟩
  simp only [twoOfType]
  rw [← List.getElem?_drop, List.getElem?_eq_getElem hi2, hg2]

theorem unPoly_len {n : Nat} : (unPoly2DType false n = 3 ↔ n = 3) ∧ (unPoly2DType false n = 4 ↔ n = 4) := by
  unfold unPoly2DType
  simp only [Bool.false_eq_true, if_false]
  split_ifs <;> simp_all

theorem typed_types {α : Type} (gs : List (List α)) (i : Nat) (t : Int) (h : ((typed gs).map Prod.fst)[i]? = some t) :
    ∃ F, gs[i]? = some F ∧ unPoly2DType false F.length = t := by
  rw [typed_fst, List.getElem?_map, List.getElem?_map, Option.map_map] at h
  cases hg : gs[i]? with
  | none => rw [hg] at h; cases h
  | some F => rw [hg] at h; exact ⟨F, rfl, by simpa using h⟩

theorem typed_count {gs B : List (List Nat)} (h : SameFaces gs B) (t : Int) :
    ((typed gs).map Prod.fst).count t = ((typed B).map Prod.fst).count t := by
  rw [typed_fst, typed_fst]
  exact ((sameFaces_lengths h).map _).count_eq t

/-- **Hexahedra.** -/
theorem hexa8_found {gs : List (List Nat)} (hg : SameFaces gs (cm_hexa8.sons.map Prod.snd)) :
    ∃ r, tryHexa8 (typed gs) = some r ∧ SameFaces (sonsOf cm_hexa8 r) (cm_hexa8.sons.map Prod.snd) ∧ r.length = 8 := by
  obtain ⟨hnd, hne⟩ := sons_nodup cm_hexa8 (by simp)
  have hlen : gs.length = 6 := by simpa [cm_hexa8] using (sameFaces_lengths hg).length_eq
  have h4 : ∀ g ∈ gs, g.length = 4 := by
    intro g hgm
    obtain ⟨i, hi⟩ := List.mem_iff_getElem?.mp hgm
    obtain ⟨s, hs, hc⟩ := sameFaces_get hg hi
    have tab : ∀ s ∈ cm_hexa8.sons.map Prod.snd, s.length = 4 := by decide
    rw [cyc_len hc, tab s hs]
  obtain ⟨F, G, rfl⟩ : ∃ F G, gs = F :: G := by
    cases gs with
    | nil => simp at hlen
    | cons F G => exact ⟨F, G, rfl⟩
  have hGl : G.length = 5 := by simpa using hlen
  obtain ⟨s0, m0, c0⟩ := sameFaces_get hg (i := 0) (F := F) rfl
  have tab : ∀ s ∈ cm_hexa8.sons.map Prod.snd, ∃ s' ∈ cm_hexa8.sons.map Prod.snd, meet s s' = [] := by decide
  obtain ⟨s1, m1, hm⟩ := tab s0 m0
  obtain ⟨i, O, hO, c1⟩ := sameFaces_find hg m1
  have hmF : meet F O = [] := by
    rw [meet_nil_iff] at hm ⊢
    intro x hx hx1
    exact hm x ((cyc_mem c0 x).mp hx) ((cyc_mem c1 x).mp hx1)
  have hOG : O ∈ G := by
    cases i with
    | zero =>
      simp only [List.getElem?_cons_zero, Option.some.injEq] at hO
      rw [← hO, meet_nil_iff] at hmF
      have hF4 := h4 F (by simp)
      cases F with
      | nil => simp at hF4
      | cons x F => exact absurd (List.mem_cons_self) (hmF x (by simp))
    | succ i =>
      rw [List.getElem?_cons_succ] at hO
      exact List.mem_of_getElem? hO
  have hall : ((typed (F :: G)).all fun f => f.1 == 4) = true := by
    rw [List.all_eq_true]
    intro p hp
    simp only [typed, List.mem_map] at hp
    obtain ⟨g, hgm, rfl⟩ := hp
    simp [unPoly2DType, h4 g hgm]
  have hsome : (G.findIdx? fun f => (meet F f).isEmpty).isSome := by
    rw [List.findIdx?_isSome, List.any_eq_true]
    exact ⟨O, hOG, by simp [hmF]⟩
  obtain ⟨k, hk⟩ := Option.isSome_iff_exists.mp hsome
  obtain ⟨hkl, hkp, -⟩ := List.findIdx?_eq_some_iff_getElem.mp hk
  obtain ⟨r, hr1, hr2⟩ := prismOf_good (n := 4) tab_hexa8 hnd hne (by decide) hg (b := 0) (o := k + 1) (by omega) (F := F) (O := G[k]) rfl
    (by rw [List.getElem?_cons_succ, List.getElem?_eq_getElem hkl]) (h4 F (by simp)) (h4 _ (by simp)) (by simpa using hkp)
  refine ⟨r, ?_, hr2⟩
  unfold tryHexa8
  rw [hall, typed_snd, if_pos rfl, List.drop_one, List.tail_cons, List.take_of_length_le (l := G) (by omega),
    List.take_of_length_le (l := F :: G) (by simp; omega)]
  simp only [List.head?_cons, Option.getD_some]
  rw [hk]
  exact hr1

/-- Prisms between two faces of a type -/
theorem prism_found {cm : CellModel} {n : Nat} (htab : prismTab cm n = true) (hcm : cm ∈ [cm_tetra4, cm_pyra5, cm_penta6, cm_hexa8, cm_hexgp12])
    (h3 : 3 ≤ cm.sons.length) {gs : List (List Nat)} (hg : SameFaces gs (cm.sons.map Prod.snd)) (t : Int)
    (hcnt : ((typed (cm.sons.map Prod.snd)).map Prod.fst).count t = 2)
    (hn : ∀ s ∈ cm.sons.map Prod.snd, unPoly2DType false s.length = t → s.length = n)
    (hdis : ∀ s ∈ cm.sons.map Prod.snd, ∀ s' ∈ cm.sons.map Prod.snd, s.length = n → s'.length = n → s = s' ∨ meet s s' = []) :
    ∃ r, prismBetween gs (twoOfType ((typed gs).map Prod.fst) t) = some r ∧ SameFaces (sonsOf cm r) (cm.sons.map Prod.snd) ∧ r.length = 2 * n ∧
      ((gs[(twoOfType ((typed gs).map Prod.fst) t).1]?).getD []).length = n ∧ ((gs[(twoOfType ((typed gs).map Prod.fst) t).2]?).getD []).length = n := by
  obtain ⟨hnd, hne⟩ := sons_nodup cm hcm
  obtain ⟨hlt, g1, g2⟩ := twoOfType_spec (ts := (typed gs).map Prod.fst) (t := t) (by rw [typed_count hg]; exact hcnt)
  obtain ⟨F, hF, tF⟩ := typed_types _ _ _ g1
  obtain ⟨O, hO, tO⟩ := typed_types _ _ _ g2
  obtain ⟨s0, m0, c0⟩ := sameFaces_get hg hF
  obtain ⟨s1, m1, c1⟩ := sameFaces_get hg hO
  have l0 : s0.length = n := hn s0 m0 (by rw [← cyc_len c0]; exact tF)
  have l1 : s1.length = n := hn s1 m1 (by rw [← cyc_len c1]; exact tO)
  have hd := sameFaces_ne hg hnd (Nat.ne_of_lt hlt) hF hO
  have hm : meet F O = [] := by
    rcases hdis s0 m0 s1 m1 l0 l1 with h | h
    · exact absurd (by rw [c0, c1, h]) hd
    · rw [meet_nil_iff] at h ⊢
      intro x hx hx1
      exact h x ((cyc_mem c0 x).mp hx) ((cyc_mem c1 x).mp hx1)
  obtain ⟨r, hr1, hr2⟩ := prismOf_good htab hnd hne h3 hg (Nat.ne_of_lt hlt) hF hO (by rw [cyc_len c0, l0]) (by rw [cyc_len c1, l1]) hm
  refine ⟨r, ?_, hr2.1, hr2.2, ?_, ?_⟩
  · unfold prismBetween
    rw [hF, hO, if_pos (by simpa using hm)]
    exact hr1
  · rw [hF]; simpa [cyc_len c0] using l0
  · rw [hO]; simpa [cyc_len c1] using l1

theorem penta6_found {gs : List (List Nat)} (hg : SameFaces gs (cm_penta6.sons.map Prod.snd)) :
    ∃ r, tryPenta6 (typed gs) = some r ∧ SameFaces (sonsOf cm_penta6 r) (cm_penta6.sons.map Prod.snd) ∧ r.length = 6 := by
  obtain ⟨r, h1, h2, h5, -⟩ := prism_found tab_penta6 (by simp) (by decide) hg 3 (by decide) (by decide) (by decide)
  refine ⟨r, ?_, h2, h5⟩
  unfold tryPenta6
  rw [typed_count hg, typed_count hg, if_pos (by decide), typed_snd]
  exact h1

theorem hexgp12_found {gs : List (List Nat)} (hg : SameFaces gs (cm_hexgp12.sons.map Prod.snd)) :
    ∃ r, tryHexgp12 (typed gs) = some r ∧ SameFaces (sonsOf cm_hexgp12 r) (cm_hexgp12.sons.map Prod.snd) ∧ r.length = 12 := by
  obtain ⟨r, h1, h2, h5, h3, h4⟩ := prism_found tab_hexgp12 (by simp) (by decide) hg 5 (by decide) (by decide) (by decide)
  refine ⟨r, ?_, h2, h5⟩
  unfold tryHexgp12
  rw [typed_count hg, typed_count hg, if_pos (by decide), typed_snd]
  dsimp only
  rw [if_pos ⟨h3, h4⟩]
  exact h1

theorem coneLoop_all {base : List Nat} {p : Nat} (fs : List (List Nat)) (h : ∀ f ∈ fs, (meet f base).length = 2 ∧ minus f base = [p]) (x : Option Nat)
    (hx : x = some p ∨ (x = none ∧ fs ≠ [])) : coneLoop base fs x = some p := by
  induction fs generalizing x with
  | nil =>
    rcases hx with rfl | ⟨-, h⟩
    · rfl
    · exact absurd rfl h
  | cons f fs ih =>
    obtain ⟨h1, h2⟩ := h f (by simp)
    rw [coneLoop_cons, if_pos h1, h2]
    rcases hx with rfl | ⟨rfl, -⟩
    · simp only [if_true]
      exact ih (fun g hg => h g (by simp [hg])) _ (Or.inl rfl)
    · exact ih (fun g hg => h g (by simp [hg])) _ (Or.inl rfl)

/-- Cones on a face -/
theorem cone_found {cm : CellModel} {n : Nat} (htab : coneTab cm n = true) (hcm : cm ∈ [cm_tetra4, cm_pyra5, cm_penta6, cm_hexa8, cm_hexgp12])
    (h2 : 2 ≤ cm.sons.length) {gs : List (List Nat)} (hg : SameFaces gs (cm.sons.map Prod.snd)) {b : Nat} {F : List Nat} (hF : gs[b]? = some F) (hFl : F.length = n) :
    ∃ p, coneLoop F (gs.eraseIdx b) none = some p ∧ SameFaces (sonsOf cm (F ++ [p])) (cm.sons.map Prod.snd) := by
  obtain ⟨hnd, hne⟩ := sons_nodup cm hcm
  have hlen : gs.length = cm.sons.length := by simpa using (sameFaces_lengths hg).length_eq
  have hne' : ∀ s ∈ cm.sons.map Prod.snd, s ≠ [] := by
    intro s hs
    obtain ⟨x, hx, rfl⟩ := List.mem_map.mp hs
    exact hne x hx
  obtain ⟨s0, m0, c0⟩ := sameFaces_get hg hF
  unfold coneTab at htab
  rw [List.all_eq_true] at htab
  have t := htab s0 m0
  have l0 : s0.length = n := by rw [← cyc_len c0]; exact hFl
  simp only [l0, bne_self_eq_false, Bool.false_or, List.all_eq_true] at t
  have t := t F (mem_rots (hne' _ m0) c0)
  obtain ⟨p, -, hp⟩ := List.any_eq_true.mp t
  rw [Bool.and_eq_true, List.all_eq_true] at hp
  refine ⟨p, coneLoop_all _ ?_ none (Or.inr ⟨rfl, ?_⟩), sameFaces_of_test hp.1⟩
  · intro f hf
    obtain ⟨j, hj, hjb⟩ := List.mem_eraseIdx_iff_getElem?.mp hf
    obtain ⟨s1, m1, c1⟩ := sameFaces_get hg hjb
    have hd := sameFaces_ne hg hnd hj hjb hF
    have e01 : s0 ≠ s1 := fun h => hd (by rw [c0, c1, h])
    have := hp.2 s1 m1
    rw [beq_eq_false_iff_ne.mpr e01, Bool.false_or, List.all_eq_true] at this
    have := this f (mem_rots (hne' _ m1) c1)
    simpa using this
  · intro h
    obtain ⟨hb, -⟩ := List.getElem?_eq_some_iff.mp hF
    have := congrArg List.length h
    rw [List.length_eraseIdx_of_lt hb] at this
    simp at this
    omega

theorem tetra4_found {gs : List (List Nat)} (hg : SameFaces gs (cm_tetra4.sons.map Prod.snd)) :
    ∃ r, tryTetra4 (typed gs) = some r ∧ SameFaces (sonsOf cm_tetra4 r) (cm_tetra4.sons.map Prod.snd) ∧ r.length = 4 := by
  have hlen : gs.length = 4 := by simpa [cm_tetra4] using (sameFaces_lengths hg).length_eq
  have h3 : ∀ g ∈ gs, g.length = 3 := by
    intro g hgm
    obtain ⟨i, hi⟩ := List.mem_iff_getElem?.mp hgm
    obtain ⟨s, hs, hc⟩ := sameFaces_get hg hi
    have tab : ∀ s ∈ cm_tetra4.sons.map Prod.snd, s.length = 3 := by decide
    rw [cyc_len hc, tab s hs]
  obtain ⟨F, G, rfl⟩ : ∃ F G, gs = F :: G := by
    cases gs with
    | nil => simp at hlen
    | cons F G => exact ⟨F, G, rfl⟩
  obtain ⟨p, p1, p2⟩ := cone_found tab_tetra4 (by simp) (by decide) hg (b := 0) (F := F) rfl (h3 F (by simp))
  refine ⟨F ++ [p], ?_, p2, by simp [h3 F (by simp)]⟩
  have hall : ((typed (F :: G)).all fun f => f.1 == 3) = true := by
    rw [List.all_eq_true]
    intro q hq
    simp only [typed, List.mem_map] at hq
    obtain ⟨g, hgm, rfl⟩ := hq
    simp [unPoly2DType, h3 g hgm]
  unfold tryTetra4
  rw [hall, typed_snd, if_pos rfl, List.take_of_length_le (by omega)]
  rw [List.eraseIdx_cons_zero] at p1
  dsimp only
  rw [p1]
  rfl

theorem pyra5_found {gs : List (List Nat)} (hg : SameFaces gs (cm_pyra5.sons.map Prod.snd)) :
    ∃ r, tryPyra5 (typed gs) = some r ∧ SameFaces (sonsOf cm_pyra5 r) (cm_pyra5.sons.map Prod.snd) ∧ r.length = 5 := by
  have hm : (4 : Int) ∈ (typed gs).map Prod.fst := List.count_pos_iff.mp (by rw [typed_count hg]; decide)
  have hi := List.idxOf_lt_length_iff.mpr hm
  obtain ⟨F, hF, tF⟩ := typed_types gs (((typed gs).map Prod.fst).idxOf 4) 4 (by rw [List.getElem?_eq_getElem hi, List.getElem_idxOf hi])
  obtain ⟨p, p1, p2⟩ := cone_found tab_pyra5 (by simp) (by decide) hg hF (unPoly_len.2.mp tF)
  refine ⟨F ++ [p], ?_, p2, by simp [unPoly_len.2.mp tF]⟩
  unfold tryPyra5
  rw [typed_count hg, typed_count hg, if_pos (by decide), typed_snd]
  dsimp only
  rw [hF]
  dsimp only
  rw [p1]
  rfl

/-- The usual cells of dimension 3 -/
def usualTypes : List CellModel := [cm_tetra4, cm_pyra5, cm_penta6, cm_hexa8, cm_hexgp12]

theorem usual_found {cm : CellModel} (hcm : cm ∈ usualTypes) {gs : List (List Nat)} (hg : SameFaces gs (cm.sons.map Prod.snd)) :
    ∃ r, tryUsual cm.nbPts (typed gs) = some (cm.code, r) ∧ SameFaces (sonsOf cm r) (cm.sons.map Prod.snd) ∧ r.length = cm.nbPts := by
  have hlen : (typed gs).length = cm.sons.length := by simpa [typed] using (sameFaces_lengths hg).length_eq
  have hcases : cm = cm_tetra4 ∨ cm = cm_pyra5 ∨ cm = cm_penta6 ∨ cm = cm_hexa8 ∨ cm = cm_hexgp12 := by simpa [usualTypes] using hcm
  unfold tryUsual
  rw [hlen]
  rcases hcases with rfl | rfl | rfl | rfl | rfl
  · obtain ⟨r, h1, h2⟩ := tetra4_found hg
    exact ⟨r, by rw [h1]; rfl, h2⟩
  · obtain ⟨r, h1, h2⟩ := pyra5_found hg
    exact ⟨r, by rw [h1]; rfl, h2⟩
  · obtain ⟨r, h1, h2⟩ := penta6_found hg
    exact ⟨r, by rw [h1]; rfl, h2⟩
  · obtain ⟨r, h1, h2⟩ := hexa8_found hg
    exact ⟨r, by rw [h1]; rfl, h2⟩
  · obtain ⟨r, h1, h2⟩ := hexgp12_found hg
    exact ⟨r, by rw [h1]; rfl, h2⟩

end MC
