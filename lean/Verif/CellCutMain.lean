import Verif.CellCutMeas
import Verif.MeasureGeo

/-!
# The field of measures of a mesh cut in simplices (C99)
-/

namespace MC

/-! ## Values of the new cells of an old cell -/

theorem oldOf_congr {α β : Type} (k : Nat) (gs : List (List α)) (hs : List (List β)) (h : gs.map List.length = hs.map List.length) :
    oldOf k gs = oldOf k hs := by
  induction gs generalizing k hs with
  | nil => cases hs with
    | nil => rfl
    | cons => simp at h
  | cons g gs ih =>
    cases hs with
    | nil => simp at h
    | cons g' hs =>
      simp only [List.map_cons, List.cons.injEq] at h
      have := ih (k + 1) hs h.2
      simp only [oldOf, List.zipIdx_cons, List.flatMap_cons] at this ⊢
      rw [this]
      congr 1
      rw [List.map_const', List.map_const', h.1]

/-- The values of the new cells which come from the old cell `i`. -/
def valuesFrom {β : Type} (n2o : List Int) (ws : List β) (i : Int) : List β := ((n2o.zip ws).filter fun p => p.1 = i).map Prod.snd

theorem valuesFrom_oldOf {β : Type} (k : Nat) (gs : List (List β)) (i : Nat) :
    valuesFrom (oldOf k gs) gs.flatten (i : Int) = if k ≤ i then gs.getD (i - k) [] else [] := by
  induction gs generalizing k with
  | nil => simp [valuesFrom, oldOf]
  | cons g gs ih =>
    have := ih (k + 1)
    have e : oldOf k (g :: gs) = (g.map fun _ => (k : Int)) ++ oldOf (k + 1) gs := by
      simp [oldOf, List.zipIdx_cons]
    have ez : ∀ (n : Int), ((g.map fun _ => n).zip g) = g.map fun x => (n, x) := by
      intro n
      clear * -
      induction g with
      | nil => rfl
      | cons a g ih => rw [List.map_cons, List.zip_cons_cons, ih, List.map_cons]
    unfold valuesFrom at this ⊢
    rw [e, List.flatten_cons, List.zip_append (by simp), List.filter_append, List.map_append, this, ez]
    by_cases h : k = i
    · subst h
      simp only [Nat.le_refl, if_true, Nat.sub_self, List.getD_cons_zero]
      rw [if_neg (by omega), List.append_nil, List.filter_eq_self.mpr (by simp), List.map_map]
      simp [Function.comp_def]
    · rw [List.filter_eq_nil_iff.mpr (by
        intro p hp
        simp only [List.mem_map] at hp
        obtain ⟨x, -, rfl⟩ := hp
        simp
        omega), List.map_nil, List.nil_append]
      by_cases h2 : k + 1 ≤ i
      · rw [if_pos h2, if_pos (by omega), show i - k = (i - (k + 1)) + 1 by omega, List.getD_cons_succ]
      · rw [if_neg h2, if_neg (by omega)]

section
variable {K : Type} [Field K]

theorem measures_append (arcs : Arcs K) (s : K → K) (sd : Nat) (coords : List (List K)) (l m : List Cell) {v w : List K}
    (h1 : measures arcs s sd coords l = .ok v) (h2 : measures arcs s sd coords m = .ok w) :
    measures arcs s sd coords (l ++ m) = .ok (v ++ w) := by
  unfold measures at *
  rw [List.mapM_append, h1, ok_bind, h2, ok_bind]
  rfl

theorem measures_length (arcs : Arcs K) (s : K → K) (sd : Nat) (coords : List (List K)) (l : List Cell) {v : List K}
    (h : measures arcs s sd coords l = .ok v) : v.length = l.length := by
  induction l generalizing v with
  | nil =>
    injection h with h
    subst h
    rfl
  | cons c l ih =>
    unfold measures at h ih
    rw [List.mapM_cons] at h
    cases hc : cellMeasure arcs s sd coords c.type c.nodes with
    | error e => rw [hc] at h; cases h
    | ok x =>
      rw [hc, ok_bind] at h
      cases hm : (l.mapM fun c => cellMeasure arcs s sd coords c.type c.nodes) with
      | error e => rw [hm] at h; cases h
      | ok y =>
        rw [hm, ok_bind] at h
        injection h with h
        subst h
        simp [ih hm]

theorem measures_groups (arcs : Arcs K) (s : K → K) (sd : Nat) (coords : List (List K)) (P : Cell → List Cell) (cells : List Cell)
    (hP : ∀ c ∈ cells, ∀ v, cellMeasure arcs s sd coords c.type c.nodes = .ok v → ∃ w, measures arcs s sd coords (P c) = .ok w ∧ w.sum = v)
    {vs : List K} (hv : measures arcs s sd coords cells = .ok vs) :
    ∃ wss : List (List K), measures arcs s sd coords (cells.map P).flatten = .ok wss.flatten ∧
      wss.map List.length = (cells.map P).map List.length ∧ wss.map List.sum = vs := by
  induction cells generalizing vs with
  | nil =>
    injection hv with hv
    subst hv
    exact ⟨[], rfl, rfl, rfl⟩
  | cons c cells ih =>
    have hv' := hv
    unfold measures at hv
    rw [List.mapM_cons] at hv
    cases hc : cellMeasure arcs s sd coords c.type c.nodes with
    | error e => rw [hc] at hv; cases hv
    | ok x =>
      rw [hc, ok_bind] at hv
      cases hm : (cells.mapM fun c => cellMeasure arcs s sd coords c.type c.nodes) with
      | error e => rw [hm] at hv; cases hv
      | ok y =>
        rw [hm, ok_bind] at hv
        injection hv with hv
        subst hv
        obtain ⟨wss, i1, i2, i3⟩ := ih (fun c hc => hP c (by simp [hc])) hm
        obtain ⟨w, j1, j2⟩ := hP c (by simp) x hc
        refine ⟨w :: wss, ?_, ?_, ?_⟩
        · rw [List.map_cons, List.flatten_cons, List.flatten_cons]
          exact measures_append _ _ _ _ _ _ j1 i1
        · rw [List.map_cons, List.map_cons, List.map_cons, i2, measures_length _ _ _ _ _ j1]
        · rw [List.map_cons, i3, j2]

end

section
variable {K : Type} [Field K] [LinearOrder K]

theorem measureField_measures (arcs : Arcs K) (s : K → K) (sd : Nat) (coords : List (List K)) {conn connI : List Int}
    {cells : List Cell} (h : IsMesh conn connI cells) :
    measureField arcs s sd coords conn connI false = measures arcs s sd coords cells := by
  rw [measureField_eq arcs s sd coords h]
  unfold measures
  congr 1
  funext c
  unfold cellValue
  cases cellMeasure arcs s sd coords c.type c.nodes <;> rfl

/-- `getMeasureField(false)` of a mesh -/
def UMesh.measureField (arcs : Arcs K) (s : K → K) (sd : Nat) (coords : List (List K)) (u : UMesh) : M (List K) :=
  match u.arrays with
  | some p => MC.measureField arcs s sd coords p.1 p.2 false
  | none => throwX

theorem HoldsCells.measures {u : UMesh} {cells : List Cell} (h : HoldsCells u cells) (arcs : Arcs K) (s : K → K) (sd : Nat)
    (coords : List (List K)) : u.measureField arcs s sd coords = MC.measures arcs s sd coords cells := by
  obtain ⟨⟨conn, connI, h1, h2⟩, -, -⟩ := h
  unfold UMesh.measureField
  rw [h1]
  exact measureField_measures arcs s sd coords h2

variable [CharZero K]

/-- **C99.** The measures of the new cells which come from an old cell add up to the measure of the old cell: in the plane for both
ways to cut quadrangles, in the space for the second one, and for both ways to cut hexahedra if their faces are plane. -/
theorem C99_measures_are_shared (arcs : Arcs K) (s : K → K) (sd : Nat) (coords : List (List K)) (u : UMesh) (cells : List Cell)
    (policy : Int) (hu : HoldsCells u cells) (hc : CanCut u cells policy)
    (hsd : ((policy = 0 ∨ policy = 1) ∧ sd = 2) ∨ (policy = 1 ∧ sd = 3) ∨
      ((policy = 5 ∨ policy = 6) ∧ sd = 3 ∧ ∀ c ∈ cells, c.type = 18 → PlaneFaces arcs s coords c.nodes))
    (vs : List K) (hv : u.measureField arcs s sd coords = .ok vs) :
    ∃ u' n2o ws, u.simplexize policy = .ok (u', n2o) ∧ u'.measureField arcs s sd coords = .ok ws ∧ n2o.length = ws.length ∧
      vs.length = cells.length ∧ ∀ i, (hi : i < vs.length) → (valuesFrom n2o ws i).sum = vs[i] := by
  obtain ⟨u', h1, h2, h3, h4⟩ := C99_cells_of_simplexize u cells policy hu hc
  rw [hu.measures] at hv
  have hP : ∀ c ∈ cells, ∀ v, cellMeasure arcs s sd coords c.type c.nodes = .ok v →
      ∃ w, measures arcs s sd coords (simplices policy c) = .ok w ∧ w.sum = v := by
    intro c hcm v hcv
    have other : simplices policy c = [c] → ∃ w, measures arcs s sd coords (simplices policy c) = .ok w ∧ w.sum = v := by
      intro e
      rw [e]
      refine ⟨[v], ?_, by simp⟩
      unfold measures
      rw [List.mapM_cons, hcv, ok_bind]
      rfl
    rcases hc with ⟨hp, -, hn⟩ | ⟨hp, -, hn⟩
    · by_cases ht : c.type = 4
      · obtain ⟨t, nodes⟩ := c
        simp only at ht
        subst ht
        rcases hsd with ⟨-, rfl⟩ | ⟨rfl, rfl⟩ | ⟨h, -⟩
        · exact C99_areas_of_the_triangles arcs s coords policy hp nodes (hn _ hcm rfl) v hcv
        · exact C99_areas_of_the_triangles_in_space arcs s coords nodes (hn _ hcm rfl) v hcv
        · omega
      · exact other (simplices_other policy 4 (Or.inl ⟨hp, rfl⟩) c ht)
    · by_cases ht : c.type = 18
      · obtain ⟨t, nodes⟩ := c
        simp only at ht
        subst ht
        rcases hsd with ⟨h, -⟩ | ⟨h, -⟩ | ⟨-, rfl, hf⟩
        · omega
        · omega
        · exact C99_volumes_when_faces_are_plane arcs s coords policy hp nodes (hn _ hcm rfl) v hcv (hf _ hcm rfl)
      · exact other (simplices_other policy 18 (Or.inr ⟨hp, rfl⟩) c ht)
  obtain ⟨wss, w1, w2, w3⟩ := measures_groups arcs s sd coords (simplices policy) cells hP hv
  have ho := oldOf_congr 0 _ _ w2
  refine ⟨u', _, wss.flatten, h1, by rw [h2.measures]; exact w1, ?_, measures_length _ _ _ _ _ hv, ?_⟩
  · rw [← ho, oldOf_length]
  · intro i hi
    rw [← ho, valuesFrom_oldOf, if_pos (Nat.zero_le _), Nat.sub_zero]
    subst w3
    rw [List.length_map] at hi
    rw [List.getElem_map, List.getD_eq_getElem?_getD, List.getElem?_eq_getElem hi]
    rfl

end

/-! ## Nodes -/

/-- **C99.** A cell and its simplices are on the same nodes. -/
theorem C99_same_nodes (policy : Int) (c : Cell) (n : Int) :
    n ∈ c.nodes ↔ ∃ d ∈ simplices policy c, n ∈ d.nodes := by
  unfold simplices
  split
  · rename_i n0 n1 n2 n3
    split
    · simp; tauto
    · split
      · simp; tauto
      · simp
  · rename_i n0 n1 n2 n3 n4 n5 n6 n7
    split
    · simp; tauto
    · split
      · simp; tauto
      · simp
  · simp

/-- **C99.** Only quadrangles are cut by the policies of dimension 2, and only hexahedra by those of dimension 3: the new mesh is made of
simplices if and only if the old one was made of simplices and of these cells. -/
theorem C99_only_simplices (cells : List Cell) (policy : Int) :
    ((policy = 0 ∨ policy = 1) → (∀ c ∈ cells, c.type = 4 → c.nodes.length = 4) →
      ((∀ d ∈ (cells.map (simplices policy)).flatten, d.type = 3) ↔ ∀ c ∈ cells, c.type = 3 ∨ c.type = 4)) ∧
    ((policy = 5 ∨ policy = 6) → (∀ c ∈ cells, c.type = 18 → c.nodes.length = 8) →
      ((∀ d ∈ (cells.map (simplices policy)).flatten, d.type = 14) ↔ ∀ c ∈ cells, c.type = 14 ∨ c.type = 18)) := by
  constructor
  · intro hp hn
    simp only [List.mem_flatten, List.mem_map, exists_exists_and_eq_and]
    constructor
    · intro h c hc
      by_cases ht : c.type = 4
      · exact Or.inr ht
      · exact Or.inl (h c ⟨c, hc, by rw [simplices_other policy 4 (Or.inl ⟨hp, rfl⟩) c ht]; simp⟩)
    · rintro h d ⟨c, hc, hd⟩
      by_cases ht : c.type = 4
      · obtain ⟨n0, n1, n2, n3, rfl⟩ := cell_quad c ht (hn c hc ht)
        rcases hp with rfl | rfl
        · change d ∈ [(⟨3, [n0, n1, n2]⟩ : Cell), ⟨3, [n0, n2, n3]⟩] at hd
          simp only [List.mem_cons, List.not_mem_nil, or_false] at hd
          rcases hd with rfl | rfl <;> rfl
        · change d ∈ [(⟨3, [n0, n1, n3]⟩ : Cell), ⟨3, [n1, n2, n3]⟩] at hd
          simp only [List.mem_cons, List.not_mem_nil, or_false] at hd
          rcases hd with rfl | rfl <;> rfl
      · rw [simplices_other policy 4 (Or.inl ⟨hp, rfl⟩) c ht] at hd
        simp only [List.mem_singleton] at hd
        subst hd
        exact (h d hc).resolve_right ht
  · intro hp hn
    simp only [List.mem_flatten, List.mem_map, exists_exists_and_eq_and]
    constructor
    · intro h c hc
      by_cases ht : c.type = 18
      · exact Or.inr ht
      · exact Or.inl (h c ⟨c, hc, by rw [simplices_other policy 18 (Or.inr ⟨hp, rfl⟩) c ht]; simp⟩)
    · rintro h d ⟨c, hc, hd⟩
      by_cases ht : c.type = 18
      · obtain ⟨n0, n1, n2, n3, n4, n5, n6, n7, rfl⟩ := cell_hexa c ht (hn c hc ht)
        rcases hp with rfl | rfl
        · change d ∈ [(⟨14, [n0, n5, n1, n2]⟩ : Cell), ⟨14, [n0, n4, n5, n7]⟩, ⟨14, [n0, n3, n7, n2]⟩, ⟨14, [n5, n7, n6, n2]⟩,
            ⟨14, [n0, n5, n2, n7]⟩] at hd
          simp only [List.mem_cons, List.not_mem_nil, or_false] at hd
          rcases hd with rfl | rfl | rfl | rfl | rfl <;> rfl
        · change d ∈ [(⟨14, [n0, n5, n1, n6]⟩ : Cell), ⟨14, [n0, n1, n2, n6]⟩, ⟨14, [n0, n4, n5, n6]⟩, ⟨14, [n0, n7, n4, n6]⟩,
            ⟨14, [n0, n2, n3, n6]⟩, ⟨14, [n0, n3, n7, n6]⟩] at hd
          simp only [List.mem_cons, List.not_mem_nil, or_false] at hd
          rcases hd with rfl | rfl | rfl | rfl | rfl | rfl <;> rfl
      · rw [simplices_other policy 18 (Or.inr ⟨hp, rfl⟩) c ht] at hd
        simp only [List.mem_singleton] at hd
        subst hd
        exact (h d hc).resolve_right ht

/-! ## Orientation -/

section
variable {K : Type} [Field K] [CharZero K]

/-- **C99.** The tetrahedra made of a parallelepiped are all oriented as it is: with six of them each has a sixth of its volume, with five
the last one has a third and the others a sixth. -/
theorem C99_shares_of_a_parallelepiped (arcs : Arcs K) (s : K → K) (coords : List (List K)) (nodes : List Int) (hl : nodes.length = 8)
    (v : K) (hv : cellMeasure arcs s 3 coords 18 nodes = .ok v) (o e1 e2 e3 : Nat → K)
    (hpar : nodes.map (ptNode coords) = [o, fun k => o k + e1 k, fun k => o k + e1 k + e2 k, fun k => o k + e2 k, fun k => o k + e3 k,
      fun k => o k + e1 k + e3 k, fun k => o k + e1 k + e2 k + e3 k, fun k => o k + e2 k + e3 k]) :
    measures arcs s 3 coords (simplices 5 ⟨18, nodes⟩) = .ok [v / 6, v / 6, v / 6, v / 6, v / 3] ∧
      measures arcs s 3 coords (simplices 6 ⟨18, nodes⟩) = .ok [v / 6, v / 6, v / 6, v / 6, v / 6, v / 6] := by
  rcases nodes with _ | ⟨a0, _ | ⟨a1, _ | ⟨a2, _ | ⟨a3, _ | ⟨a4, _ | ⟨a5, _ | ⟨a6, _ | ⟨a7, _ | ⟨z, nodes⟩⟩⟩⟩⟩⟩⟩⟩⟩ <;> simp at hl
  rw [meas_hexa _ _ _ _ _ (by decide)] at hv
  obtain ⟨h1, h2⟩ := valid_of_ok (g := fun ps => volHexa (ptRk ps 0) (ptRk ps 1) (ptRk ps 2) (ptRk ps 3) (ptRk ps 4) (ptRk ps 5)
    (ptRk ps 6) (ptRk ps 7)) rfl hv
  have h3 : volHexa (ptNode coords a0) (ptNode coords a1) (ptNode coords a2) (ptNode coords a3) (ptNode coords a4) (ptNode coords a5)
    (ptNode coords a6) (ptNode coords a7) = v := h2
  have hm := fun a b c d h => meas_of_valid_tetra arcs s coords a b c d (valid_sub h1 h)
  simp only [List.map_cons, List.map_nil, List.cons.injEq, and_true] at hpar
  obtain ⟨q0, q1, q2, q3, q4, q5, q6, q7⟩ := hpar
  rw [volHexa_eq] at h3
  constructor
  · show measures arcs s 3 coords [⟨14, [a0, a5, a1, a2]⟩, ⟨14, [a0, a4, a5, a7]⟩, ⟨14, [a0, a3, a7, a2]⟩, ⟨14, [a5, a7, a6, a2]⟩,
      ⟨14, [a0, a5, a2, a7]⟩] = _
    unfold measures
    simp only [List.mapM_cons, List.mapM_nil]
    rw [hm a0 a5 a1 a2 (by simp), ok_bind, hm a0 a4 a5 a7 (by simp), ok_bind, hm a0 a3 a7 a2 (by simp), ok_bind,
      hm a5 a7 a6 a2 (by simp), ok_bind, hm a0 a5 a2 a7 (by simp), ok_bind, ← h3, q0, q1, q2, q3, q4, q5, q6, q7]
    simp only [ok_bind, pure, Except.pure, Except.ok.injEq, List.cons.injEq, and_true, volTetra]
    refine ⟨?_, ?_, ?_, ?_, ?_⟩ <;> ring
  · show measures arcs s 3 coords [⟨14, [a0, a5, a1, a6]⟩, ⟨14, [a0, a1, a2, a6]⟩, ⟨14, [a0, a4, a5, a6]⟩, ⟨14, [a0, a7, a4, a6]⟩,
        ⟨14, [a0, a2, a3, a6]⟩, ⟨14, [a0, a3, a7, a6]⟩] = _
    unfold measures
    simp only [List.mapM_cons, List.mapM_nil]
    rw [hm a0 a5 a1 a6 (by simp), ok_bind, hm a0 a1 a2 a6 (by simp), ok_bind, hm a0 a4 a5 a6 (by simp), ok_bind,
      hm a0 a7 a4 a6 (by simp), ok_bind, hm a0 a2 a3 a6 (by simp), ok_bind, hm a0 a3 a7 a6 (by simp), ok_bind,
      ← h3, q0, q1, q2, q3, q4, q5, q6, q7]
    simp only [ok_bind, pure, Except.pure, Except.ok.injEq, List.cons.injEq, and_true, volTetra]
    refine ⟨?_, ?_, ?_, ?_, ?_, ?_⟩ <;> ring

end
end MC
