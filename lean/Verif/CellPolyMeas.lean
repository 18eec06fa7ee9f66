import Verif.CellPoly

/-!
# Measures of the cells turned into polygons and polyhedra (C99)
-/

namespace MC

section
variable {K : Type} [Field K]

theorem measures_congr (arcs : Arcs K) (s : K → K) (sd : Nat) (coords : List (List K)) (l m : List Cell) (hl : m.length = l.length)
    (h : ∀ (i : Nat) (c c' : Cell), l[i]? = some c → m[i]? = some c' → ∀ v, cellMeasure arcs s sd coords c.type c.nodes = .ok v →
      cellMeasure arcs s sd coords c'.type c'.nodes = .ok v) (vs : List K) (hv : measures arcs s sd coords l = .ok vs) :
    measures arcs s sd coords m = .ok vs := by
  induction l generalizing m vs with
  | nil =>
    have : m = [] := List.eq_nil_of_length_eq_zero (by simpa using hl)
    subst this
    exact hv
  | cons c l ih =>
    cases m with
    | nil => simp at hl
    | cons c' m =>
      unfold measures at hv ih ⊢
      rw [List.mapM_cons] at hv ⊢
      cases hc : cellMeasure arcs s sd coords c.type c.nodes with
      | error e => rw [hc] at hv; cases hv
      | ok v =>
        rw [hc, ok_bind] at hv
        cases hm : (l.mapM fun c => cellMeasure arcs s sd coords c.type c.nodes) with
        | error e => rw [hm] at hv; cases hv
        | ok y =>
          rw [hm, ok_bind] at hv
          rw [h 0 c c' rfl rfl v hc, ok_bind, ih m (by simpa using hl) (fun i d d' hd hd' => h (i + 1) d d' (by simpa using hd) (by simpa using hd'))
            y hm, ok_bind]
          exact hv

end

section
variable {K : Type} [Field K] [LinearOrder K] [CharZero K]

/-- The cells whose area does not change: those which have the numbers of nodes of their types, except the quadratic ones with a node in
the middle. -/
def KeepsArea (c : Cell) : Prop :=
  (c.type = 3 ∧ c.nodes.length = 3) ∨ (c.type = 4 ∧ c.nodes.length = 4) ∨ c.type = 5 ∨ (c.type = 6 ∧ c.nodes.length = 6) ∨
    (c.type = 8 ∧ c.nodes.length = 8) ∨ c.type = 32

omit [LinearOrder K] in
theorem asPolygon_measure (arcs : Arcs K) (s : K → K) (coords : List (List K)) (c : Cell) (h : KeepsArea c) :
    cellMeasure arcs s 2 coords (asPolygon c).type (asPolygon c).nodes = cellMeasure arcs s 2 coords c.type c.nodes := by
  obtain ⟨t, nodes⟩ := c
  unfold KeepsArea at h
  dsimp only at h
  rcases h with ⟨rfl, h⟩ | ⟨rfl, h⟩ | rfl | ⟨rfl, h⟩ | ⟨rfl, h⟩ | rfl
  · exact (C98_triangles_and_quadrangles_are_polygons arcs s coords 3 nodes (Or.inl ⟨rfl, h⟩)).symm
  · exact (C98_triangles_and_quadrangles_are_polygons arcs s coords 4 nodes (Or.inr ⟨rfl, h⟩)).symm
  · rfl
  · show cellMeasure arcs s 2 coords 32 nodes = cellMeasure arcs s 2 coords 6 nodes
    rw [meas_qpolyg _ _ _ (Or.inl rfl) _ _ _ (by decide), meas_qpolyg _ _ _ (Or.inl rfl) _ _ _ (by decide)]
    simp [qpolygNodes, h]
  · show cellMeasure arcs s 2 coords 32 nodes = cellMeasure arcs s 2 coords 8 nodes
    rw [meas_qpolyg _ _ _ (Or.inl rfl) _ _ _ (by decide), meas_qpolyg _ _ _ (Or.inl rfl) _ _ _ (by decide)]
    simp [qpolygNodes, h]
  · rfl

/-- **C99.** In the plane, turning cells into polygons does not change the field of measures. -/
theorem C99_polygons_keep_areas (arcs : Arcs K) (s : K → K) (coords : List (List K)) (u : UMesh) (cells : List Cell) (hu : HoldsCells u cells)
    (hd : u.dim = 2) (hn : u.nbNodes ≠ none) (hf : ∀ c ∈ cells, KeepsArea c) (ids : List Int)
    (hin : ∀ id ∈ ids, 0 ≤ id ∧ id < (cells.length : Int)) :
    ∃ u', u.convertToPolyTypes ids = .ok (u', true) ∧ u'.measureField arcs s 2 coords = u.measureField arcs s 2 coords := by
  have hfl : ∀ c ∈ cells, IsFlat c := by
    intro c hc
    unfold IsFlat
    rcases hf c hc with ⟨h, -⟩ | ⟨h, -⟩ | h | ⟨h, -⟩ | ⟨h, -⟩ | h <;> rw [h] <;> decide
  obtain ⟨u', h1, h2, -, -⟩ := (C99_cells_as_polygons u cells hu hd hn hfl ids).1 hin
  refine ⟨u', h1, ?_⟩
  rw [hu.measures, h2.measures]
  unfold measures changeAt
  clear h1 h2 hin hfl hu
  have gen : ∀ (k : Nat), (cells.mapIdx fun i c => if ((k + i : Nat) : Int) ∈ ids then asPolygon c else c).mapM
      (fun c => cellMeasure arcs s 2 coords c.type c.nodes) = cells.mapM fun c => cellMeasure arcs s 2 coords c.type c.nodes := by
    induction cells with
    | nil => intro k; rfl
    | cons c cells ih =>
      intro k
      rw [List.mapIdx_cons, List.mapM_cons, List.mapM_cons]
      have := ih (fun c hc => hf c (by simp [hc])) (k + 1)
      have e : (cells.mapIdx fun i c => if ((k + 1 + i : Nat) : Int) ∈ ids then asPolygon c else c) =
          cells.mapIdx fun i c => if ((k + (i + 1) : Nat) : Int) ∈ ids then asPolygon c else c := by
        congr 1
        funext i c
        rw [show k + 1 + i = k + (i + 1) by omega]
      rw [e] at this
      rw [this]
      congr 1
      split
      · exact asPolygon_measure arcs s coords c (hf c (by simp))
      · rfl
  have := gen 0
  simpa using this

/-- The cells whose volume does not change: linear cells with their numbers of nodes, prisms and hexahedra with plane faces, polyhedra with at
least two faces. -/
def KeepsVolume (arcs : Arcs K) (s : K → K) (coords : List (List K)) (c : Cell) : Prop :=
  (∃ cm sons, (c.type = 14 ∨ c.type = 15 ∨ c.type = 16 ∨ c.type = 18 ∨ c.type = 22) ∧ getCellModel c.type = .ok cm ∧ c.nodes.length = cm.nbPts ∧
    cm.allSons c.nodes = .ok sons ∧
    (c.type = 16 ∨ c.type = 18 → ∀ f ∈ sons, f.2.length = 4 → cellMeasure arcs s 3 coords 14 f.2 = .ok 0)) ∨
  ∃ fs, c = ⟨31, joinFaces fs⟩ ∧ 2 ≤ fs.length ∧ ∀ f ∈ fs, -1 ∉ f

/-- **C99.** Turning cells into polyhedra does not change the field of measures. -/
theorem C99_polyhedra_keep_volumes (arcs : Arcs K) (s : K → K) (coords : List (List K)) (u : UMesh) (cells : List Cell) (hu : HoldsCells u cells)
    (hd : u.dim = 3) (hn : u.nbNodes ≠ none) (ids : List Int) (hin : ∀ id ∈ ids, 0 ≤ id ∧ id < (cells.length : Int))
    (hf : ∀ (i : Nat) (c : Cell), cells[i]? = some c → (i : Int) ∈ ids → KeepsVolume arcs s coords c) (vs : List K)
    (hv : u.measureField arcs s 3 coords = .ok vs) :
    ∃ u', u.convertToPolyTypes ids = .ok (u', true) ∧ u'.measureField arcs s 3 coords = .ok vs := by
  have hfaces : ∀ (c : Cell) (h : KeepsVolume arcs s coords c), ∃ fs, HasFaces c fs := by
    rintro c (⟨cm, sons, ht, hcm, hl, hs, -⟩ | ⟨fs, rfl, h2, h3⟩)
    · refine ⟨_, (C99_cells_with_faces c).1 cm hcm ?_ ?_ hl⟩
      · rcases ht with e | e | e | e | e <;> rw [e] at hcm <;> injection hcm with hcm <;> subst hcm <;> rfl
      · rcases ht with e | e | e | e | e <;> rw [e] at hcm <;> injection hcm with hcm <;> subst hcm <;> rfl
    · exact ⟨fs, (C99_cells_with_faces _).2 fs rfl h2 h3⟩
  obtain ⟨u', cells', h1, h2, ⟨h3, h4⟩, -, -⟩ := (C99_cells_as_polyhedra u cells hu hd hn ids).1 hin
    (fun i c hc hi => hfaces c (hf i c hc hi))
  refine ⟨u', h1, ?_⟩
  rw [hu.measures] at hv
  rw [h2.measures]
  refine measures_congr arcs s 3 coords cells cells' h3 ?_ vs hv
  intro i c c' hc hc' v hcv
  have := h4 i c c' hc hc'
  split at this
  · rename_i hi
    obtain ⟨fs, ⟨-, -, cm', sons', g1, g2, rfl⟩, rfl⟩ := this
    rcases hf i c hc hi with ⟨cm, sons, ht, hcm, hl, hs, hfl⟩ | ⟨fs, rfl, k2, k3⟩
    · rw [hcm] at g1
      injection g1 with g1
      subst g1
      rw [hs] at g2
      injection g2 with g2
      subst g2
      exact C98_cell_and_its_faces arcs s coords c.type c.nodes ht cm hcm hl sons hs hfl v hcv
    · injection (show getCellModel 31 = .ok cm_polyhed from rfl).symm.trans g1 with g1
      subst g1
      rw [C47_polyhedron_sons fs (by rintro rfl; simp at k2) k3] at g2
      injection g2 with g2
      subst g2
      rw [List.map_map]
      simpa [Function.comp_def] using hcv
  · rw [this]
    exact hcv

end

/-- **C99.** The faces of a converted cell have the nodes of the faces of the cell, in the same order. -/
theorem C99_faces_are_kept (c : Cell) (fs : List (List Int)) (h : HasFaces c fs) (hno : ∀ f ∈ fs, -1 ∉ f) :
    cm_polyhed.allSons (joinFaces fs) = .ok (fs.map fun f => (5, f)) ∧
      ∃ cm sons, getCellModel c.type = .ok cm ∧ cm.allSons c.nodes = .ok sons ∧ sons.map Prod.snd = fs := by
  obtain ⟨h1, -, h3⟩ := h
  exact ⟨C47_polyhedron_sons fs h1 hno, h3⟩

/-- **C99.** When `convertToPolyTypes` refuses the mesh: no coordinates, no connectivity, or a dimension other than 2 and 3; nothing is changed. -/
theorem C99_convert_refuses (u : UMesh) (ids : List Int) (h : u.nbNodes = none ∨ u.arrays = none ∨ u.dim < 2 ∨ u.dim > 3) :
    u.convertToPolyTypes ids = .ok (u, false) := by
  unfold UMesh.convertToPolyTypes
  cases hn : u.nbNodes with
  | none => rfl
  | some n =>
    cases ha : u.arrays with
    | none => rfl
    | some p =>
      obtain ⟨conn, connI⟩ := p
      rw [hn, ha] at h
      dsimp only
      rw [if_pos (by rcases h with h | h | h | h <;> first | cases h; done | exact Or.inl h | exact Or.inr h)]

/-- **C99.** `convertAllToPoly` is `convertToPolyTypes` on all the cells of a mesh which has at least one. -/
theorem C99_convert_all (u : UMesh) (cells : List Cell) (hu : HoldsCells u cells) (hne : cells ≠ []) :
    u.convertAllToPoly = u.convertToPolyTypes ((List.range cells.length).map fun (i : Nat) => (i : Int)) := by
  obtain ⟨⟨conn, connI, ha, hm⟩, -, -⟩ := hu
  have hl := hm.length
  have hpos : 0 < cells.length := List.length_pos_of_ne_nil hne
  unfold UMesh.convertAllToPoly UMesh.getNumberOfCells
  rw [ha]
  dsimp only
  rw [if_neg (by omega), hl]
  congr 2
  simp

end MC
