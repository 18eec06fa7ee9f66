import Verif.CellPolyMeas
import Verif.MeasureEx

/-!
# C99: findings and examples
-/

namespace MC

/-! ## Findings -/

/-- **C99, finding.** Cutting a quadrangle of the space along its first diagonal may change its area. -/
theorem C99_finding_first_diagonal_in_space :
    let pts : List (List Rat) := [[2, 1, 0], [4, 0, 0], [2, 4, 0], [0, 0, 0]]
    measures noArcs ratSqrt 3 pts [⟨4, [0, 1, 2, 3]⟩] = .ok [10] ∧
      measures noArcs ratSqrt 3 pts (simplices 1 ⟨4, [0, 1, 2, 3]⟩) = .ok [2, 8] ∧
      measures noArcs ratSqrt 3 pts (simplices 0 ⟨4, [0, 1, 2, 3]⟩) = .ok [3, 3] := by decide +kernel

/-- **C99, finding.** Cutting a hexahedron whose faces are not plane changes its volume, in a way which depends on the policy. -/
theorem C99_finding_warped_hexahedra :
    let pts : List (List Rat) := [[0, 0, 0], [1, 0, 0], [1, 1, 0], [0, 1, 0], [0, 0, 1], [1, 0, 1], [1, 1, 2], [0, 1, 1]]
    measures noArcs ratSqrt 3 pts [⟨18, [0, 1, 2, 3, 4, 5, 6, 7]⟩] = .ok [-5 / 4] ∧
      (measures noArcs ratSqrt 3 pts (simplices 5 ⟨18, [0, 1, 2, 3, 4, 5, 6, 7]⟩)).map List.sum = .ok (-7 / 6) ∧
      (measures noArcs ratSqrt 3 pts (simplices 6 ⟨18, [0, 1, 2, 3, 4, 5, 6, 7]⟩)).map List.sum = .ok (-4 / 3) := by decide +kernel

/-- A cube of side 2, and the middles of its edges -/
def hexa20Pts : List (List Rat) :=
  [[0, 0, 0], [0, 2, 0], [2, 2, 0], [2, 0, 0], [0, 0, 2], [0, 2, 2], [2, 2, 2], [2, 0, 2], [0, 1, 0], [1, 2, 0], [2, 1, 0], [1, 0, 0],
   [0, 1, 2], [1, 2, 2], [2, 1, 2], [1, 0, 2], [0, 0, 1], [0, 2, 1], [2, 2, 1], [2, 0, 1]]

/-- **C99, finding.** A quadratic cell of dimension 3 becomes a polyhedron whose faces go through the corners, then through the middles of the
edges: the volume is not kept, even if the edges are straight. -/
theorem C99_finding_quadratic_cells :
    let u : UMesh := ⟨3, some 20, some ([30, 0, 1, 2, 3, 4, 5, 6, 7, 8, 9, 10, 11, 12, 13, 14, 15, 16, 17, 18, 19], [0, 21]), [30]⟩
    u.measureField noArcs ratSqrt 3 hexa20Pts = .ok [8] ∧
      (do
        let r ← u.convertToPolyTypes [0]
        r.1.measureField noArcs ratSqrt 3 hexa20Pts) = .ok [11] ∧
      (do
        let r ← u.convertToPolyTypes [0]
        .ok (r.1.arrays.map fun (p : List Int × List Int) => p.1.take 10)) = .ok (some [31, 0, 1, 2, 3, 8, 9, 10, 11, -1]) := by
  decide +kernel

/-- **C99, finding.** A quadratic cell of dimension 2 with a node in the middle becomes a quadratic polygon with an odd number of nodes,
which has no measure: `getMeasureField` throws. -/
theorem C99_finding_cells_with_a_middle :
    let u : UMesh := ⟨2, some 7, some ([7, 0, 1, 2, 3, 4, 5, 6], [0, 8]), [7]⟩
    let pts : List (List Rat) := [[0, 0], [4, 0], [0, 4], [2, 0], [2, 2], [0, 2], [1, 1]]
    u.measureField noArcs ratSqrt 2 pts = .ok [0] ∧
      (do
        let r ← u.convertToPolyTypes [0]
        r.1.measureField noArcs ratSqrt 2 pts) = .error .exn := by decide +kernel

/-- **C99, finding.** After a call which throws on a mesh of dimension 2, the set of geometric types is not that of the cells. -/
theorem C99_finding_types_after_exception :
    let u : UMesh := ⟨2, some 4, some ([3, 0, 1, 2, 3, 0, 2, 3], [0, 4, 8]), [3]⟩
    u.convertToPolyTypes [1, 0, 2] = .ok (⟨2, some 4, some ([5, 0, 1, 2, 5, 0, 2, 3], [0, 4, 8]), [3]⟩, false) := by decide +kernel

/-- **C99, finding.** Converting a polyhedron with one face writes one value after the end of the buffer. -/
theorem C99_finding_one_face :
    let u : UMesh := ⟨3, some 4, some ([31, 0, 1, 2, 3], [0, 5]), [31]⟩
    u.convertToPolyTypes [0] = .error .ub := by decide +kernel

/-- **C99, finding.** `convertAllToPoly` takes the address of the first element of an empty vector on a mesh without cells. -/
theorem C99_finding_no_cells :
    let u : UMesh := ⟨3, some 4, some ([], [0]), []⟩
    u.convertAllToPoly = .error .ub ∧ u.convertToPolyTypes [] = .ok (u, true) := by decide +kernel

/-! ## Examples -/

def plane5 : UMesh := ⟨2, some 6, some ([3, 0, 1, 4, 4, 1, 2, 3, 4, 5, 0, 4, 3, 5], [0, 4, 9, 14]), [3, 4, 5]⟩

def plane5Pts : List (List Rat) := [[0, 0], [2, 0], [5, 1], [4, 4], [1, 2], [0, 4]]

def plane5Cells : List Cell := [⟨3, [0, 1, 4]⟩, ⟨4, [1, 2, 3, 4]⟩, ⟨5, [0, 4, 3, 5]⟩]

theorem plane5_holds : HoldsCells plane5 plane5Cells := by
  refine ⟨⟨_, _, rfl, by decide⟩, by decide, fun t => ?_⟩
  simp [plane5, plane5Cells, eq_comm]

-- C99_cells_of_simplexize
example : CanCut plane5 plane5Cells 0 ∧
    plane5.simplexize 0 = .ok (⟨2, some 6, some ([3, 0, 1, 4, 3, 1, 2, 3, 3, 1, 3, 4, 5, 0, 4, 3, 5], [0, 4, 8, 12, 17]), [3, 5]⟩, [0, 1, 1, 2]) ∧
    plane5.simplexize 1 = .ok (⟨2, some 6, some ([3, 0, 1, 4, 3, 1, 2, 4, 3, 2, 3, 4, 5, 0, 4, 3, 5], [0, 4, 8, 12, 17]), [3, 5]⟩, [0, 1, 1, 2]) := by
  refine ⟨Or.inl ⟨by decide, rfl, ?_⟩, by decide +kernel, by decide +kernel⟩
  unfold plane5Cells
  decide

-- C99_simplexize_refuses
example : plane5.simplexize 2 = .error .exn ∧ plane5.simplexize 5 = .error .exn ∧ (⟨2, some 6, none, []⟩ : UMesh).simplexize 0 = .error .exn := by
  decide +kernel

-- C99_measures_are_shared, C99_areas_of_the_triangles
example : plane5.measureField noArcs ratSqrt 2 plane5Pts = .ok [-2, -9, -6] ∧
    (do
      let r ← plane5.simplexize 0
      r.1.measureField noArcs ratSqrt 2 plane5Pts) = .ok [-2, -5, -4, -6] ∧
    (do
      let r ← plane5.simplexize 1
      r.1.measureField noArcs ratSqrt 2 plane5Pts) = .ok [-2, -7 / 2, -11 / 2, -6] ∧
    valuesFrom [0, 1, 1, 2] ([-2, -5, -4, -6] : List Rat) 1 = [-5, -4] := by decide +kernel

-- C99_areas_of_the_triangles_in_space
example :
    let pts : List (List Rat) := [[0, 0, 0], [4, 0, 0], [4, 3, 4], [0, 3, 4]]
    measures noArcs ratSqrt 3 pts [⟨4, [0, 1, 2, 3]⟩] = .ok [20] ∧
      measures noArcs ratSqrt 3 pts (simplices 1 ⟨4, [0, 1, 2, 3]⟩) = .ok [10, 10] := by decide +kernel

def space2 : UMesh :=
  ⟨3, some 12, some ([18, 0, 1, 2, 3, 4, 5, 6, 7, 14, 0, 1, 2, 4, 31, 1, 8, 9, 2, -1, 5, 6, 11, 10, -1, 1, 5, 10, 8, -1, 8, 10, 11, 9, -1, 9, 11, 6, 2, -1,
    2, 6, 5, 1], [0, 9, 14, 44]), [14, 18, 31]⟩

def space2Cells : List Cell :=
  [⟨18, [0, 1, 2, 3, 4, 5, 6, 7]⟩, ⟨14, [0, 1, 2, 4]⟩, ⟨31, joinFaces [[1, 8, 9, 2], [5, 6, 11, 10], [1, 5, 10, 8], [8, 10, 11, 9], [9, 11, 6, 2], [2, 6, 5, 1]]⟩]

theorem space2_holds : HoldsCells space2 space2Cells := by
  refine ⟨⟨_, _, rfl, by decide⟩, by decide, fun t => ?_⟩
  simp [space2, space2Cells, eq_comm]
  tauto

-- C99_volumes_when_faces_are_plane, C99_volumes_of_the_tetrahedra, C99_measures_are_shared
example : CanCut space2 space2Cells 5 ∧ (∀ c ∈ space2Cells, c.type = 18 → PlaneFaces noArcs ratSqrt cubePts c.nodes) ∧
    space2.measureField noArcs ratSqrt 3 cubePts = .ok [-1, -1 / 6, -2] ∧
    (do
      let r ← space2.simplexize 5
      let v ← r.1.measureField noArcs ratSqrt 3 cubePts
      .ok (r.2, v)) = .ok ([0, 0, 0, 0, 0, 1, 2], [-1 / 6, -1 / 6, -1 / 6, -1 / 6, -1 / 3, -1 / 6, -2]) ∧
    (do
      let r ← space2.simplexize 6
      let v ← r.1.measureField noArcs ratSqrt 3 cubePts
      .ok (r.2, v)) = .ok ([0, 0, 0, 0, 0, 0, 1, 2], [-1 / 6, -1 / 6, -1 / 6, -1 / 6, -1 / 6, -1 / 6, -1 / 6, -2]) := by
  refine ⟨Or.inr ⟨by decide, rfl, ?_⟩, ?_, by decide +kernel, by decide +kernel, by decide +kernel⟩
  · unfold space2Cells
    decide
  · intro c hc ht
    simp only [space2Cells, List.mem_cons, List.not_mem_nil, or_false] at hc
    rcases hc with rfl | rfl | rfl
    · exact ⟨_, rfl, by decide +kernel⟩
    · cases ht
    · cases ht

-- C99_shares_of_a_parallelepiped
example : ([0, 1, 2, 3, 4, 5, 6, 7] : List Int).map (fun n => (List.range 3).map (ptNode cubePts n)) =
    (let o : Nat → Rat := fun _ => 0
     let e1 : Nat → Rat := fun k => if k = 0 then 1 else 0
     let e2 : Nat → Rat := fun k => if k = 1 then 1 else 0
     let e3 : Nat → Rat := fun k => if k = 2 then 1 else 0
     [o, fun k => o k + e1 k, fun k => o k + e1 k + e2 k, fun k => o k + e2 k, fun k => o k + e3 k, fun k => o k + e1 k + e3 k,
      fun k => o k + e1 k + e2 k + e3 k, fun k => o k + e2 k + e3 k].map fun p => (List.range 3).map p) ∧
    measures noArcs ratSqrt 3 cubePts (simplices 5 ⟨18, [0, 1, 2, 3, 4, 5, 6, 7]⟩) = .ok [-1 / 6, -1 / 6, -1 / 6, -1 / 6, -1 / 3] := by
  decide +kernel

-- C99_same_nodes
example : (simplices 5 ⟨18, [10, 11, 12, 13, 14, 15, 16, 17]⟩).flatMap Cell.nodes =
    [10, 15, 11, 12, 10, 14, 15, 17, 10, 13, 17, 12, 15, 17, 16, 12, 10, 15, 12, 17] := by decide

-- C99_only_simplices
example : ¬ (∀ d ∈ (plane5Cells.map (simplices 0)).flatten, d.type = 3) ∧
    ∀ d ∈ ((plane5Cells.take 2).map (simplices 0)).flatten, d.type = 3 := by decide

-- C99_cells_as_polygons
example : (∀ c ∈ plane5Cells, IsFlat c) ∧
    plane5.convertToPolyTypes [1, 1] = .ok (⟨2, some 6, some ([3, 0, 1, 4, 5, 1, 2, 3, 4, 5, 0, 4, 3, 5], [0, 4, 9, 14]), [3, 5]⟩, true) ∧
    changeAt asPolygon [1, 1] plane5Cells = [⟨3, [0, 1, 4]⟩, ⟨5, [1, 2, 3, 4]⟩, ⟨5, [0, 4, 3, 5]⟩] := by
  refine ⟨?_, by decide +kernel, by decide⟩
  unfold IsFlat plane5Cells
  decide

-- C99_polygons_keep_areas
example : (∀ c ∈ plane5Cells, KeepsArea c) ∧ (do
      let r ← plane5.convertAllToPoly
      r.1.measureField noArcs ratSqrt 2 plane5Pts) = .ok [-2, -9, -6] := by
  refine ⟨?_, by decide +kernel⟩
  unfold KeepsArea plane5Cells
  decide

-- C99_cells_as_polyhedra, C99_polyhedra_keep_volumes, C99_convert_all
example : (do
      let r ← space2.convertToPolyTypes [1]
      .ok (r.2, r.1.types, r.1.arrays.map fun (p : List Int × List Int) => p.1.take 25)) =
      .ok (true, [18, 31], some [18, 0, 1, 2, 3, 4, 5, 6, 7, 31, 0, 1, 2, -1, 0, 4, 1, -1, 1, 4, 2, -1, 2, 4, 0]) ∧
    (do
      let r ← space2.convertAllToPoly
      r.1.measureField noArcs ratSqrt 3 cubePts) = .ok [-1, -1 / 6, -2] ∧
    space2.convertToPolyTypes [0, 3] = .ok (space2, false) := by decide +kernel

-- C99_cells_with_faces, C99_faces_are_kept
example : HasFaces ⟨14, [10, 11, 12, 13]⟩ [[10, 11, 12], [10, 13, 11], [11, 13, 12], [12, 13, 10]] ∧
    cm_polyhed.allSons (joinFaces [[10, 11, 12], [10, 13, 11], [11, 13, 12], [12, 13, 10]]) =
      .ok [(5, [10, 11, 12]), (5, [10, 13, 11]), (5, [11, 13, 12]), (5, [12, 13, 10])] := by
  refine ⟨(C99_cells_with_faces ⟨14, [10, 11, 12, 13]⟩).1 cm_tetra4 rfl rfl rfl rfl, by decide⟩

-- C99_convert_refuses
example : (⟨1, some 2, some ([1, 0, 1], [0, 3]), [1]⟩ : UMesh).convertToPolyTypes [0] =
    .ok (⟨1, some 2, some ([1, 0, 1], [0, 3]), [1]⟩, false) := by decide

end MC
