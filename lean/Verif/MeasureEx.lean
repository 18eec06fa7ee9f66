import Verif.MeasureSurf

/-!
# C98: findings and examples
-/

namespace MC

/-- Square root of the squares of rational numbers -/
def ratSqrt (q : Rat) : Rat := (Nat.sqrt q.num.natAbs : Rat) / (Nat.sqrt q.den : Rat)

def noArcs : Arcs Rat := ⟨fun _ => 0, fun _ => 0⟩

/-- The corners of a cube, and of a box which is not a cube -/
def cubePts : List (List Rat) :=
  [[0, 0, 0], [1, 0, 0], [1, 1, 0], [0, 1, 0], [0, 0, 1], [1, 0, 1], [1, 1, 1], [0, 1, 1], [3, 0, 0], [3, 1, 0], [3, 0, 1], [3, 1, 1]]

def cubeFaces : List (List Int) := [[0, 1, 2, 3], [4, 7, 6, 5], [0, 4, 5, 1], [1, 5, 6, 2], [2, 6, 7, 3], [3, 7, 4, 0]]

/-- **C98, finding.** The area of a quadrangle which is not convex, in the space, depends on the node it begins with: it is
cut along the segment from its second node to its fourth one, which may be out of the quadrangle, and the absolute values are added. -/
theorem C98_finding_quadrangles_in_space :
    let pts : List (List Rat) := [[2, 1, 0], [4, 0, 0], [2, 4, 0], [0, 0, 0]]
    cellMeasure noArcs ratSqrt 3 pts 4 [0, 1, 2, 3] = .ok 10 ∧ cellMeasure noArcs ratSqrt 3 pts 4 [1, 2, 3, 0] = .ok 6 ∧
      cellMeasure noArcs ratSqrt 2 pts 4 [0, 1, 2, 3] = .ok (-6) := by decide +kernel

/-- **C98, finding.** The area of a polygon of the space whose mean point is out of it is wrong: here 7, where the polygon on
the same nodes in the plane has an area of 2. -/
theorem C98_finding_polygons_in_space :
    let pts : List (List Rat) := [[2, 3, 0], [4, 0, 0], [2, 4, 0], [0, 0, 0]]
    cellMeasure noArcs ratSqrt 3 pts 5 [0, 1, 2, 3] = .ok 7 ∧ cellMeasure noArcs ratSqrt 2 pts 5 [0, 1, 2, 3] = .ok (-2) := by
  decide +kernel

/-- **C98, finding.** The volume of a polyhedron whose faces do not make a closed surface depends on the place of the origin. -/
theorem C98_finding_open_polyhedra :
    cellMeasure noArcs ratSqrt 3 cubePts 31 (joinFaces (cubeFaces.drop 1)) = .ok (-1) ∧
    cellMeasure noArcs ratSqrt 3 (cubePts.map (affL 3 (fun i j => if i = j then 1 else 0) (fun _ => 1))) 31
      (joinFaces (cubeFaces.drop 1)) = .ok (-4 / 3) := by decide +kernel

/-! ## Examples -/

def shear : Nat → Nat → Rat := fun i j => if i = j then 2 else if i < j then 1 else 0

-- C98_volumes_follow_affine_maps
example : det3 shear = 8 ∧
    cellMeasure noArcs ratSqrt 3 cubePts 18 [0, 1, 2, 3, 4, 5, 6, 7] = .ok (-1) ∧
    cellMeasure noArcs ratSqrt 3 (cubePts.map (affL 3 shear (fun _ => 5))) 18 [0, 1, 2, 3, 4, 5, 6, 7] = .ok (-8) ∧
    ClosedFaces cubeFaces ∧ GoodFaces cubeFaces ∧
    cellMeasure noArcs ratSqrt 3 (cubePts.map (affL 3 shear (fun _ => 5))) 31 (joinFaces cubeFaces) = .ok (-8) := by
  refine ⟨by decide +kernel, by decide +kernel, by decide +kernel, ?_, ?_, by decide +kernel⟩
  · unfold ClosedFaces; decide
  · unfold GoodFaces; decide

def squarePts : List (List Rat) := [[0, 0], [4, 0], [4, 3], [0, 3], [1, 1]]

-- C98_areas_follow_affine_maps
example : det2 shear = 4 ∧ cellMeasure noArcs ratSqrt 2 squarePts 5 [0, 1, 2, 3, 4] = .ok (-21 / 2) ∧
    cellMeasure noArcs ratSqrt 2 (squarePts.map (affL 2 shear (fun _ => 5))) 5 [0, 1, 2, 3, 4] = .ok (-42) := by
  decide +kernel

-- C98_lengths_follow_affine_maps
example : cellMeasure noArcs ratSqrt 1 [[3], [5]] 1 [1, 0] = .ok (-2) ∧
    cellMeasure noArcs ratSqrt 1 ([[3], [5]].map (affL 1 shear (fun _ => 7))) 1 [1, 0] = .ok (-4) := by decide +kernel

-- C98_inversion_changes_the_sign
example : invertCell 16 [0, 3, 1, 4, 7, 5] = .ok [0, 1, 3, 4, 5, 7] ∧
    cellMeasure noArcs ratSqrt 3 cubePts 16 [0, 3, 1, 4, 7, 5] = .ok (1 / 2) ∧
    cellMeasure noArcs ratSqrt 3 cubePts 16 [0, 1, 3, 4, 5, 7] = .ok (-1 / 2) := by
  refine ⟨by decide, by decide +kernel, by decide +kernel⟩

-- C98_inversion_keeps_areas_in_space
example : invertCell 5 [0, 1, 2, 3] = .ok [0, 3, 2, 1] ∧ cellMeasure noArcs ratSqrt 3 cubePts 5 [0, 1, 2, 3] = .ok 1 ∧
    cellMeasure noArcs ratSqrt 3 cubePts 5 [0, 3, 2, 1] = .ok 1 := by
  refine ⟨by decide, by decide +kernel, by decide +kernel⟩

-- C98_area_of_a_polygon, C98_area_from_any_node, C98_areas_add, C98_triangles_and_quadrangles_are_polygons
example : cellMeasure noArcs ratSqrt 2 squarePts 5 [2, 3, 4, 0, 1] = .ok (-21 / 2) ∧
    cellMeasure noArcs ratSqrt 2 squarePts 5 [0, 1, 2, 4] = .ok (-13 / 2) ∧
    cellMeasure noArcs ratSqrt 2 squarePts 5 [2, 3, 4] = .ok (-4) ∧
    cellMeasure noArcs ratSqrt 2 squarePts 3 [2, 3, 4] = .ok (-4) ∧
    cellMeasure noArcs ratSqrt 2 squarePts 4 [0, 1, 2, 4] = .ok (-13 / 2) := by decide +kernel

/-- A rotation followed by a scaling -/
def turn5 : Nat → Nat → Rat := fun i j =>
  match i, j with
  | 0, 0 => 3
  | 0, 1 => -4
  | 1, 0 => 4
  | 1, 1 => 3
  | 2, 2 => 5
  | _, _ => 0

-- C98_areas_in_space_follow_similarities, C98_lengths_follow_similarities
example : (∀ i < 3, ∀ j < 3, ((List.range 3).map fun d => turn5 d i * turn5 d j).sum = if i = j then 5 * 5 else 0) ∧
    cellMeasure noArcs ratSqrt 3 cubePts 4 [0, 8, 9, 3] = .ok 3 ∧
    cellMeasure noArcs ratSqrt 3 (cubePts.map (affL 3 turn5 (fun _ => 1))) 4 [0, 8, 9, 3] = .ok 75 ∧
    cellMeasure noArcs ratSqrt 3 cubePts 1 [0, 8] = .ok 3 ∧
    cellMeasure noArcs ratSqrt 3 (cubePts.map (affL 3 turn5 (fun _ => 1))) 1 [0, 8] = .ok 15 := by decide +kernel

-- C98_triangle_put_in_space
example : cellMeasure noArcs ratSqrt 2 squarePts 3 [0, 1, 2] = .ok (-6) ∧
    cellMeasure noArcs ratSqrt 3 (squarePts.map (· ++ [9])) 3 [0, 1, 2] = .ok 6 := by decide +kernel

-- C98_field_of_measures, C98_measures_of_a_part
example : IsMesh [3, 0, 1, 2, 5, 0, 1, 2, 3, 4] [0, 4, 10] [⟨3, [0, 1, 2]⟩, ⟨5, [0, 1, 2, 3, 4]⟩] ∧
    measureField noArcs ratSqrt 2 squarePts [3, 0, 1, 2, 5, 0, 1, 2, 3, 4] [0, 4, 10] true = .ok [6, 21 / 2] ∧
    partMeasureField noArcs ratSqrt 2 squarePts [3, 0, 1, 2, 5, 0, 1, 2, 3, 4] [0, 4, 10] false [1, 0, 1] =
      .ok [-21 / 2, -6, -21 / 2] := by
  refine ⟨by decide, by decide +kernel, by decide +kernel⟩

-- C98_cell_and_its_faces: a hexahedron with plane faces
example : cm_hexa8.allSons [0, 1, 2, 3, 4, 5, 6, 7] = .ok (cubeFaces.map fun f => (4, f)) ∧
    (∀ f ∈ cubeFaces, cellMeasure noArcs ratSqrt 3 cubePts 14 f = .ok 0) ∧
    cellMeasure noArcs ratSqrt 3 cubePts 18 [0, 1, 2, 3, 4, 5, 6, 7] = .ok (-1) ∧
    cellMeasure noArcs ratSqrt 3 cubePts 31 (joinFaces cubeFaces) = .ok (-1) := by
  refine ⟨by decide, by decide +kernel, by decide +kernel, by decide +kernel⟩

/-- A hexahedron with a face which is not plane -/
def warpPts : List (List Rat) := [[0, 0, 0], [1, 0, 0], [1, 1, 0], [0, 1, 0], [0, 0, 1], [1, 0, 1], [1, 1, 2], [0, 1, 1]]

-- C98_warped_cells
example : cellMeasure noArcs ratSqrt 3 warpPts 18 [0, 1, 2, 3, 4, 5, 6, 7] = .ok (-5 / 4) ∧
    cellMeasure noArcs ratSqrt 3 warpPts 31 (joinFaces (cubeFaces.flatMap cutFirst)) = .ok (-4 / 3) ∧
    cellMeasure noArcs ratSqrt 3 warpPts 31 (joinFaces (cubeFaces.flatMap cutSecond)) = .ok (-7 / 6) := by
  decide +kernel

-- C98_faces_in_any_order, C98_volumes_add: two boxes which have a face in common
example : cellMeasure noArcs ratSqrt 3 cubePts 31 (joinFaces cubeFaces.reverse) = .ok (-1) ∧
    cellMeasure noArcs ratSqrt 3 cubePts 31
      (joinFaces [[1, 5, 6, 2], [0, 1, 2, 3], [4, 7, 6, 5], [0, 4, 5, 1], [2, 6, 7, 3], [3, 7, 4, 0]]) = .ok (-1) ∧
    [1, 5, 6, 2].reverse.rotate 3 = [1, 2, 6, 5] ∧
    cellMeasure noArcs ratSqrt 3 cubePts 31
      (joinFaces [[1, 2, 6, 5], [1, 8, 9, 2], [5, 6, 11, 10], [1, 5, 10, 8], [8, 10, 11, 9], [9, 11, 6, 2]]) = .ok (-2) ∧
    cellMeasure noArcs ratSqrt 3 cubePts 31
      (joinFaces ([[0, 1, 2, 3], [4, 7, 6, 5], [0, 4, 5, 1], [2, 6, 7, 3], [3, 7, 4, 0]] ++
        [[1, 8, 9, 2], [5, 6, 11, 10], [1, 5, 10, 8], [8, 10, 11, 9], [9, 11, 6, 2]])) = .ok (-3) := by
  refine ⟨by decide +kernel, by decide +kernel, by decide, by decide +kernel, by decide +kernel⟩

end MC
