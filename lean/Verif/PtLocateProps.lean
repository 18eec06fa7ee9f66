import Verif.PtLocateSpaceThm
import Mathlib.Tactic.IntervalCases

/-!
# Location of points: examples and findings (C101)
-/

namespace MC
section

/-- no polygon in the examples -/
def noPoly : List ℚ → ℚ → Cell → M Bool := fun _ _ _ => throwX

/-- two cells of the plane: a unit square and a triangle which share an edge -/
def exCoords2 : List ℚ := [0, 0, 1, 0, 1, 1, 0, 1, 2, 0]
def exCells2 : List Cell := [⟨4, [0, 1, 2, 3]⟩, ⟨3, [1, 4, 2]⟩]

/-- the points are inside the square, on the common edge, inside the triangle, out of the mesh but in the box of the triangle -/
example : getCellsContainingPoints 2 2 exCoords2 [4, 0, 1, 2, 3, 3, 1, 4, 2] [0, 5, 9] (fun x => x) 1000 noPoly 0
    [[1/2, 1/2], [1, 1/3], [5/4, 1/4], [7/4, 3/4]] = .ok ([0, 0, 1, 1], [0, 1, 3, 4, 4]) := by decide +kernel

example : ∀ c ∈ exCells2, ProperPlane exCoords2 c := by
  intro c hc
  simp only [exCells2, List.mem_cons, List.not_mem_nil, or_false] at hc
  rcases hc with rfl | rfl
  · refine ⟨Or.inr ⟨rfl, rfl⟩, by unfold NodesOK; decide, 1, ?_⟩
    intro i hi
    simp only [List.length_cons, List.length_nil] at hi
    interval_cases i <;> decide +kernel
  · refine ⟨Or.inl ⟨rfl, rfl⟩, by unfold NodesOK; decide, 1, ?_⟩
    intro i hi
    simp only [List.length_cons, List.length_nil] at hi
    interval_cases i <;> decide +kernel

/-- a triangle with a tolerance: the barycentric coordinates of (1/4, -1/40) are all at least -1/10 -/
example : cellContains 2 (fun x => x) 1000 noPoly ([0, 0, 1, 0, 0, 1] : List ℚ) [1/4, -1/40] (1/10) ⟨3, [0, 1, 2]⟩ = .ok true ∧
    cellContains 2 (fun x => x) 1000 noPoly ([0, 0, 1, 0, 0, 1] : List ℚ) [1/4, -1/5] (1/10) ⟨3, [0, 1, 2]⟩ = .ok false := by decide +kernel

/-- the unit cube, its faces having a normal vector of length 1 -/
def exCube (a : ℚ) : List ℚ := [0, 0, 0, 0, a, 0, a, a, 0, a, 0, 0, 0, 0, a, 0, a, a, a, a, a, a, 0, a]

example : ProperTetra ([0, 0, 0, 1, 0, 0, 0, 1, 0, 0, 0, 1] : List ℚ) ⟨14, [0, 1, 2, 3]⟩ :=
  ⟨rfl, by unfold NodesOK; decide, 0, 1, 2, 3, rfl, by decide +kernel⟩

/-- the square root of 1 -/
example : cellContains 3 (fun x => x) 1000 noPoly (exCube 1) [1/2, 1/2, 1] 0 ⟨18, [0, 1, 2, 3, 4, 5, 6, 7]⟩ = .ok true ∧
    cellContains 3 (fun x => x) 1000 noPoly (exCube 1) [1/2, 1/2, 5/4] 0 ⟨18, [0, 1, 2, 3, 4, 5, 6, 7]⟩ = .ok false ∧
    cellContains 3 (fun x => x) 1000 noPoly (exCube 1) [1/2, 1/2, 5/4] (1/3) ⟨18, [0, 1, 2, 3, 4, 5, 6, 7]⟩ = .ok true := by decide +kernel

/-- four segments of the line, one of which is written from right to left -/
example : getCellsContainingPoints 1 1 ([0, 1, 3, 4] : List ℚ) [1, 0, 1, 1, 2, 1, 1, 2, 3] [0, 3, 6, 9] (fun x => x) 1000 noPoly (1/100)
    [[1/2], [1], [3], [5]] = .ok ([0, 0, 1, 1, 2], [0, 1, 3, 5, 5]) := by decide +kernel

example : getCellContainingPoint 1 1 ([0, 1, 3, 4] : List ℚ) [1, 0, 1, 1, 2, 1, 1, 2, 3] [0, 3, 6, 9] (fun x => x) 1000 noPoly (1/100) [5] = .ok (-1) ∧
    getCellContainingPoint 1 1 ([0, 1, 3, 4] : List ℚ) [1, 0, 1, 1, 2, 1, 1, 2, 3] [0, 3, 6, 9] (fun x => x) 1000 noPoly (1/100) [3] = .ok 1 := by decide +kernel

/-- Finding: the tolerance is documented as relative to the size of the cell, but in the plane it is compared with a determinant, which is an area.  The corner opposite to the right angle of a triangle of size 1/10 is at 7 tenths of this size from the triangle, and it is found in the triangle with the tolerance 1/50. -/
theorem C101_finding_tolerance_is_an_area : getCellsContainingPoints 2 2 ([0, 0, 1/10, 0, 0, 1/10] : List ℚ) [3, 0, 1, 2] [0, 4] (fun x => x) 1000 noPoly (1/50) [[1/10, 1/10]] = .ok ([0], [0, 1]) ∧
    ¬ InNodes 2 ([0, 0, 1/10, 0, 0, 1/10] : List ℚ) (1/2) [0, 1, 2] [1/10, 1/10] := by
  refine ⟨by decide +kernel, ?_⟩
  rw [inNodes3]
  rintro ⟨u, v, w, hu, hv, hw, h1, h2⟩
  have h0 := h2 0 (by omega)
  have h3 := h2 1 (by omega)
  simp [ptX, nodeX] at h0 h3
  linarith

/-- Finding: on the line, with a null tolerance, a node which is common to two segments is in none of them. -/
theorem C101_finding_node_of_the_line_in_no_cell :
    getCellsContainingPoints 1 1 ([0, 1, 2] : List ℚ) [1, 0, 1, 1, 1, 2] [0, 3, 6] (fun x => x) 1000 noPoly 0 [[1]] = .ok ([], [0, 0]) := by decide +kernel

/-- Finding: in the space the tolerance of the test is relative to the size of the cell, but the tolerance of the search of the candidates is not.  A point at 1/200 of the size of a cube of size 100 from its face is accepted by the test of the cube with the tolerance 1/100, and it is not found in it. -/
theorem C101_finding_candidates_with_an_absolute_tolerance :
    cellContains 3 (fun x => x) 1000 noPoly (exCube 100) [-1/2, 50, 50] (1/100) ⟨18, [0, 1, 2, 3, 4, 5, 6, 7]⟩ = .ok true ∧
    getCellsContainingPoints 3 3 (exCube 100) [18, 0, 1, 2, 3, 4, 5, 6, 7] [0, 9] (fun x => x) 1000 noPoly (1/100) [[-1/2, 50, 50]] = .ok ([], [0, 0]) := by decide +kernel

/-- square root of the numbers 0, 1/4, 1 and 4 -/
def exSqrt (x : ℚ) : ℚ := if x = 1/4 then 1/2 else if x = 4 then 2 else x

/-- Finding: with a null tolerance the search of three nodes which are not aligned stops on the first three nodes of each face.  When they are aligned the face is not taken into account: the tetrahedron of nodes (0,0,0), (2,0,0), (0,2,0), (0,0,2), written as a polyhedron with the middle of an edge, accepts the point (2,2,2). -/
theorem C101_finding_face_forgotten :
    getCellsContainingPoints 3 3 ([0, 0, 0, 2, 0, 0, 0, 2, 0, 0, 0, 2, 1, 1, 0] : List ℚ) [31, 1, 4, 2, 3, -1, 0, 2, 4, 1, -1, 0, 1, 3, -1, 0, 3, 2] [0, 18] exSqrt 1000 noPoly 0 [[2, 2, 2]] = .ok ([0], [0, 1]) ∧
    ¬ InNodes 3 ([0, 0, 0, 2, 0, 0, 0, 2, 0, 0, 0, 2, 1, 1, 0] : List ℚ) 0 [0, 1, 2, 3, 4] [2, 2, 2] := by
  refine ⟨by decide +kernel, ?_⟩
  rintro ⟨w, w0, w1, w2⟩
  have a0 := w2 0 (by omega)
  have a1 := w2 1 (by omega)
  have a2 := w2 2 (by omega)
  have b0 := w0 0 (by simp)
  have b1 := w0 1 (by simp)
  have b2 := w0 2 (by simp)
  have b3 := w0 3 (by simp)
  have b4 := w0 4 (by simp)
  simp [Finset.sum_range_succ, ptX, nodeX] at a0 a1 a2 w1
  linarith

/-- sixteen segments of the line, from right to left -/
def exLine : List ℚ := (List.range 17).map fun i => 16 - (i : ℚ)
def exLineConn : List Int := (List.range 16).flatMap fun i => [1, (i : Int), (i : Int) + 1]
def exLineConnI : List Int := (List.range 17).map fun i => 3 * (i : Int)

/-- Finding: `getCellContainingPoint` is documented to return the smallest id among the cells found.  It returns the first one in the order of the search tree. -/
theorem C101_finding_not_the_smallest_id :
    getCellsContainingPoint 1 1 exLine exLineConn exLineConnI (fun x => x) 1000 noPoly (1/10) [9] = .ok [7, 6] ∧
    getCellContainingPoint 1 1 exLine exLineConn exLineConnI (fun x => x) 1000 noPoly (1/10) [9] = .ok 7 := by decide +kernel

end
end MC
