import Verif.DegenMesh

/-!
# C105: examples and findings
-/

namespace MC

/-! ## Examples -/

/-- A quadrangle with a side reduced to a point becomes a triangle; its other sides stay. -/
example : simplifyCell ⟨4, [7, 7, 2, 5]⟩ = .ok ⟨3, [7, 2, 5]⟩ ∧ edgesOf 3 ([7, 2, 5] : List Int) = [(7, 2, none), (2, 5, none), (5, 7, none)] := by
  decide +kernel

example := C105_sides ⟨4, [7, 7, 2, 5]⟩ ⟨cm_quad4, rfl, rfl, fun _ => rfl⟩ (by decide)

/-- A quadratic quadrangle with a null side becomes a quadratic triangle. -/
example : simplifyCell ⟨8, [1, 2, 2, 3, 11, 2, 12, 13]⟩ = .ok ⟨6, [1, 2, 3, 11, 12, 13]⟩ := by decide +kernel

/-- The faces of a hexahedron, shuffled and turned -/
example : unPolyCell ⟨31, joinFaces [[7, 4, 5, 6], [0, 1, 2, 3], [3, 2, 6, 5], [4, 7, 1, 0], [2, 1, 7, 6], [0, 3, 5, 4]]⟩ =
    .ok ⟨18, [7, 4, 5, 6, 1, 0, 3, 2]⟩ := by decide +kernel

example : ∃ r, unPolyCell ⟨31, joinFaces [[7, 4, 5, 6], [0, 1, 2, 3], [3, 2, 6, 5], [4, 7, 1, 0], [2, 1, 7, 6], [0, 3, 5, 4]]⟩ = .ok ⟨18, r⟩ ∧
    SameFaces (sonsOf cm_hexa8 r) [[7, 4, 5, 6], [0, 1, 2, 3], [3, 2, 6, 5], [4, 7, 1, 0], [2, 1, 7, 6], [0, 3, 5, 4]] ∧ r.length = 8 := by
  refine ⟨[7, 4, 5, 6, 1, 0, 3, 2], by decide +kernel, ?_, rfl⟩
  unfold SameFaces
  decide

/-- A hexahedron whose top is reduced to a point is a pyramid, one with an edge reduced to a point on both sides a pentahedron. -/
example : simplifyCell ⟨18, [0, 1, 2, 3, 4, 4, 4, 4]⟩ = .ok ⟨15, [0, 1, 2, 3, 4]⟩ ∧
    simplifyCell ⟨18, [0, 1, 2, 2, 4, 5, 6, 6]⟩ = .ok ⟨16, [0, 1, 2, 4, 5, 6]⟩ := by decide +kernel

example := (C105_degenerated_solid (cm := cm_hexa8) (cm' := cm_pyra5) (by simp [usualTypes]) (by simp [usualTypes])
  (ns := [0, 1, 2, 3, 4, 4, 4, 4]) (nodes := [0, 1, 2, 3, 4]) rfl (by decide) (by decide) rfl (by decide)).2 (by decide)
  (by unfold SameFaces; decide +kernel)

/-- A mesh of dimension 2 -/
def exDeg : UMesh := { dim := 2, nbNodes := some 9, arrays := some ([4, 0, 0, 1, 2, 3, 3, 4, 5, 5, 6, 6, 7, 7, 8], [0, 5, 9, 15]), types := [3, 4, 5] }

example : exDeg.convertDegeneratedCells = .ok { exDeg with arrays := some ([3, 0, 1, 2, 3, 3, 4, 5, 3, 6, 7, 8], [0, 4, 8, 12]), types := [3] } := by
  decide +kernel

/-- The second cell is flat. -/
def exFlat : UMesh := { dim := 2, nbNodes := some 9, arrays := some ([4, 0, 0, 1, 2, 3, 3, 3, 5, 5, 6, 6, 7, 7, 8], [0, 5, 9, 15]), types := [3, 4, 5] }

example : exFlat.convertDegeneratedAndRemoveFlat =
    .ok ({ exFlat with arrays := some ([3, 0, 1, 2, 3, 6, 7, 8], [0, 4, 8]), types := [3] }, [1]) := by decide +kernel

/-- A polygon and a polyhedron become usual cells again. -/
example : UMesh.unPolyze { dim := 2, nbNodes := some 9, arrays := some ([5, 0, 1, 2, 5, 0, 1, 2, 3, 4], [0, 4, 10]), types := [5] } =
    .ok ({ dim := 2, nbNodes := some 9, arrays := some ([3, 0, 1, 2, 5, 0, 1, 2, 3, 4], [0, 4, 10]), types := [3, 5] }, true) := by decide +kernel

def exTet : UMesh := { dim := 3, nbNodes := some 9, arrays := some ([14, 5, 3, 8, 1, 14, 3, 8, 1, 6], [0, 5, 10]), types := [14] }

example : (exTet.convertToPolyTypes [1]).map (fun r => r.1.arrays) =
    .ok (some ([14, 5, 3, 8, 1, 31, 3, 8, 1, -1, 3, 6, 8, -1, 8, 6, 1, -1, 1, 6, 3], [0, 5, 21])) ∧
    (exTet.convertToPolyTypes [1] >>= fun r => r.1.unPolyze) = .ok (exTet, true) := by decide +kernel

example : UMesh.removeDegenerated1DCells { dim := 1, nbNodes := some 9, arrays := some ([1, 0, 1, 1, 2, 2, 2, 3, 4, 5], [0, 3, 6, 10]), types := [1, 2] } =
    .ok ({ dim := 1, nbNodes := some 9, arrays := some ([1, 0, 1, 2, 3, 4, 5], [0, 3, 7]), types := [1, 2] }, true) := by decide +kernel

example := C105_low_dimensions { exDeg with dim := 1 } (by decide)

/-! ## Findings -/

/-- **Finding.** A hexahedron with two nodes merged becomes a polyhedron of 27 values, written over 8 nodes: on a mesh of one cell the array is
written out of its bounds. -/
theorem C105_finding_longer_cell :
    simplifyCell ⟨18, [0, 1, 2, 3, 4, 4, 6, 7]⟩ =
      .ok ⟨31, [0, 1, 2, 3, -1, 4, 7, 6, -1, 0, 4, 1, -1, 1, 4, 6, 2, -1, 2, 6, 7, 3, -1, 3, 7, 4, 0]⟩ ∧
    UMesh.convertDegeneratedCells { dim := 3, nbNodes := some 8, arrays := some ([18, 0, 1, 2, 3, 4, 4, 6, 7], [0, 9]), types := [18] } =
      .error .ub := by decide +kernel

/-- **Finding.** When there is room behind the cell, the polyhedron is written over the next cells before they are read: here the type of the
second hexahedron is read among the values of the polyhedron, and the call throws. -/
theorem C105_finding_next_cells_overwritten :
    ∃ conn connI, IsMesh conn connI [⟨18, [0, 1, 2, 3, 4, 4, 6, 7]⟩, ⟨18, [4, 5, 6, 7, 8, 9, 10, 11]⟩, ⟨18, [8, 9, 10, 11, 12, 13, 14, 15]⟩,
      ⟨18, [12, 13, 14, 15, 16, 17, 18, 19]⟩] ∧
      UMesh.convertDegeneratedCells { dim := 3, nbNodes := some 20, arrays := some (conn, connI), types := [18] } = .error .exn :=
  ⟨_, _, ⟨rfl, rfl⟩, by decide +kernel⟩

/-- **Finding.** A cell of dimension 3 reduced to a point: no face remains and the code writes before the beginning of an array. -/
theorem C105_finding_point_cell : simplifyCell ⟨14, [3, 3, 3, 3]⟩ = .error .ub := by decide +kernel

/-- **Finding.** Only one side face is looked at between the base and the opposite face: this closed polyhedron, each edge of which is covered
once in each direction, is no hexahedron, but becomes one, with other faces. -/
theorem C105_finding_wrong_hexahedron :
    unPolyCell ⟨31, joinFaces [[0, 1, 2, 3], [4, 5, 6, 7], [0, 4, 7, 1], [0, 3, 2, 4], [1, 7, 6, 2], [2, 6, 5, 4]]⟩ =
      .ok ⟨18, [0, 1, 2, 3, 4, 7, 6, 5]⟩ ∧
    ¬ SameFaces (sonsOf cm_hexa8 ([0, 1, 2, 3, 4, 7, 6, 5] : List Int))
      [[0, 1, 2, 3], [4, 5, 6, 7], [0, 4, 7, 1], [0, 3, 2, 4], [1, 7, 6, 2], [2, 6, 5, 4]] := by
  refine ⟨by decide +kernel, ?_⟩
  unfold SameFaces
  decide +kernel

/-- **Finding.** The same for a pentahedron. -/
theorem C105_finding_wrong_pentahedron :
    unPolyCell ⟨31, joinFaces [[0, 1, 2], [3, 4, 5], [0, 3, 5, 1], [0, 2, 1, 3], [1, 5, 4, 3]]⟩ = .ok ⟨16, [0, 1, 2, 3, 5, 4]⟩ ∧
    ¬ SameFaces (sonsOf cm_penta6 ([0, 1, 2, 3, 5, 4] : List Int)) [[0, 1, 2], [3, 4, 5], [0, 3, 5, 1], [0, 2, 1, 3], [1, 5, 4, 3]] := by
  refine ⟨by decide +kernel, ?_⟩
  unfold SameFaces
  decide +kernel

/-- **Finding.** `unPolyze` may return false, which says that nothing is changed, though the connectivity has changed: a polyhedron with a
repeated node in a face. -/
theorem C105_finding_changed_but_false :
    UMesh.unPolyze { dim := 3, nbNodes := some 5, arrays := some ([31, 0, 1, 1, 2, -1, 0, 2, 3], [0, 9]), types := [31] } =
      .ok ({ dim := 3, nbNodes := some 5, arrays := some ([31, 0, 1, 2, -1, 0, 2, 3], [0, 8]), types := [31] }, false) := by decide +kernel

/-- **Finding.** A degenerated cell with a node at its center loses this node. -/
theorem C105_finding_center_lost : simplifyCell ⟨9, [0, 1, 2, 2, 4, 5, 2, 7, 8]⟩ = .ok ⟨6, [0, 1, 2, 4, 5, 7]⟩ := by decide +kernel

/-- **Finding.** A closed segment of three nodes (an arc from a node to itself) counts as degenerated and is removed. -/
theorem C105_finding_closed_segment :
    UMesh.removeDegenerated1DCells { dim := 1, nbNodes := some 3, arrays := some ([2, 0, 0, 1, 1, 0, 1], [0, 4, 7]), types := [1, 2] } =
      .ok ({ dim := 1, nbNodes := some 3, arrays := some ([1, 0, 1], [0, 3]), types := [1] }, true) := by decide +kernel

end MC
