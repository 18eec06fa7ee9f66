import Verif.BaryMesh
import Verif.MeasureEx
import Mathlib.Analysis.Real.Sqrt

/-! C102: findings and examples. -/

namespace MC

def noBaryArcs : BaryArcs Rat := ⟨fun _ _ => 0, fun _ _ => 0⟩

/-- A threshold smaller than all the quantities of the examples, for both thresholds of the code -/
def tinyQ : Rat := 1 / 1000000000000

/-! ## Findings -/

def warpedPts (x : Rat) : List (List Rat) :=
  [[x, 0, -1], [x + 1, 0, -1], [x + 1, 1, -1], [x, 1, -1], [x, 0, 0], [x + 1, 0, 1], [x + 1, 1, 0], [x, 1, 1]]

/-- **C102, finding.** The center of a hexahedron with a warped face depends on the place of the origin and can be out of the
cell: here all the nodes have their first coordinate between 100 and 101, and the center is at 113.06. -/
theorem C102_finding_warped_faces :
    (cellBary noBaryArcs ratSqrt tinyQ tinyQ 3 (warpedPts 0) 18 [0, 1, 2, 3, 4, 5, 6, 7]).map (fun c => c.getD 0 0) = .ok (9 / 16) ∧
    (cellBary noBaryArcs ratSqrt tinyQ tinyQ 3 (warpedPts 100) 18 [0, 1, 2, 3, 4, 5, 6, 7]).map (fun c => c.getD 0 0) =
      .ok (1809 / 16) := by decide +kernel

def wedgePts : List (List Rat) := [[0, 0, 0], [4, 0, 0], [4, 3, 0], [0, 0, 1], [4, 0, 1], [4, 3, 1]]

/-- **C102, finding.** The center of a hexahedron which has a face without area (a wedge given as a hexahedron, whose measure is
right) is wrong: the loop stays on this face, and the faces which come after it are not counted. Here the center is out of the
cell, at -4/3 where the nodes are between 0 and 4; the same solid given as a PENTA6 has the right one. -/
theorem C102_finding_collapsed_hexahedra :
    cellBary noBaryArcs ratSqrt tinyQ tinyQ 3 wedgePts 18 [0, 1, 2, 2, 3, 4, 5, 5] = .ok [-4 / 3, 1, 1 / 2] ∧
    cellBary noBaryArcs ratSqrt tinyQ tinyQ 3 wedgePts 16 [0, 1, 2, 3, 4, 5] = .ok [8 / 3, 1, 1 / 2] ∧
    cellMeasure noArcs ratSqrt 3 wedgePts 18 [0, 1, 2, 2, 3, 4, 5, 5] = cellMeasure noArcs ratSqrt 3 wedgePts 16 [0, 1, 2, 3, 4, 5] := by
  decide +kernel

/-- **C102, finding.** The center of a small polygon of the space is the origin: the triangles of which it is made are not
counted. -/
theorem C102_finding_small_polygons :
    cellBary noBaryArcs ratSqrt tinyQ tinyQ 3
      [[100, 0, 0], [100 + 1 / 1000000, 0, 0], [100 + 1 / 1000000, 1 / 1000000, 0], [100, 1 / 1000000, 0]] 4 [0, 1, 2, 3] =
      .ok [0, 0, 0] := by decide +kernel

/-- **C102, finding.** Cells which have a measure but no center. -/
theorem C102_finding_refused_types :
    (cellMeasure noArcs ratSqrt 3 cubePts 20 [0, 1, 3, 4, 0, 1, 2, 3, 4, 5]).isOk = true ∧
    cellBary noBaryArcs ratSqrt tinyQ tinyQ 3 cubePts 20 [0, 1, 3, 4, 0, 1, 2, 3, 4, 5] = throwX := by decide +kernel

/-! ## Examples -/

/-- The thresholds of the code -/
noncomputable def noRealArcs : BaryArcs ℝ := ⟨fun _ _ => 0, fun _ _ => 0⟩

theorem sqrt_isSqrtF : IsSqrtF (Real.sqrt : ℝ → ℝ) := fun x hx => ⟨Real.sqrt_nonneg x, Real.mul_self_sqrt hx⟩

def pyrPts : List (List ℝ) := [[0, 0, 1], [2, 0, 1], [2, 2, 1], [0, 2, 1], [0, 0, 5]]

-- C102_center_of_mass_of_solids, with the square root of the real numbers
example : ∃ c, cellBary noRealArcs Real.sqrt (1 / 10 ^ 12) (1 / 10 ^ 12) 3 pyrPts 15 [0, 1, 2, 3, 4] = .ok c ∧
    HasCenter3 pyrPts [[0, 1, 2, 3], [0, 4, 1], [1, 4, 2], [2, 4, 3], [3, 4, 0]] c := by
  apply C102_center_of_mass_of_solids noRealArcs sqrt_isSqrtF (by norm_num) (by norm_num) _ _ _ _ (SolidOf.pyra 0 1 2 3 4)
  · have : ∀ f ∈ ([[0, 1, 2, 3], [0, 4, 1], [1, 4, 2], [2, 4, 3], [3, 4, 0]] : List (List Int)), ∀ n ∈ f,
        0 ≤ n ∧ n < ((5 : Nat) : Int) := by decide
    exact this
  · unfold SolidReg
    rw [if_neg (by norm_num), if_pos rfl]
    intro f hf
    have : f = [0, 1, 2, 3] := by simpa [eq_comm] using hf
    subst this
    refine ⟨?_, ?_, ?_⟩
    · intro p hp
      simp only [List.map_cons, List.map_nil, List.mem_cons, List.not_mem_nil, or_false] at hp
      rcases hp with rfl | rfl | rfl | rfl <;>
        norm_num [areaVector, p0, ptRk, ptNode, tupPt, pyrPts, show Int.toNat 2 = 2 from rfl, show Int.toNat 3 = 3 from rfl, List.range, List.range.loop]
    · norm_num [areaSq, areaVector, p0, ptRk, ptNode, tupPt, pyrPts, show Int.toNat 2 = 2 from rfl, show Int.toNat 3 = 3 from rfl, List.range, List.range.loop]
    · intro x hx
      right
      simp [fanPts, ptRk, List.range, List.range.loop] at hx
      rcases hx with rfl | rfl <;> norm_num [triV, p0, ptRk, ptNode, tupPt, pyrPts, show Int.toNat 2 = 2 from rfl, show Int.toNat 3 = 3 from rfl]

instance (ps : List (Nat → Rat)) : Decidable (PlanePts ps) := by unfold PlanePts; infer_instance
instance (eps : Rat) (ps : List (Nat → Rat)) : Decidable (NotNearlyFlat eps ps) := by unfold NotNearlyFlat; infer_instance
instance (eps : Rat) (ps : List (Nat → Rat)) : Decidable (NoSmallTriangle eps ps) := by unfold NoSmallTriangle; infer_instance
instance (tiny eps : Rat) (ps : List (Nat → Rat)) : Decidable (RegFace tiny eps ps) :=
  decidable_of_iff (PlanePts ps ∧ tiny * tiny < areaSq ps ∧ NotNearlyFlat eps ps)
    ⟨fun h => ⟨h.1, h.2.1, h.2.2⟩, fun h => ⟨h.1, h.2, h.3⟩⟩
instance (tiny eps : Rat) (coords : List (List Rat)) (t : Int) (fs : List (List Int)) :
    Decidable (SolidReg tiny eps coords t fs) := by unfold SolidReg; infer_instance
instance (tiny eps : Rat) (coords : List (List Rat)) (nodes : List Int) :
    Decidable (SurfReg tiny eps coords nodes) := by unfold SurfReg; infer_instance

def cubeFaces8 : List (List Int) := [[0, 1, 2, 3], [4, 7, 6, 5], [0, 3, 7, 4], [3, 2, 6, 7], [2, 1, 5, 6], [0, 4, 5, 1]]

-- C102_center_of_mass_of_solids, C102_centers_of_solids_follow_affine_maps: a cube, then twice as wide and moved
example : SolidOf 18 [0, 1, 2, 3, 4, 5, 6, 7] cubeFaces8 ∧ SolidReg tinyQ tinyQ cubePts 18 cubeFaces8 ∧
    SolidReg tinyQ tinyQ (cubePts.map (affL 3 (fun i j => if i = j then 2 else 0) (fun _ => 5))) 18 cubeFaces8 ∧
    solidVol cubePts cubeFaces8 (fun _ => 0) ≠ 0 ∧
    cellBary noBaryArcs ratSqrt tinyQ tinyQ 3 cubePts 18 [0, 1, 2, 3, 4, 5, 6, 7] = .ok [1 / 2, 1 / 2, 1 / 2] ∧
    cellBary noBaryArcs ratSqrt tinyQ tinyQ 3 (cubePts.map (affL 3 (fun i j => if i = j then 2 else 0) (fun _ => 5))) 18
      [0, 1, 2, 3, 4, 5, 6, 7] = .ok [6, 6, 6] := by
  refine ⟨SolidOf.hexa 0 1 2 3 4 5 6 7, ?_, ?_, ?_, ?_, ?_⟩ <;> decide +kernel

-- C102_center_of_a_solid_is_inside: the cube seen from its middle, and one half-space
example : (∀ f ∈ cubeFaces8, ∀ x ∈ cycPairs f, 0 ≤ (-1 : Rat) * tetV (fun _ => 1 / 2) (ptNode cubePts (f.headD 0))
      (ptNode cubePts x.1) (ptNode cubePts x.2)) ∧
    (∀ f ∈ cubeFaces8, ∀ n ∈ f, (-2 : Rat) ≤ -1 * ptNode cubePts n 0 + -1 * ptNode cubePts n 1 + 0 * ptNode cubePts n 2) := by
  decide +kernel

-- C102_center_whatever_the_order_of_faces, C102_cutting_a_polyhedron: a box of length 3 cut in a cube and a box of length 2
def boxLeft : List (List Int) := [[0, 1, 2, 3], [4, 7, 6, 5], [0, 3, 7, 4], [3, 2, 6, 7], [0, 4, 5, 1]]
def boxRight : List (List Int) := [[1, 8, 9, 2], [5, 6, 11, 10], [2, 9, 11, 6], [9, 8, 10, 11], [1, 5, 10, 8]]

example : ClosedFaces (boxLeft ++ [2 :: [1, 5, 6]]) ∧ ClosedFaces (boxRight ++ [2 :: [1, 5, 6].reverse]) ∧
    ClosedFaces (boxLeft ++ boxRight) ∧ SolidReg tinyQ tinyQ cubePts 31 (boxLeft ++ [2 :: [1, 5, 6]]) ∧
    SolidReg tinyQ tinyQ cubePts 31 (boxRight ++ [2 :: [1, 5, 6].reverse]) ∧
    SolidReg tinyQ tinyQ cubePts 31 (boxLeft ++ boxRight) ∧
    cellBary noBaryArcs ratSqrt tinyQ tinyQ 3 cubePts 31 (joinFaces (boxLeft ++ [2 :: [1, 5, 6]])) = .ok [1 / 2, 1 / 2, 1 / 2] ∧
    cellBary noBaryArcs ratSqrt tinyQ tinyQ 3 cubePts 31 (joinFaces (boxRight ++ [2 :: [1, 5, 6].reverse])) = .ok [2, 1 / 2, 1 / 2] ∧
    cellBary noBaryArcs ratSqrt tinyQ tinyQ 3 cubePts 31 (joinFaces (boxLeft ++ boxRight)) = .ok [3 / 2, 1 / 2, 1 / 2] := by
  refine ⟨?_, ?_, ?_, by decide +kernel, by decide +kernel, by decide +kernel, by decide +kernel, by decide +kernel,
    by decide +kernel⟩ <;> (unfold ClosedFaces; decide)

-- C102_center_of_mass_of_polygons, C102_centers_of_polygons_follow_affine_maps, C102_center_from_any_node: a corner
def cornerPts : List (List Rat) := [[0, 0], [4, 0], [4, 2], [2, 2], [2, 4], [0, 4]]

example : ValidNodes cornerPts [0, 1, 2, 3, 4, 5] ∧ planeArea cornerPts [0, 1, 2, 3, 4, 5] (fun _ => 0) ≠ 0 ∧
    cellBary noBaryArcs ratSqrt tinyQ tinyQ 2 cornerPts 5 [0, 1, 2, 3, 4, 5] = .ok [5 / 3, 5 / 3] ∧
    cellBary noBaryArcs ratSqrt tinyQ tinyQ 2 cornerPts 5 [1, 0, 5, 4, 3, 2] = .ok [5 / 3, 5 / 3] ∧
    det2 shear ≠ 0 ∧
    cellBary noBaryArcs ratSqrt tinyQ tinyQ 2 (cornerPts.map (affL 2 shear (fun _ => 1))) 5 [0, 1, 2, 3, 4, 5] =
      .ok [6, 13 / 3] := by decide +kernel

-- C102_center_of_a_polygon_is_inside: the corner is seen from (1, 1)
example : (∀ x ∈ cycPairs ([0, 1, 2, 3, 4, 5] : List Int), 0 ≤ (1 : Rat) * tri2 (fun _ => 1) (ptNode cornerPts x.1) (ptNode cornerPts x.2)) ∧
    (∀ n ∈ ([0, 1, 2, 3, 4, 5] : List Int), (-6 : Rat) ≤ -1 * ptNode cornerPts n 0 + -1 * ptNode cornerPts n 1) := by decide +kernel

-- C102_cutting_a_polygon: the corner is cut from 0 to 3
example : planeArea cornerPts (0 :: [1, 2] ++ [3]) (fun _ => 0) ≠ 0 ∧ planeArea cornerPts (3 :: [4, 5] ++ [0]) (fun _ => 0) ≠ 0 ∧
    cellBary noBaryArcs ratSqrt tinyQ tinyQ 2 cornerPts 5 (0 :: [1, 2] ++ [3]) = .ok [22 / 9, 8 / 9] ∧
    cellBary noBaryArcs ratSqrt tinyQ tinyQ 2 cornerPts 5 (3 :: [4, 5] ++ [0]) = .ok [8 / 9, 22 / 9] := by decide +kernel

-- C102_center_of_mass_of_polygons_in_space: a quadratic quadrangle, with its four vertices
example : SurfReg tinyQ tinyQ cubePts ([0, 1, 2, 3, 8, 9, 10, 11].take (8 / 2)) ∧
    cellBary noBaryArcs ratSqrt tinyQ tinyQ 3 cubePts 8 [0, 1, 2, 3, 8, 9, 10, 11] = .ok [1 / 2, 1 / 2, 0] := by decide +kernel

-- C102_centers_of_simplices
example : cellBary noBaryArcs ratSqrt tinyQ tinyQ 3 cubePts 14 [0, 8, 3, 4] = .ok [3 / 4, 1 / 4, 1 / 4] := by decide +kernel

-- C102_array_of_centers, C102_centers_of_a_part, C102_means_of_the_nodes: a cube and a tetrahedron
def baryConn : List Int := [18, 0, 1, 2, 3, 4, 5, 6, 7, 14, 0, 8, 3, 4, 31, 0, 8, 3, -1, 0, 4, 8, -1, 8, 4, 3, -1, 3, 4, 0]
def baryConnI : List Int := [0, 9, 14, 30]
def baryCells : List Cell :=
  [⟨18, [0, 1, 2, 3, 4, 5, 6, 7]⟩, ⟨14, [0, 8, 3, 4]⟩, ⟨31, [0, 8, 3, -1, 0, 4, 8, -1, 8, 4, 3, -1, 3, 4, 0]⟩]

example : IsMesh baryConn baryConnI baryCells ∧
    isoBarys 3 cubePts baryConn baryConnI = .ok [[1 / 2, 1 / 2, 1 / 2], [3 / 4, 1 / 4, 1 / 4], [3 / 4, 1 / 4, 1 / 4]] ∧
    centersOfMass noBaryArcs ratSqrt tinyQ tinyQ 3 cubePts (baryConn.take 14) (baryConnI.take 3) =
      .ok [[1 / 2, 1 / 2, 1 / 2], [3 / 4, 1 / 4, 1 / 4]] ∧
    partCenters noBaryArcs ratSqrt tinyQ tinyQ 3 cubePts (baryConn.take 14) (baryConnI.take 3) [1, 0, 1] =
      .ok [[3 / 4, 1 / 4, 1 / 4], [1 / 2, 1 / 2, 1 / 2], [3 / 4, 1 / 4, 1 / 4]] := by
  refine ⟨?_, by decide +kernel, by decide +kernel, by decide +kernel⟩
  decide +kernel

-- C102_means_of_simplices
example : isoBarys 3 cubePts [14, 0, 8, 3, 4, 3, 0, 1, 9] [0, 5, 9] =
    centersOfMass noBaryArcs ratSqrt tinyQ tinyQ 3 cubePts [14, 0, 8, 3, 4, 3, 0, 1, 9] [0, 5, 9] := by decide +kernel

-- C102_refused_types
example : (9 : Int) ∉ centerTypes ∧ (20 : Int) ∉ centerTypes ∧ (25 : Int) ∉ centerTypes ∧ (0 : Int) ∉ centerTypes := by decide

end MC
