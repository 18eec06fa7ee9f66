import Verif.GaussLin

/-!
# C97: findings and examples
-/

namespace MC

/-- Finding: with the default reference cell of the triangles, whose corners are (-1, 1), (-1, -1) and (1, -1), the point
given as barycenter is (0, 0): it is the middle of the longest edge, not the mean of the corners. -/
theorem C97_finding_triangle_barycenter :
    defaultRef (K := Rat) 3 = .ok [-1, 1, -1, -1, 1, -1] ∧ barycenterRef (K := Rat) 3 [-1, 1, -1, -1, 1, -1] = .ok [0, 0] ∧
      cornerMean 3 2 ge_tria3a.ref = [-1/3, -1/3] := by decide +kernel

/-- Finding: the test for the pyramids does not look at the base, a point far below is said to be inside. -/
theorem C97_finding_pyramid_base : ∀ (ref : List Rat), isInOrOut 15 ref [0, 0, -5] (1/1000) = .ok true ∧
    ¬ InHull (K := Rat) ge_pyra5a.ref [0, 0, -5] := by
  intro ref
  constructor
  · have h : refShape 15 = some .pyra := by decide
    unfold isInOrOut
    rw [h]
    have : inOrOut .pyra (ptOf ref 0) [0, 0, -5] (1/1000) = true := by
      unfold inOrOut
      simp only [decide_eq_true_eq]
      decide +kernel
    dsimp only
    rw [this]
    rfl
  · rintro ⟨w, hl, hw, hs, hk⟩
    have h2 := hk 2
    match w, hl with
    | [a, b, c, d, e], _ =>
      simp [wsum, ge_pyra5a] at h2 hw
      linarith [hw.2.2.2.2]

/-- Finding: with the default reference cell of the triangles, the points beyond the longest edge are not brought back to the
cell: (1/2, 2/5) stays where it is, (1, 1) goes to (1/2, 1/2), and neither is in the cell. -/
theorem C97_finding_adapted_triangle :
    adaptCoor (K := Rat) 3 [-1, 1, -1, -1, 1, -1] [1/2, 2/5] = .ok [1/2, 2/5] ∧
      adaptCoor (K := Rat) 3 [-1, 1, -1, -1, 1, -1] [1, 1] = .ok [1/2, 1/2] ∧
      isInOrOut (K := Rat) 3 [-1, 1, -1, -1, 1, -1] [1/2, 2/5] (1/1000) = .ok false ∧
      isInOrOut (K := Rat) 3 [-1, 1, -1, -1, 1, -1] [1/2, 1/2] (1/1000) = .ok false := by decide +kernel

/-- Finding: with the other reference cell of the triangles, a point beyond the longest edge is brought to this edge along the
line of the first corner: it is not the closest point of the cell. -/
theorem C97_finding_not_the_closest :
    adaptCoor (K := Rat) 3 [0, 0, 1, 0, 0, 1] [2, 1/2] = .ok [4/5, 1/5] ∧
      sqDistG (K := Rat) 2 [1, 0] [2, 1/2] < sqDistG (K := Rat) 2 [4/5, 1/5] [2, 1/2] := by decide +kernel

/-- Finding: the first reference cell of the triangles with 6 nodes has twice the node (-1, 1); with the middle of the edge in
its place, the cell is not recognised. The segments with 4 nodes are not converted. -/
theorem C97_finding_convert :
    (convertToLinear (mkGaussI (K := Rat) 6 [0, 0] 1 [-1, 1, -1, -1, 1, -1, -1, 0, 0, -1, 0, 0] 6)).map GaussI.ref = throwX ∧
      (convertToLinear (mkGaussI (K := Rat) 6 [0, 0] 1 [-1, 1, -1, -1, 1, -1, -1, 1, 0, -1, 0, 0] 6)).map GaussI.ref =
        .ok [-1, 1, -1, -1, 1, -1] ∧
      defaultRef (K := Rat) 10 = .ok [-1, 1, -1/3, 1/3] ∧
      (convertToLinear (mkGaussI (K := Rat) 10 [0] 1 [-1, 1, -1/3, 1/3] 4)).map GaussI.ref = throwX := by decide +kernel

/-! ## Examples -/

/-- `C97_inside_is_the_convex_hull`: a point of the pyramid, and one of the second triangle which is outside. -/
example : (∀ eps : Rat, 0 < eps → isInOrOut 15 (castL ge_pyra5a.ref.flatten) [1/4, 1/4, 1/4] eps = .ok true) ∧
    ¬ (∀ eps : Rat, 0 < eps → isInOrOut 3 (castL ge_tria3b.ref.flatten) [3/4, 3/4] eps = .ok true) := by
  constructor
  · refine (C97_inside_is_the_convex_hull (15, [ge_pyra5a, ge_pyra5b]) (by simp [gaussTable]) ge_pyra5a (by simp)
      (.inl (by decide)) [1/4, 1/4, 1/4] rfl (by intro _; decide +kernel)).mpr ?_
    refine ⟨[5/16, 5/16, 1/16, 1/16, 1/4], rfl, by decide +kernel, by decide +kernel, fun k => ?_⟩
    match k with
    | 0 => decide +kernel
    | 1 => decide +kernel
    | 2 => decide +kernel
    | k + 3 => simp [wsum, ge_pyra5a]
  · intro h
    have := h (1/1000) (by decide +kernel)
    revert this
    decide +kernel

/-- `C97_default_coordinates` -/
example : defaultRef (K := Rat) 16 = .ok [-1, 1, 0, -1, 0, 1, -1, 0, 0, 1, 1, 0, 1, 0, 1, 1, 0, 0] ∧
    defaultRef (K := Rat) 5 = throwX := by decide +kernel

/-- `C97_barycenter`: a prism. -/
example : barycenterRef (K := Rat) 16 (castL ge_penta6a.ref.flatten) = .ok [0, 1/3, 1/3] ∧
    cornerMean 6 3 ge_penta6a.ref = [0, 1/3, 1/3] := by decide +kernel

/-- `C97_adapted_point`: beyond a corner of a quadrangle, beyond a side of a triangle. -/
example : adaptCoor (K := Rat) 4 (castL ge_quad4a.ref.flatten) [3, -2] = .ok [1, -1] ∧
    adaptCoor (K := Rat) 3 (castL ge_tria3b.ref.flatten) [1/3, -2] = .ok [1/3, 0] ∧
    adaptCoor (K := Rat) 3 (castL ge_tria3b.ref.flatten) [3, 1] = .ok [3/4, 1/4] := by decide +kernel

/-- `C97_adapt_refused` -/
example : refShape 14 = some .tetra ∧ adaptCoor (K := Rat) 14 [] [1, 1, 1] = throwX := by decide +kernel

/-- `C97_normalized_coordinates`: points of the space for a triangle, points of a line for a triangle. -/
example : normalizeCoords (K := Rat) 3 3 [1, 2, 3, 4, 5, 6] = .ok [1, 2, 4, 5] ∧
    normalizeCoords (K := Rat) 3 1 [1, 2] = .ok [1, 0, 2, 0] ∧ normalizeCoords (K := Rat) 3 2 [1, 2, 3] = throwX := by
  decide +kernel

/-- `C97_convert_to_linear`: the second triangle with 6 nodes. -/
example : (convertToLinear (mkGaussI (K := Rat) 6 [1/3, 1/3] 1 [0, 0, 1, 0, 0, 1, 1/2, 0, 1/2, 1/2, 0, 1/2] 6)).map
      (fun g => (g.geo, g.gauss, g.nbGauss, g.ref, g.nbRef)) = .ok (3, [1/3, 1/3], 1, [0, 0, 1, 0, 0, 1], 3) ∧
    (convertToLinear (mkGaussI (K := Rat) 3 [1/3, 1/3] 1 [0, 0, 1, 0, 0, 1] 3)).map GaussI.ref = throwX := by decide +kernel

/-- `C97_conversion_keeps_the_points`: a triangle of the space with straight edges, nodes in any order. -/
example : let coords : List (List Rat) := [[0, 3, 1], [0, 0, 0], [3, 0, 0], [6, 0, 0], [0, 6, 2], [3, 3, 1]]
    ((newGaussInfo (K := Rat) 6 2 [1/4, 1/2] 1 [0, 0, 1, 0, 0, 1, 1/2, 0, 1/2, 1/2, 0, 1/2] 6).bind fun g =>
      calcCoordsAlg g coords 3 [1, 3, 4, 2, 5, 0]) = .ok [[3/2, 3, 1]] ∧
    ((newGaussInfo (K := Rat) 6 2 [1/4, 1/2] 1 [0, 0, 1, 0, 0, 1, 1/2, 0, 1/2, 1/2, 0, 1/2] 6).bind fun g => do
      let g0 ← convertToLinear g
      let g' ← newGaussInfo g0.geo 2 g0.gauss g0.nbGauss g0.ref g0.nbRef
      calcCoordsAlg g' coords 3 [1, 3, 4]) = .ok [[3/2, 3, 1]] := by decide +kernel

end MC
