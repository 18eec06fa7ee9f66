import Verif.MeshDistSurf
import Mathlib.Analysis.Real.Sqrt
import Mathlib.Data.Rat.Sqrt
import Mathlib.Tactic.FinCases

/-!
# What the distances do wrong, and examples (C79, C80)
-/

namespace MC
section
variable {K : Type} [Field K] [LinearOrder K] [IsStrictOrderedRing K]

theorem realSqrt_isSqrt : IsSqrt Real.sqrt := fun x hx => ⟨Real.sqrt_nonneg x, Real.mul_self_sqrt hx⟩

example : sqDistSeg2 Rat.sqrt ⟨3, 5⟩ ⟨0, 0⟩ ⟨6, 8⟩ = 9 / 25 ∧ sqDistSeg2 Rat.sqrt ⟨7, 9⟩ ⟨0, 0⟩ ⟨6, 8⟩ = 2 := by decide +kernel
example : distSeg3 Rat.sqrt ⟨3, 4, 5⟩ ⟨0, 0, 5⟩ ⟨0, 10, 5⟩ = 3 ∧ distSeg3 Rat.sqrt ⟨3, 4, 0⟩ ⟨0, 0, 0⟩ ⟨0, 0, 0⟩ = 5 := by decide +kernel
example : TriExact (1 / 10 ^ 12 : ℝ) ⟨1, 2, 3⟩ ⟨0, 0, 0⟩ ⟨2, 0, 0⟩ ⟨0, 2, 0⟩ := by
  constructor
  · right; norm_num [triDet, dot3, sub3]
  · intro _ _; norm_num [sq3]
example : TriExact (1 / 10 ^ 12 : ℝ) ⟨1, 2, 3⟩ ⟨0, 0, 0⟩ ⟨1, 1, 0⟩ ⟨3, 3, 0⟩ := by
  constructor
  · left; norm_num [triDet, dot3, sub3]
  · intro h; norm_num [triS, triT, triDet, dot3, sub3] at h
example : distTri3 Real.sqrt (1 / 10 ^ 12) ⟨1, 1, 3⟩ ⟨0, 0, 0⟩ ⟨2, 0, 0⟩ ⟨0, 2, 0⟩ = 3 := by
  norm_num [distTri3, dot3, sub3]
  rw [show (9 : ℝ) = 3 ^ 2 by norm_num]
  exact Real.sqrt_sq (by norm_num)

/-- Finding: for a point beyond the corner of a triangle whose two first edges have different lengths, the distance is too large.  The point `(-1, 2, 0)` is at the squared distance 2 of the corner `(0, 1, 0)`, the squared result is larger than 97. -/
theorem C79_triangle_too_far (sqrtF : K → K) (hs : IsSqrt sqrtF) (tiny : K) :
    distTri3 sqrtF tiny ⟨-1, 2, 0⟩ ⟨0, 0, 0⟩ ⟨10, 0, 0⟩ ⟨0, 1, 0⟩ * distTri3 sqrtF tiny ⟨-1, 2, 0⟩ ⟨0, 0, 0⟩ ⟨10, 0, 0⟩ ⟨0, 1, 0⟩ = 998082 / 10201 ∧
      InTri3 (⟨0, 0, 0⟩ : V3 K) ⟨10, 0, 0⟩ ⟨0, 1, 0⟩ ⟨0, 1, 0⟩ ∧ sq3 (⟨-1, 2, 0⟩ : V3 K) ⟨0, 1, 0⟩ = 2 := by
  refine ⟨?_, ⟨0, 1, le_refl _, zero_le_one, by simp, by simp [triPt]⟩, by norm_num [sq3]⟩
  have e : distTri3 sqrtF tiny ⟨-1, 2, 0⟩ ⟨0, 0, 0⟩ ⟨10, 0, 0⟩ ⟨0, 1, 0⟩ = sqrtF (998082 / 10201) := by
    norm_num [distTri3, dot3, sub3, triHelper2]
  rw [e]
  exact (hs _ (by norm_num)).2

/-- Finding: the distance may be too small as well.  No point of the triangle is closer to `(-5, 50, 0)` than 49, the result is 5. -/
theorem C79_triangle_too_close (sqrtF : K → K) (hs : IsSqrt sqrtF) (tiny : K) :
    distTri3 sqrtF tiny ⟨-5, 50, 0⟩ ⟨0, 0, 0⟩ ⟨10, 0, 0⟩ ⟨0, 1, 0⟩ = 5 ∧
      ∀ q, InTri3 (⟨0, 0, 0⟩ : V3 K) ⟨10, 0, 0⟩ ⟨0, 1, 0⟩ q → 49 * 49 < sq3 ⟨-5, 50, 0⟩ q := by
  constructor
  · have e : distTri3 sqrtF tiny ⟨-5, 50, 0⟩ ⟨0, 0, 0⟩ ⟨10, 0, 0⟩ ⟨0, 1, 0⟩ = sqrtF 25 := by
      norm_num [distTri3, dot3, sub3, triHelper2]
    rw [e]
    obtain ⟨h0, h1⟩ := hs 25 (by norm_num)
    nlinarith
  · rintro q ⟨s, t, hs, ht, hst, rfl⟩
    have ht1 : t ≤ 1 := by linarith
    norm_num [sq3, triPt]
    nlinarith [mul_nonneg hs hs, mul_nonneg (sub_nonneg.mpr ht1) (sub_nonneg.mpr ht1)]

/-- Finding: the threshold on the area is absolute.  A triangle with two edges of length 0.0009 is taken as flat, and the distance of a point which is inside is not zero. -/
theorem C79_triangle_small (sqrtF : K → K) (hs : IsSqrt sqrtF) :
    distTri3 sqrtF (1 / 10 ^ 12) ⟨1 / 10 ^ 4, 1 / 10 ^ 4, 0⟩ ⟨0, 0, 0⟩ ⟨9 / 10 ^ 4, 0, 0⟩ ⟨0, 9 / 10 ^ 4, 0⟩ = 1 / 10 ^ 4 ∧
      InTri3 (⟨0, 0, 0⟩ : V3 K) ⟨9 / 10 ^ 4, 0, 0⟩ ⟨0, 9 / 10 ^ 4, 0⟩ ⟨1 / 10 ^ 4, 1 / 10 ^ 4, 0⟩ := by
  constructor
  · have e : distTri3 sqrtF (1 / 10 ^ 12) ⟨1 / 10 ^ 4, 1 / 10 ^ 4, 0⟩ ⟨0, 0, 0⟩ ⟨9 / 10 ^ 4, 0, 0⟩ ⟨0, 9 / 10 ^ 4, 0⟩ =
        min (sqrtF (1 / 10 ^ 8)) (sqrtF (49 / (2 * 10 ^ 8))) := by
      norm_num [distTri3, dot3, sub3, distSeg3]
    rw [e]
    obtain ⟨h0, h1⟩ := hs (1 / 10 ^ 8) (by norm_num)
    obtain ⟨h2, h3⟩ := hs (49 / (2 * 10 ^ 8)) (by norm_num)
    have h4 : sqrtF (1 / 10 ^ 8) = 1 / 10 ^ 4 := by
      have : (sqrtF (1 / 10 ^ 8) - 1 / 10 ^ 4) * (sqrtF (1 / 10 ^ 8) + 1 / 10 ^ 4) = 0 := by linear_combination h1
      rcases mul_eq_zero.mp this with h | h
      · linarith
      · exfalso
        have : (0 : K) < 1 / 10 ^ 4 := by norm_num
        linarith
    rw [h4]
    apply min_eq_left
    by_contra hh
    have := mul_self_lt_mul_self h2 (not_le.mp hh)
    rw [h3] at this
    norm_num at this
  · refine ⟨1 / 9, 1 / 9, by norm_num, by norm_num, by norm_num, ?_⟩
    norm_num [triPt]

/-! ## Meshes -/

/-- a vertical segment of the plane of abscissa `x`, from -4 to 4 -/
def vert (x : ℚ) : List ℚ := [x, -4, x, 4]

/-- sixteen vertical segments, the first at the abscissa 3, the second at -3, the others farther from the origin -/
def combCoords : List ℚ := [3, -3, -20, -21, -22, -23, -24, -25, -26, -27, 20, 21, 22, 23, 24, 25].flatMap vert

/-- their connectivity -/
def combConn : List Int := (List.range 16).flatMap fun i => [1, 2 * i, 2 * i + 1]

/-- the index of the connectivity -/
def combConnI : List Int := (List.range 17).map fun i => 3 * i

/-- Finding: the id is not the one of the first cell at the minimal distance, as announced.  The cells 0 and 1 are both at the distance 3 of the origin, the cell 1 is returned.  (The square root of the rationals is exact on squares, which are the only numbers it gets here.) -/
theorem C80_not_first_cell : distanceToPoints 1 2 combCoords combConn combConnI Rat.sqrt (1 / 10 ^ 12) 1000000 (fun _ _ => throwX) 2 [[0, 0]] = .ok [(3, 1)] ∧
    curveCellDist Rat.sqrt combCoords [0, 0] ⟨1, [0, 1]⟩ = .ok 3 ∧ (∀ q : ℚ, Rat.sqrt (q * q) = |q|) := by
  refine ⟨by decide +kernel, by decide +kernel, Rat.sqrt_eq⟩

/-- Finding: when the closest cell is reduced to a point, no candidate is kept although there are cells: the address of the first element of an empty vector is taken, and the distance would be the largest double with the cell id -1. -/
theorem C80_point_cell_lost : distanceToPoints 1 2 [(1 : ℚ), 0, 1, 0, 10, 0, 10, 5] [1, 0, 1, 1, 2, 3] [0, 3, 6] Rat.sqrt (1 / 10 ^ 12) 1000000 (fun _ _ => throwX) 2 [[0, 0]] = .error .ub ∧
    curveCellDist Rat.sqrt [(1 : ℚ), 0, 1, 0, 10, 0, 10, 5] [0, 0] ⟨1, [0, 1]⟩ = .ok 1 := by
  refine ⟨by decide +kernel, by decide +kernel⟩

omit [IsStrictOrderedRing K] in
/-- Requests which are refused. -/
theorem C80_throws (meshDim : Int) (spaceDim : Nat) (coords : List K) (conn connI : List Int) (sqrtF : K → K) (tiny big : K) (polyDist : List K → List Int → M K)
    (nbComp : Nat) (pts : List (List K)) (h : meshDim ≠ spaceDim - 1 ∨ (meshDim ≠ 1 ∧ meshDim ≠ 2) ∨ nbComp ≠ spaceDim ∨ connI.length ≤ 1) :
    distanceToPoints meshDim spaceDim coords conn connI sqrtF tiny big polyDist nbComp pts = .error .exn := by
  unfold distanceToPoints
  by_cases h1 : meshDim ≠ spaceDim - 1
  · rw [if_pos h1]; rfl
  rw [if_neg h1]
  by_cases h2 : meshDim ≠ 2 ∧ meshDim ≠ 1
  · rw [if_pos h2]; rfl
  rw [if_neg h2]
  by_cases h3 : nbComp ≠ spaceDim
  · rw [if_pos h3]; rfl
  rw [if_neg h3, if_pos (by
    rcases h with h | h | h | h
    · exact absurd h h1
    · exact absurd ⟨h.2, h.1⟩ h2
    · exact absurd h h3
    · omega)]
  rfl

omit [IsStrictOrderedRing K] in
/-- A cell which is not a segment in a curve of the plane, when it is one of the candidates: refused. -/
theorem C80_curve_type (sqrtF : K → K) (coords pt : List K) (c : Cell) (h : c.type ≠ 1) : curveCellDist sqrtF coords pt c = .error .exn := by
  unfold curveCellDist; rw [if_neg h]; rfl

/-- Finding, seen from the mesh: the distance of a point to a mesh made of one triangle is too large. -/
theorem C80_surface_too_far (sqrtF : K → K) (hs : IsSqrt sqrtF) (tiny big : K) (hb : 1200 < big) (polyDist : List K → List Int → M K) :
    ∃ r, distanceToPoints 2 3 [(0 : K), 0, 0, 10, 0, 0, 0, 1, 0] [3, 0, 1, 2] [0, 4] sqrtF tiny big polyDist 3 [[-1, 2, 0]] = .ok [(r, 0)] ∧ 97 < r * r ∧
      ∃ q, InTriCell [(0 : K), 0, 0, 10, 0, 0, 0, 1, 0] ⟨3, [0, 1, 2]⟩ q ∧ sq3 ⟨-1, 2, 0⟩ q = 2 := by
  obtain ⟨f1, f2, f3⟩ := C79_triangle_too_far sqrtF hs tiny
  have hM : IsMesh [3, 0, 1, 2] [0, 4] [⟨3, [0, 1, 2]⟩] := by decide
  have hbb : boundingBoxFast 3 [(0 : K), 0, 0, 10, 0, 0, 0, 1, 0] big [3, 0, 1, 2] [0, 4] = .ok [0, 10, 0, 1, 0, 0] := by
    rw [boundingBoxFast_ok hM (by intro c hc; rw [List.mem_singleton.mp hc]; simp [validNodes])]
    have h1 : ∀ x : K, |x| ≤ 10 → min big x = x ∧ max (-big) x = x := by
      intro x hx
      have := abs_le.mp hx
      exact ⟨min_eq_right (by linarith), max_eq_right (by linarith)⟩
    have h0 := h1 0 (by norm_num)
    have h10 := h1 10 (by norm_num)
    norm_num [cellRow, validNodes, nodeX, List.range_succ, List.filter, show Int.toNat 2 = 2 from rfl, h0, h10]
  have hbox : boxOf 3 [(0 : K), 10, 0, 1, 0, 0] 0 = [(0, 10), (0, 1), (0, 0)] := by
    norm_num [boxOf, List.range_succ, boxLo, boxHi]
  obtain ⟨t, t1, t2⟩ := onePoint (dim := 3) (by omega) hM (bbs := [(0 : K), 10, 0, 1, 0, 0]) (big := big) (by linarith) (fun e he => by
    have he : e = 0 := by simpa using he
    subst he
    refine ⟨by simp, ?_, ?_⟩
    · rw [hbox]; intro b hb; fin_cases hb <;> norm_num
    · rw [hbox]; exact ⟨(0, 10), by simp, by norm_num⟩) hs
  obtain ⟨e, he, e1, -⟩ := t2 [-1, 2, 0] rfl (surfCellDist sqrtF tiny polyDist [(0 : K), 0, 0, 10, 0, 0, 0, 1, 0])
    (fun _ => distTri3 sqrtF tiny ⟨-1, 2, 0⟩ ⟨0, 0, 0⟩ ⟨10, 0, 0⟩ ⟨0, 1, 0⟩) (fun _ => [880 / 101, 13 / 101, 0]) (fun e he => by
    have he : e = 0 := by simpa using he
    subst he
    refine ⟨rfl, ?_, ?_, ?_⟩
    · have e0 : distTri3 sqrtF tiny ⟨-1, 2, 0⟩ ⟨0, 0, 0⟩ ⟨10, 0, 0⟩ ⟨0, 1, 0⟩ = sqrtF (998082 / 10201) := by
        norm_num [distTri3, dot3, sub3, triHelper2]
      rw [e0]; exact (hs _ (by norm_num)).1
    · rw [hbox]
      unfold PtIn
      norm_num
    · rw [f1]; norm_num [sqDist]) ⟨0, by simp, by
      intro q hq
      rw [hbox] at hq
      unfold PtIn at hq
      rcases hq with _ | ⟨q0, hq⟩
      rcases hq with _ | ⟨q1, hq⟩
      rcases hq with _ | ⟨q2, hq⟩
      rcases hq with _ | _
      simp only at q0 q1 q2
      unfold sqDist
      simp only [List.zipWith_cons_cons, List.zipWith_nil_right, List.sum_cons, List.sum_nil]
      nlinarith⟩
  have he : e = 0 := by simpa using he
  subst he
  refine ⟨distTri3 sqrtF tiny ⟨-1, 2, 0⟩ ⟨0, 0, 0⟩ ⟨10, 0, 0⟩ ⟨0, 1, 0⟩, ?_, ?_, ⟨0, 1, 0⟩, ⟨0, 1, 2, rfl, ?_⟩, f3⟩
  · unfold distanceToPoints
    rw [if_neg (by norm_num), if_neg (by norm_num), if_neg (by simp), if_neg (by simp), hbb, ok_bind]
    have : bbTreeDst 3 [(0 : K), 10, 0, 1, 0, 0] none (([0, 4] : List Int).length - 1) big = .ok t := t1
    rw [this, ok_bind, if_pos rfl, List.mapM_cons, e1, ok_bind]
    rfl
  · rw [f1]; norm_num
  · have : node3 [(0 : K), 0, 0, 10, 0, 0, 0, 1, 0] 0 = ⟨0, 0, 0⟩ ∧ node3 [(0 : K), 0, 0, 10, 0, 0, 0, 1, 0] 1 = ⟨10, 0, 0⟩ ∧
        node3 [(0 : K), 0, 0, 10, 0, 0, 0, 1, 0] 2 = ⟨0, 1, 0⟩ := ⟨rfl, rfl, rfl⟩
    rw [this.1, this.2.1, this.2.2]
    exact f2

/-! The hypotheses of the theorems on the meshes -/

example : ∃ res, distanceToPoints 1 2 [(0 : ℝ), 0, 1, 0, 1, 1] [1, 0, 1, 1, 1, 2] [0, 3, 6] Real.sqrt 1 1000 (fun _ _ => throwX) 2 (([⟨2, 2⟩, ⟨0, 5⟩] : List (V2 ℝ)).map fun p => [p.x, p.y]) = .ok res ∧
    res.length = 2 := by
  obtain ⟨res, h1, h2⟩ := C80_curve (coords := [(0 : ℝ), 0, 1, 0, 1, 1]) (conn := [1, 0, 1, 1, 1, 2]) (connI := [0, 3, 6]) (cells := [⟨1, [0, 1]⟩, ⟨1, [1, 2]⟩])
    (by decide) (by simp) (by
      intro c hc
      fin_cases hc
      · exact ⟨0, 1, rfl, by norm_num [IsNode], by norm_num [IsNode], by norm_num [node2, nodeX, show Int.toNat 2 = 2 from rfl, show Int.toNat 3 = 3 from rfl]⟩
      · exact ⟨1, 2, rfl, by norm_num [IsNode], by norm_num [IsNode], by norm_num [node2, nodeX, show Int.toNat 2 = 2 from rfl, show Int.toNat 3 = 3 from rfl]⟩) realSqrt_isSqrt (m := 5) (big := 1000) (by norm_num) (by norm_num)
    (by intro x hx; fin_cases hx <;> norm_num) 1 (fun _ _ => throwX) [⟨2, 2⟩, ⟨0, 5⟩] (by intro p hp; fin_cases hp <;> norm_num)
  exact ⟨res, h1, by rw [← h2.length_eq]; rfl⟩

example : ∃ res, distanceToPoints 2 3 [(0 : ℝ), 0, 0, 1, 0, 0, 0, 1, 0, 0, 0, 1] [3, 0, 1, 2, 3, 0, 1, 3] [0, 4, 8] Real.sqrt (1 / 10 ^ 12) 1000 (fun _ _ => throwX) 3
      (([⟨2, 2, 2⟩] : List (V3 ℝ)).map fun p => [p.x, p.y, p.z]) = .ok res ∧ res.length = 1 := by
  obtain ⟨res, h1, h2⟩ := C80_surface (coords := [(0 : ℝ), 0, 0, 1, 0, 0, 0, 1, 0, 0, 0, 1]) (conn := [3, 0, 1, 2, 3, 0, 1, 3]) (connI := [0, 4, 8]) (cells := [⟨3, [0, 1, 2]⟩, ⟨3, [0, 1, 3]⟩])
    (by decide) (by simp) (tiny := 1 / 10 ^ 12) (by norm_num) (pts := [⟨2, 2, 2⟩]) (by
      intro c hc
      fin_cases hc
      · refine ⟨0, 1, 2, rfl, by norm_num [IsNode], by norm_num [IsNode], by norm_num [IsNode], by norm_num [node3, nodeX, show Int.toNat 2 = 2 from rfl, show Int.toNat 3 = 3 from rfl], ?_⟩
        intro p _
        exact ⟨Or.inr (by norm_num [triDet, dot3, sub3, node3, nodeX, show Int.toNat 2 = 2 from rfl, show Int.toNat 3 = 3 from rfl]), fun _ _ => by norm_num [sq3, node3, nodeX, show Int.toNat 2 = 2 from rfl, show Int.toNat 3 = 3 from rfl]⟩
      · refine ⟨0, 1, 3, rfl, by norm_num [IsNode], by norm_num [IsNode], by norm_num [IsNode], by norm_num [node3, nodeX, show Int.toNat 2 = 2 from rfl, show Int.toNat 3 = 3 from rfl], ?_⟩
        intro p _
        exact ⟨Or.inr (by norm_num [triDet, dot3, sub3, node3, nodeX, show Int.toNat 2 = 2 from rfl, show Int.toNat 3 = 3 from rfl]), fun _ _ => by norm_num [sq3, node3, nodeX, show Int.toNat 2 = 2 from rfl, show Int.toNat 3 = 3 from rfl]⟩) realSqrt_isSqrt (m := 3) (big := 1000) (by norm_num) (by norm_num)
    (by intro x hx; fin_cases hx <;> norm_num) (fun _ _ => throwX) (by intro p hp; rw [List.mem_singleton.mp hp]; norm_num)
  exact ⟨res, h1, by rw [← h2.length_eq]; rfl⟩

end
end MC
