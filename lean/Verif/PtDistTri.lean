import Verif.PtDistProps

/-!
# The distance from a point to a triangle of the space (C79)

The squared distance from the point to `p0 + s * edge0 + t * edge1` is a quadratic function of `s` and `t`.  A point of the triangle is the closest one as soon as the slope of this function is not negative in the directions staying in the triangle.
-/

namespace MC
section
variable {K : Type} [Field K] [LinearOrder K] [IsStrictOrderedRing K]

/-- `v` is the value of the quadratic function at a point of the triangle where the slopes are not negative -/
def TriBest (a00 a01 a11 b0 b1 c v : K) : Prop :=
  ∃ s t : K, 0 ≤ s ∧ 0 ≤ t ∧ s + t ≤ 1 ∧
    v = s * (a00 * s + a01 * t + 2 * b0) + t * (a01 * s + a11 * t + 2 * b1) + c ∧
    ∀ u w : K, 0 ≤ u → 0 ≤ w → u + w ≤ 1 →
      0 ≤ (u - s) * (a00 * s + a01 * t + b0) + (w - t) * (a01 * s + a11 * t + b1)

variable {a00 a01 a11 b0 b1 c : K}

omit [IsStrictOrderedRing K] in
theorem TriBest.swap {v : K} (h : TriBest a11 a01 a00 b1 b0 c v) : TriBest a00 a01 a11 b0 b1 c v := by
  obtain ⟨s, t, hs, ht, hst, hv, hk⟩ := h
  refine ⟨t, s, ht, hs, by rw [add_comm]; exact hst, by rw [hv]; ring, ?_⟩
  intro u w hu hw huw
  have := hk w u hw hu (by rw [add_comm]; exact huw)
  have e : (u - t) * (a00 * t + a01 * s + b0) + (w - s) * (a01 * t + a11 * s + b1) =
    (w - s) * (a11 * s + a01 * t + b1) + (u - t) * (a01 * s + a00 * t + b0) := by ring
  rw [e]; exact this

theorem best_00 (h0 : 0 ≤ b0) (h1 : 0 ≤ b1) : TriBest a00 a01 a11 b0 b1 c c := by
  refine ⟨0, 0, le_refl _, le_refl _, by simp, by ring, ?_⟩
  intro u w hu hw _
  have := mul_nonneg hu h0
  have := mul_nonneg hw h1
  nlinarith

theorem best_10 (h0 : a00 + b0 ≤ 0) (h1 : a00 + b0 ≤ a01 + b1) : TriBest a00 a01 a11 b0 b1 c (a00 + 2 * b0 + c) := by
  refine ⟨1, 0, zero_le_one, le_refl _, by simp, by ring, ?_⟩
  intro u w hu hw h
  have := mul_nonneg hw (sub_nonneg.mpr h1)
  have := mul_nonneg (sub_nonneg.mpr h) (neg_nonneg.mpr h0)
  nlinarith

theorem best_01 (h0 : a11 + b1 ≤ 0) (h1 : a11 + b1 ≤ a01 + b0) : TriBest a00 a01 a11 b0 b1 c (a11 + 2 * b1 + c) :=
  (best_10 h0 h1).swap

theorem best_t0 (h0 : b0 < 0) (h1 : -b0 < a00) (hT : a01 * b0 - a00 * b1 ≤ 0) : TriBest a00 a01 a11 b0 b1 c (b0 * (-b0 / a00) + c) := by
  have hp : 0 < a00 := by linarith
  have e0 : a00 * (-b0 / a00) = -b0 := by field_simp
  refine ⟨-b0 / a00, 0, div_nonneg (by linarith) hp.le, le_refl _, ?_, ?_, ?_⟩
  · rw [add_zero]; exact (div_le_one hp).mpr h1.le
  · rw [e0]; ring
  · intro u w hu hw h
    rw [e0]
    have : 0 ≤ a01 * (-b0 / a00) + b1 := by
      have : a01 * (-b0 / a00) + b1 = (a00 * b1 - a01 * b0) / a00 := by field_simp; ring
      rw [this]
      exact div_nonneg (by linarith) hp.le
    have := mul_nonneg hw this
    nlinarith

theorem best_s0 (h0 : b1 < 0) (h1 : -b1 < a11) (hS : a01 * b1 - a11 * b0 ≤ 0) : TriBest a00 a01 a11 b0 b1 c (b1 * (-b1 / a11) + c) :=
  (best_t0 h0 h1 hS).swap

theorem best_edge (h0 : 0 < a11 + b1 - a01 - b0) (h1 : a11 + b1 - a01 - b0 < a00 - 2 * a01 + a11)
    (hD : a00 * a11 - a01 * a01 ≤ (a01 * b1 - a11 * b0) + (a01 * b0 - a00 * b1)) (s : K)
    (hs : s = (a11 + b1 - a01 - b0) / (a00 - 2 * a01 + a11)) :
    TriBest a00 a01 a11 b0 b1 c (s * (a00 * s + a01 * (1 - s) + 2 * b0) + (1 - s) * (a01 * s + a11 * (1 - s) + 2 * b1) + c) := by
  have hp : 0 < a00 - 2 * a01 + a11 := lt_trans h0 h1
  have hse : s * (a00 - 2 * a01 + a11) = a11 + b1 - a01 - b0 := by rw [hs, div_mul_cancel₀ _ hp.ne']
  have h0s : 0 ≤ s := by rw [hs]; exact div_nonneg h0.le hp.le
  have hs1 : s ≤ 1 := by rw [hs]; exact (div_le_one hp).mpr h1.le
  refine ⟨s, 1 - s, h0s, by linarith, by linarith, rfl, ?_⟩
  intro u w hu hw h
  have e1 : a01 * s + a11 * (1 - s) + b1 = a00 * s + a01 * (1 - s) + b0 := by linear_combination -hse
  have hg : a00 * s + a01 * (1 - s) + b0 ≤ 0 := by
    have : (a00 * s + a01 * (1 - s) + b0) * (a00 - 2 * a01 + a11) ≤ 0 := by
      have e2 : (a00 * s + a01 * (1 - s) + b0) * (a00 - 2 * a01 + a11) =
          (a00 * a11 - a01 * a01) - ((a01 * b1 - a11 * b0) + (a01 * b0 - a00 * b1)) := by
        linear_combination (a00 - a01) * hse
      rw [e2]; linarith
    by_contra hh
    exact absurd (mul_pos (not_le.mp hh) hp) (not_lt.mpr this)
  rw [e1]
  have := mul_nonneg (sub_nonneg.mpr h) (neg_nonneg.mpr hg)
  nlinarith

theorem best_int (hD : 0 < a00 * a11 - a01 * a01) (hS : 0 ≤ a01 * b1 - a11 * b0) (hT : 0 ≤ a01 * b0 - a00 * b1)
    (hST : (a01 * b1 - a11 * b0) + (a01 * b0 - a00 * b1) ≤ a00 * a11 - a01 * a01) (s t : K)
    (hs : s = (a01 * b1 - a11 * b0) * (1 / (a00 * a11 - a01 * a01))) (ht : t = (a01 * b0 - a00 * b1) * (1 / (a00 * a11 - a01 * a01))) :
    TriBest a00 a01 a11 b0 b1 c (s * (a00 * s + a01 * t + 2 * b0) + t * (a01 * s + a11 * t + 2 * b1) + c) := by
  have hi : 0 < 1 / (a00 * a11 - a01 * a01) := by positivity
  have e0 : (a00 * a11 - a01 * a01) * (1 / (a00 * a11 - a01 * a01)) = 1 := mul_one_div_cancel hD.ne'
  refine ⟨s, t, by rw [hs]; positivity, by rw [ht]; positivity, ?_, rfl, ?_⟩
  · have := mul_le_mul_of_nonneg_right hST hi.le
    rw [e0, add_mul, ← hs, ← ht] at this
    exact this
  · intro u w _ _ _
    have e1 : a00 * s + a01 * t + b0 = 0 := by
      rw [hs, ht]
      linear_combination (-b0) * e0
    have e2 : a01 * s + a11 * t + b1 = 0 := by
      rw [hs, ht]
      linear_combination (-b1) * e0
    rw [e1, e2]; simp

/-- two linear inequalities against the sign of a determinant -/
theorem cross_lt {α β γ x y : K} (hβ : 0 ≤ β) (hγ : 0 ≤ γ) (hd : α * α ≤ β * γ) (hx : 0 < x) (hy : 0 < y)
    (h1 : β * y ≤ α * x) (h2 : γ * x < α * y) : False := by
  have hα : 0 < α := by
    by_contra hh
    have : α * y ≤ 0 := mul_nonpos_of_nonpos_of_nonneg (not_lt.mp hh) hy.le
    have : 0 ≤ γ * x := mul_nonneg hγ hx.le
    linarith
  have hb : 0 < β := by
    rcases hβ.lt_or_eq with h | h
    · exact h
    · rw [← h, zero_mul] at hd
      have := mul_pos hα hα
      linarith
  have a1 : β * y * (γ * x) < β * y * (α * y) := mul_lt_mul_of_pos_left h2 (mul_pos hb hy)
  have a2 : β * y * (α * y) ≤ α * x * (α * y) := mul_le_mul_of_nonneg_right h1 (mul_pos hα hy).le
  have a3 : α * α * (x * y) ≤ β * γ * (x * y) := mul_le_mul_of_nonneg_right hd (mul_pos hx hy).le
  nlinarith

theorem cross_lt' {α β γ x y : K} (hβ : 0 ≤ β) (hγ : 0 ≤ γ) (hd : α * α ≤ β * γ) (hx : 0 < x) (hy : 0 < y)
    (h1 : β * y < α * x) (h2 : γ * x ≤ α * y) : False :=
  cross_lt hγ hβ (by rw [mul_comm γ]; exact hd) hy hx h2 h1

/-- the corner `p0` -/
theorem vert_00 (h00 : 0 ≤ a00) (h11 : 0 ≤ a11) (hD : 0 ≤ a00 * a11 - a01 * a01) (hS : a01 * b1 - a11 * b0 < 0)
    (hT : 0 ≤ a01 * b0 - a00 * b1) (h1 : 0 ≤ b1) : 0 ≤ b0 := by
  by_contra hh
  have hb : 0 < -b0 := by linarith [not_le.mp hh]
  have hb1 : 0 < b1 := by
    rcases h1.lt_or_eq with h | h
    · exact h
    · exfalso
      rw [← h, mul_zero, zero_sub] at hS
      have := mul_nonneg h11 hb.le
      linarith
  exact cross_lt' (α := -a01) (β := a11) (γ := a00) (x := b1) (y := -b0) h11 h00 (by linarith [mul_comm a00 a11, neg_mul_neg a01 a01])
    hb1 hb (by linarith [neg_mul a01 b1, mul_neg a11 b0]) (by linarith [neg_mul_neg a01 b0])

/-- the corner `p2`, from the inner side of the edge `p1 p2` -/
theorem vert_01_in (h11 : 0 ≤ a11) (hE : 0 ≤ a00 - 2 * a01 + a11) (hD : 0 ≤ a00 * a11 - a01 * a01)
    (hS : a01 * b1 - a11 * b0 < 0) (hST : (a01 * b1 - a11 * b0) + (a01 * b0 - a00 * b1) ≤ a00 * a11 - a01 * a01)
    (h1 : a11 + b1 ≤ 0) : a11 + b1 ≤ a01 + b0 := by
  by_contra hh
  have hw : 0 < (a11 + b1) - (a01 + b0) := by linarith [not_le.mp hh]
  -- the two inequalities in terms of `v = -(a11 + b1)` and `w`
  have i1 : a11 * ((a11 + b1) - (a01 + b0)) < (a01 - a11) * (-(a11 + b1)) := by nlinarith
  have i2 : (a00 - 2 * a01 + a11) * (-(a11 + b1)) ≤ (a01 - a11) * ((a11 + b1) - (a01 + b0)) := by nlinarith
  have hv : 0 < -(a11 + b1) := by
    rcases (neg_nonneg.mpr h1).lt_or_eq with h | h
    · exact h
    · exfalso
      rw [← h, mul_zero] at i1
      have := mul_nonneg h11 hw.le
      linarith
  exact cross_lt' h11 hE (by nlinarith) hv hw i1 i2

/-- the corner `p2`, from the outer side of the edge `p1 p2` -/
theorem vert_01_out (h11 : 0 ≤ a11) (hE : 0 ≤ a00 - 2 * a01 + a11) (hD : 0 ≤ a00 * a11 - a01 * a01)
    (hS : 0 ≤ a01 * b1 - a11 * b0) (hST : a00 * a11 - a01 * a01 < (a01 * b1 - a11 * b0) + (a01 * b0 - a00 * b1))
    (h1 : a11 + b1 ≤ a01 + b0) : a11 + b1 ≤ 0 := by
  by_contra hh
  have hv : 0 < a11 + b1 := not_le.mp hh
  have i1 : a11 * ((a01 + b0) - (a11 + b1)) ≤ (a01 - a11) * (a11 + b1) := by nlinarith
  have i2 : (a00 - 2 * a01 + a11) * (a11 + b1) < (a01 - a11) * ((a01 + b0) - (a11 + b1)) := by nlinarith
  have hw : 0 < (a01 + b0) - (a11 + b1) := by
    rcases (sub_nonneg.mpr h1).lt_or_eq with h | h
    · exact h
    · exfalso
      rw [← h, mul_zero] at i2
      have := mul_nonneg hE hv.le
      linarith
  exact cross_lt h11 hE (by nlinarith) hv hw i1 i2

/-! ## The regions -/

theorem best_helper1 (h00 : 0 ≤ a00) (h11 : 0 ≤ a11) (hE : 0 ≤ a00 - 2 * a01 + a11) (hD : 0 ≤ a00 * a11 - a01 * a01)
    (hS : a01 * b1 - a11 * b0 < 0) (hST : (a01 * b1 - a11 * b0) + (a01 * b0 - a00 * b1) ≤ a00 * a11 - a01 * a01)
    (hT : 0 ≤ a01 * b0 - a00 * b1 ∨ 0 ≤ b0) : TriBest a00 a01 a11 b0 b1 c (triHelper1 a11 b1 c) := by
  unfold triHelper1
  by_cases h1 : b1 ≥ 0
  · rw [if_pos h1]
    refine best_00 ?_ h1
    rcases hT with hT | hT
    · exact vert_00 h00 h11 hD hS hT h1
    · exact hT
  · rw [if_neg h1]
    by_cases h2 : -b1 ≥ a11
    · rw [if_pos h2]
      have : a11 + b1 ≤ 0 := by linarith
      exact best_01 this (vert_01_in h11 hE hD hS hST this)
    · rw [if_neg h2]
      exact best_s0 (not_le.mp h1) (not_le.mp h2) hS.le

theorem best_helper2 (h00 : 0 ≤ a00) (h11 : 0 ≤ a11) (hE : 0 ≤ a00 - 2 * a01 + a11) (hD : 0 ≤ a00 * a11 - a01 * a01)
    (heq : a00 = a11)
    (hS : a01 * b1 - a11 * b0 < 0) (hST : a00 * a11 - a01 * a01 < (a01 * b1 - a11 * b0) + (a01 * b0 - a00 * b1)) :
    TriBest a00 a01 a11 b0 b1 c (triHelper2 a01 a00 a11 b0 b1 c) := by
  have hT : 0 ≤ a01 * b0 - a00 * b1 := by linarith
  unfold triHelper2
  simp only
  by_cases h1 : a00 + b1 > a01 + b0
  · rw [if_pos h1]
    by_cases h2 : a00 + b1 - (a01 + b0) ≥ a00 - 2 * a01 + a11
    · rw [if_pos h2]
      have h3 : a00 + b0 ≤ a01 + b1 := by linarith
      refine best_10 (vert_01_out (a00 := a11) (b0 := b1) h00 (by linarith) (by linarith [mul_comm a00 a11]) hT ?_ h3) h3
      linarith [mul_comm a00 a11]
    · rw [if_neg h2]
      exact best_edge (by linarith) (by linarith [not_le.mp h2]) hST.le _ (by congr 1; rw [heq]; ring)
  · rw [if_neg h1]
    have h1' := not_lt.mp h1
    by_cases h2 : a00 + b1 ≤ 0
    · rw [if_pos h2]
      exact best_01 (by linarith) (by linarith)
    · rw [if_neg h2]
      by_cases h3 : b1 ≥ 0
      · rw [if_pos h3]
        exact best_00 (vert_00 h00 h11 hD hS hT h3) h3
      · rw [if_neg h3]
        exact best_s0 (not_le.mp h3) (by linarith [not_le.mp h2]) hS.le

/-- the closest point of the triangle, from the slopes -/
theorem tri_min (pt p0 p1 p2 : V3 K) (s t u w : K)
    (h : 0 ≤ (u - s) * (dot3 (sub3 p1 p0) (sub3 p1 p0) * s + dot3 (sub3 p1 p0) (sub3 p2 p0) * t + dot3 (sub3 p0 pt) (sub3 p1 p0))
      + (w - t) * (dot3 (sub3 p1 p0) (sub3 p2 p0) * s + dot3 (sub3 p2 p0) (sub3 p2 p0) * t + dot3 (sub3 p0 pt) (sub3 p2 p0))) :
    sq3 pt (triPt p0 p1 p2 s t) ≤ sq3 pt (triPt p0 p1 p2 u w) := by
  have hq : 0 ≤ ((u - s) * (p1.x - p0.x) + (w - t) * (p2.x - p0.x)) ^ 2 + ((u - s) * (p1.y - p0.y) + (w - t) * (p2.y - p0.y)) ^ 2
    + ((u - s) * (p1.z - p0.z) + (w - t) * (p2.z - p0.z)) ^ 2 := by positivity
  have e : sq3 pt (triPt p0 p1 p2 u w) = sq3 pt (triPt p0 p1 p2 s t) +
      2 * ((u - s) * (dot3 (sub3 p1 p0) (sub3 p1 p0) * s + dot3 (sub3 p1 p0) (sub3 p2 p0) * t + dot3 (sub3 p0 pt) (sub3 p1 p0))
      + (w - t) * (dot3 (sub3 p1 p0) (sub3 p2 p0) * s + dot3 (sub3 p2 p0) (sub3 p2 p0) * t + dot3 (sub3 p0 pt) (sub3 p2 p0))) +
      (((u - s) * (p1.x - p0.x) + (w - t) * (p2.x - p0.x)) ^ 2 + ((u - s) * (p1.y - p0.y) + (w - t) * (p2.y - p0.y)) ^ 2
    + ((u - s) * (p1.z - p0.z) + (w - t) * (p2.z - p0.z)) ^ 2) := by
    unfold sq3 triPt dot3 sub3; simp only; ring
  linarith

theorem TriBest.dist (sqrtF : K → K) (hs : IsSqrt sqrtF) (pt p0 p1 p2 : V3 K) {v : K}
    (h : TriBest (dot3 (sub3 p1 p0) (sub3 p1 p0)) (dot3 (sub3 p1 p0) (sub3 p2 p0)) (dot3 (sub3 p2 p0) (sub3 p2 p0))
      (dot3 (sub3 p0 pt) (sub3 p1 p0)) (dot3 (sub3 p0 pt) (sub3 p2 p0)) (dot3 (sub3 p0 pt) (sub3 p0 pt)) v) :
    IsDist3 (sqrtF (if v < 0 then 0 else v)) pt (InTri3 p0 p1 p2) := by
  obtain ⟨s, t, h0, h1, h2, hv, hk⟩ := h
  have e : sq3 pt (triPt p0 p1 p2 s t) = v := by
    rw [hv]
    unfold sq3 triPt dot3 sub3; simp only; ring
  have hv0 : ¬ v < 0 := by
    rw [← e, not_lt]; unfold sq3; positivity
  rw [if_neg hv0]
  refine sqrt_isDist3 _ hs _ _ _ _ ⟨s, t, h0, h1, h2, rfl⟩ e ?_
  rintro q ⟨u, w, hu, hw, huw, rfl⟩
  rw [← e]
  exact tri_min _ _ _ _ _ _ _ _ (hk u w hu hw huw)

/-- the signed corner test of the point against the edge `p0 p2`: negative when the projection of the point on the plane of the triangle is beyond this edge -/
def triS (pt p0 p1 p2 : V3 K) : K :=
  dot3 (sub3 p1 p0) (sub3 p2 p0) * dot3 (sub3 p0 pt) (sub3 p2 p0) - dot3 (sub3 p2 p0) (sub3 p2 p0) * dot3 (sub3 p0 pt) (sub3 p1 p0)

/-- the same against the edge `p0 p1` -/
def triT (pt p0 p1 p2 : V3 K) : K :=
  dot3 (sub3 p1 p0) (sub3 p2 p0) * dot3 (sub3 p0 pt) (sub3 p1 p0) - dot3 (sub3 p1 p0) (sub3 p1 p0) * dot3 (sub3 p0 pt) (sub3 p2 p0)

/-- four times the square of the area of the triangle -/
def triDet (p0 p1 p2 : V3 K) : K :=
  dot3 (sub3 p1 p0) (sub3 p1 p0) * dot3 (sub3 p2 p0) (sub3 p2 p0) - dot3 (sub3 p1 p0) (sub3 p2 p0) * dot3 (sub3 p1 p0) (sub3 p2 p0)

theorem triDet_nonneg (p0 p1 p2 : V3 K) : 0 ≤ triDet p0 p1 p2 := by
  unfold triDet dot3 sub3
  simp only
  have : 0 ≤ ((p1.x - p0.x) * (p2.y - p0.y) - (p1.y - p0.y) * (p2.x - p0.x)) ^ 2 + ((p1.y - p0.y) * (p2.z - p0.z) - (p1.z - p0.z) * (p2.y - p0.y)) ^ 2
    + ((p1.z - p0.z) * (p2.x - p0.x) - (p1.x - p0.x) * (p2.z - p0.z)) ^ 2 := by positivity
  nlinarith

theorem dot3_self_nonneg (a : V3 K) : 0 ≤ dot3 a a := by
  unfold dot3
  have := mul_self_nonneg a.x
  have := mul_self_nonneg a.y
  have := mul_self_nonneg a.z
  linarith

theorem dot3_self_eq_zero {a : V3 K} (h : dot3 a a = 0) : a = ⟨0, 0, 0⟩ := by
  unfold dot3 at h
  have h1 := mul_self_nonneg a.x
  have h2 := mul_self_nonneg a.y
  have h3 := mul_self_nonneg a.z
  have e1 : a.x * a.x = 0 := by linarith
  have e2 : a.y * a.y = 0 := by linarith
  have e3 : a.z * a.z = 0 := by linarith
  cases a
  simp only at e1 e2 e3
  rw [mul_self_eq_zero.mp e1, mul_self_eq_zero.mp e2, mul_self_eq_zero.mp e3]

/-- a point between 1 and `k` on a line -/
theorem between_one (k x : K) (h : (1 ≤ x ∧ x ≤ k) ∨ (k ≤ x ∧ x ≤ 1)) : ∃ r : K, 0 ≤ r ∧ r ≤ 1 ∧ x = 1 + r * (k - 1) := by
  by_cases hk : k = 1
  · refine ⟨0, le_refl _, zero_le_one, ?_⟩
    rcases h with ⟨h1, h2⟩ | ⟨h1, h2⟩ <;> linarith
  · have hk' : k - 1 ≠ 0 := sub_ne_zero.mpr hk
    refine ⟨(x - 1) / (k - 1), ?_, ?_, ?_⟩
    · rcases h with ⟨h1, h2⟩ | ⟨h1, h2⟩
      · exact div_nonneg (by linarith) (by linarith)
      · exact div_nonneg_of_nonpos (by linarith) (by linarith)
    · rcases h with ⟨h1, h2⟩ | ⟨h1, h2⟩
      · exact (div_le_one (lt_of_le_of_ne (by linarith) (Ne.symm hk'))).mpr (by linarith)
      · rw [div_le_one_iff]
        exact Or.inr (Or.inr ⟨lt_of_le_of_ne (by linarith) hk', by linarith⟩)
    · rw [div_mul_cancel₀ _ hk']; ring

/-- a flat triangle is the union of its edges `p0 p1` and `p1 p2` -/
theorem flat_tri (p0 p1 p2 : V3 K) (h : triDet p0 p1 p2 = 0) (q : V3 K) :
    InTri3 p0 p1 p2 q ↔ OnSeg3 p0 p1 q ∨ OnSeg3 p1 p2 q := by
  constructor
  · rintro ⟨s, t, hs, ht, hst, rfl⟩
    by_cases h0 : dot3 (sub3 p1 p0) (sub3 p1 p0) = 0
    · right
      have e := dot3_self_eq_zero h0
      have ex : p1.x - p0.x = 0 := congrArg V3.x e
      have ey : p1.y - p0.y = 0 := congrArg V3.y e
      have ez : p1.z - p0.z = 0 := congrArg V3.z e
      refine ⟨t, ht, by linarith, ?_⟩
      unfold triPt
      rw [sub_eq_zero.mp ex, sub_eq_zero.mp ey, sub_eq_zero.mp ez]
      simp
    · set k := dot3 (sub3 p1 p0) (sub3 p2 p0) / dot3 (sub3 p1 p0) (sub3 p1 p0) with hk
      have hka : k * dot3 (sub3 p1 p0) (sub3 p1 p0) = dot3 (sub3 p1 p0) (sub3 p2 p0) := div_mul_cancel₀ _ h0
      have hz : dot3 (⟨p2.x - p0.x - k * (p1.x - p0.x), p2.y - p0.y - k * (p1.y - p0.y), p2.z - p0.z - k * (p1.z - p0.z)⟩ : V3 K)
          ⟨p2.x - p0.x - k * (p1.x - p0.x), p2.y - p0.y - k * (p1.y - p0.y), p2.z - p0.z - k * (p1.z - p0.z)⟩ = 0 := by
        have e1 : dot3 (⟨p2.x - p0.x - k * (p1.x - p0.x), p2.y - p0.y - k * (p1.y - p0.y), p2.z - p0.z - k * (p1.z - p0.z)⟩ : V3 K)
          ⟨p2.x - p0.x - k * (p1.x - p0.x), p2.y - p0.y - k * (p1.y - p0.y), p2.z - p0.z - k * (p1.z - p0.z)⟩ =
          dot3 (sub3 p2 p0) (sub3 p2 p0) - 2 * k * dot3 (sub3 p1 p0) (sub3 p2 p0) + k * k * dot3 (sub3 p1 p0) (sub3 p1 p0) := by
          unfold dot3 sub3; simp only; ring
        rw [e1]
        have e2 : dot3 (sub3 p1 p0) (sub3 p1 p0) * (dot3 (sub3 p2 p0) (sub3 p2 p0) - 2 * k * dot3 (sub3 p1 p0) (sub3 p2 p0) + k * k * dot3 (sub3 p1 p0) (sub3 p1 p0)) = 0 := by
          unfold triDet at h
          linear_combination h + (k * dot3 (sub3 p1 p0) (sub3 p1 p0) - dot3 (sub3 p1 p0) (sub3 p2 p0)) * hka
        exact (mul_eq_zero.mp e2).resolve_left h0
      have e := dot3_self_eq_zero hz
      have ex : p2.x - p0.x = k * (p1.x - p0.x) := sub_eq_zero.mp (congrArg V3.x e)
      have ey : p2.y - p0.y = k * (p1.y - p0.y) := sub_eq_zero.mp (congrArg V3.y e)
      have ez : p2.z - p0.z = k * (p1.z - p0.z) := sub_eq_zero.mp (congrArg V3.z e)
      have cases3 : (0 ≤ s + t * k ∧ s + t * k ≤ 1) ∨ ((1 ≤ s + t * k ∧ s + t * k ≤ k) ∨ (k ≤ s + t * k ∧ s + t * k ≤ 1)) := by
        rcases le_or_gt 0 (s + t * k) with h1 | h1
        · rcases le_or_gt (s + t * k) 1 with h2 | h2
          · exact Or.inl ⟨h1, h2⟩
          · refine Or.inr (Or.inl ⟨h2.le, ?_⟩)
            have : 1 < k := by
              by_contra hh
              have := mul_le_mul_of_nonneg_left (not_lt.mp hh) ht
              linarith
            nlinarith
        · refine Or.inr (Or.inr ⟨?_, by linarith⟩)
          have : k < 0 := by
            by_contra hh
            have := mul_nonneg ht (not_lt.mp hh)
            linarith
          nlinarith
      rcases cases3 with ⟨h1, h2⟩ | h1
      · left
        refine ⟨s + t * k, h1, h2, ?_⟩
        unfold triPt
        rw [ex, ey, ez]
        congr 1 <;> ring
      · right
        obtain ⟨r, r0, r1, er⟩ := between_one _ _ h1
        refine ⟨r, r0, r1, ?_⟩
        unfold triPt
        rw [ex, ey, ez]
        congr 1
        · linear_combination (p1.x - p0.x) * er - r * ex
        · linear_combination (p1.y - p0.y) * er - r * ey
        · linear_combination (p1.z - p0.z) * er - r * ez
  · rintro (⟨r, r0, r1, rfl⟩ | ⟨r, r0, r1, rfl⟩)
    · refine ⟨r, 0, r0, le_refl _, by linarith, ?_⟩
      unfold triPt; congr 1 <;> ring
    · refine ⟨1 - r, r, by linarith, r0, by linarith, ?_⟩
      unfold triPt; congr 1 <;> ring

theorem min_isDist3 (a b : K) (pt : V3 K) (S T U : V3 K → Prop) (ha : IsDist3 a pt S) (hb : IsDist3 b pt T) (hU : ∀ q, U q ↔ S q ∨ T q) :
    IsDist3 (min a b) pt U := by
  obtain ⟨a0, ⟨qa, hqa, ea⟩, am⟩ := ha
  obtain ⟨b0, ⟨qb, hqb, eb⟩, bm⟩ := hb
  rcases le_total a b with h | h
  · rw [min_eq_left h]
    refine ⟨a0, ⟨qa, (hU qa).mpr (Or.inl hqa), ea⟩, ?_⟩
    intro q hq
    rcases (hU q).mp hq with h1 | h1
    · exact am q h1
    · exact le_trans (mul_le_mul h h a0 b0) (bm q h1)
  · rw [min_eq_right h]
    refine ⟨b0, ⟨qb, (hU qb).mpr (Or.inr hqb), eb⟩, ?_⟩
    intro q hq
    rcases (hU q).mp hq with h1 | h1
    · exact le_trans (mul_le_mul h h b0 a0) (am q h1)
    · exact bm q h1

/-- The distance from a point to a triangle of the space, flat or not: the result is the exact distance as soon as the area is zero or not tiny, and, when the point is beyond two edges including `p1 p2`, the edges `p0 p1` and `p0 p2` have the same length. -/
theorem C79_triangle (sqrtF : K → K) (hs : IsSqrt sqrtF) (tiny : K) (htiny : 0 < tiny) (pt p0 p1 p2 : V3 K)
    (hdet : triDet p0 p1 p2 = 0 ∨ tiny ≤ triDet p0 p1 p2)
    (hreg : triDet p0 p1 p2 < triS pt p0 p1 p2 + triT pt p0 p1 p2 → (triS pt p0 p1 p2 < 0 ∨ triT pt p0 p1 p2 < 0) → sq3 p1 p0 = sq3 p2 p0) :
    IsDist3 (distTri3 sqrtF tiny pt p0 p1 p2) pt (InTri3 p0 p1 p2) := by
  have hD := triDet_nonneg p0 p1 p2
  have h00 := dot3_self_nonneg (sub3 p1 p0)
  have h11 := dot3_self_nonneg (sub3 p2 p0)
  have hE : 0 ≤ dot3 (sub3 p1 p0) (sub3 p1 p0) - 2 * dot3 (sub3 p1 p0) (sub3 p2 p0) + dot3 (sub3 p2 p0) (sub3 p2 p0) := by
    have := dot3_self_nonneg (sub3 p1 p2)
    have e : dot3 (sub3 p1 p2) (sub3 p1 p2) = dot3 (sub3 p1 p0) (sub3 p1 p0) - 2 * dot3 (sub3 p1 p0) (sub3 p2 p0) + dot3 (sub3 p2 p0) (sub3 p2 p0) := by
      unfold dot3 sub3; simp only; ring
    rw [← e]; exact this
  have hsq : ∀ a b : V3 K, sq3 a b = dot3 (sub3 a b) (sub3 a b) := by
    intro a b; unfold sq3 dot3 sub3; simp only; ring
  have hD' := hD
  have hE' : 0 ≤ dot3 (sub3 p2 p0) (sub3 p2 p0) - 2 * dot3 (sub3 p1 p0) (sub3 p2 p0) + dot3 (sub3 p1 p0) (sub3 p1 p0) := by linarith
  have fin : ∀ {v : K}, _ → IsDist3 (sqrtF (if v < 0 then 0 else v)) pt (InTri3 p0 p1 p2) :=
    fun {v} h => TriBest.dist sqrtF hs pt p0 p1 p2 (v := v) h
  unfold distTri3
  simp only
  rw [show |dot3 (sub3 p1 p0) (sub3 p1 p0) * dot3 (sub3 p2 p0) (sub3 p2 p0) - dot3 (sub3 p1 p0) (sub3 p2 p0) * dot3 (sub3 p1 p0) (sub3 p2 p0)| =
    triDet p0 p1 p2 from abs_of_nonneg hD, abs_of_nonneg hD]
  have hflat := flat_tri p0 p1 p2
  have hDe : triDet p0 p1 p2 = dot3 (sub3 p1 p0) (sub3 p1 p0) * dot3 (sub3 p2 p0) (sub3 p2 p0) - dot3 (sub3 p1 p0) (sub3 p2 p0) * dot3 (sub3 p1 p0) (sub3 p2 p0) := rfl
  unfold triS triT at hreg
  rw [hsq, hsq] at hreg
  generalize triDet p0 p1 p2 = det at *
  generalize dot3 (sub3 p1 p0) (sub3 p1 p0) = a00 at *
  generalize dot3 (sub3 p2 p0) (sub3 p2 p0) = a11 at *
  generalize dot3 (sub3 p1 p0) (sub3 p2 p0) = a01 at *
  generalize dot3 (sub3 p0 pt) (sub3 p1 p0) = b0 at *
  generalize dot3 (sub3 p0 pt) (sub3 p2 p0) = b1 at *
  generalize dot3 (sub3 p0 pt) (sub3 p0 pt) = c at *
  subst hDe
  have hDs : 0 ≤ a11 * a00 - a01 * a01 := by rw [mul_comm a11]; exact hD
  by_cases hst : a01 * b1 - a11 * b0 + (a01 * b0 - a00 * b1) ≤ a00 * a11 - a01 * a01
  · rw [if_pos hst]
    have hst' : a01 * b0 - a00 * b1 + (a01 * b1 - a11 * b0) ≤ a11 * a00 - a01 * a01 := by linarith [mul_comm a11 a00]
    by_cases h1 : a01 * b1 - a11 * b0 < 0
    · rw [if_pos h1]
      by_cases h2 : a01 * b0 - a00 * b1 < 0
      · rw [if_pos h2]
        by_cases h3 : b0 < 0
        · rw [if_pos h3]
          by_cases h4 : -b0 ≥ a00
          · rw [if_pos h4]
            have h5 : a00 + b0 ≤ 0 := by linarith
            exact fin (best_10 h5 (vert_01_in h00 hE' hDs h2 hst' h5))
          · rw [if_neg h4]
            exact fin (best_t0 h3 (not_le.mp h4) h2.le)
        · rw [if_neg h3]
          exact fin (best_helper1 h00 h11 hE hD h1 hst (Or.inr (not_lt.mp h3)))
      · rw [if_neg h2]
        exact fin (best_helper1 h00 h11 hE hD h1 hst (Or.inl (not_lt.mp h2)))
    · rw [if_neg h1]
      by_cases h2 : a01 * b0 - a00 * b1 < 0
      · rw [if_pos h2]
        exact fin (best_helper1 h11 h00 hE' hDs h2 hst' (Or.inl (not_lt.mp h1))).swap
      · rw [if_neg h2]
        by_cases h3 : a00 * a11 - a01 * a01 < tiny
        · rw [if_pos h3]
          have h0 := hdet.resolve_right (not_le.mpr h3)
          exact min_isDist3 _ _ _ _ _ _ (C79_segment3 sqrtF hs pt p0 p1) (C79_segment3 sqrtF hs pt p1 p2) (hflat h0)
        · rw [if_neg h3]
          exact fin (best_int (lt_of_lt_of_le htiny (not_lt.mp h3)) (not_lt.mp h1) (not_lt.mp h2) hst _ _ rfl rfl)
  · rw [if_neg hst]
    have hst := not_le.mp hst
    have hst' : a11 * a00 - a01 * a01 < a01 * b0 - a00 * b1 + (a01 * b1 - a11 * b0) := by linarith [mul_comm a11 a00]
    by_cases h1 : a01 * b1 - a11 * b0 < 0
    · rw [if_pos h1]
      exact fin (best_helper2 h00 h11 hE hD (hreg hst (Or.inl h1)) h1 hst)
    · rw [if_neg h1]
      by_cases h2 : a01 * b0 - a00 * b1 < 0
      · rw [if_pos h2]
        exact fin (best_helper2 h11 h00 hE' hDs (hreg hst (Or.inr h2)).symm h2 hst').swap
      · rw [if_neg h2]
        by_cases h3 : a11 + b1 - a01 - b0 ≤ 0
        · rw [if_pos h3]
          have h4 : a11 + b1 ≤ a01 + b0 := by linarith
          exact fin (best_01 (vert_01_out h11 hE hD (not_lt.mp h1) hst h4) h4)
        · rw [if_neg h3]
          by_cases h5 : a11 + b1 - a01 - b0 ≥ a00 - 2 * a01 + a11
          · rw [if_pos h5]
            have h4 : a00 + b0 ≤ a01 + b1 := by linarith
            exact fin (best_10 (vert_01_out h00 hE' hDs (not_lt.mp h2) hst' h4) h4)
          · rw [if_neg h5]
            exact fin (best_edge (not_le.mp h3) (not_le.mp h5) hst.le _ rfl)

end
end MC
