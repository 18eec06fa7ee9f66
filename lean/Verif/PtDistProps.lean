import Verif.PtDist
import Mathlib.Tactic.Linarith
import Mathlib.Tactic.Ring
import Mathlib.Tactic.FieldSimp
import Mathlib.Tactic.LinearCombination
import Mathlib.Tactic.NormNum

/-!
# What the point to segment and point to triangle distances return (C79)
-/

namespace MC
section
variable {K : Type} [Field K] [LinearOrder K] [IsStrictOrderedRing K]

/-! ## The specification -/

/-- the squared distance of two points of the plane -/
def sq2 (a b : V2 K) : K := (a.x - b.x) ^ 2 + (a.y - b.y) ^ 2

/-- the squared distance of two points of the space -/
def sq3 (a b : V3 K) : K := (a.x - b.x) ^ 2 + (a.y - b.y) ^ 2 + (a.z - b.z) ^ 2

/-- the point `q` is on the segment `p0 p1` of the plane -/
def OnSeg2 (p0 p1 q : V2 K) : Prop :=
  ∃ t : K, 0 ≤ t ∧ t ≤ 1 ∧ q = ⟨p0.x + t * (p1.x - p0.x), p0.y + t * (p1.y - p0.y)⟩

/-- the point `q` is on the segment `p0 p1` of the space -/
def OnSeg3 (p0 p1 q : V3 K) : Prop :=
  ∃ t : K, 0 ≤ t ∧ t ≤ 1 ∧
    q = ⟨p0.x + t * (p1.x - p0.x), p0.y + t * (p1.y - p0.y), p0.z + t * (p1.z - p0.z)⟩

/-- the point of the plane of the triangle `p0 p1 p2` with coordinates `s` and `t` -/
def triPt (p0 p1 p2 : V3 K) (s t : K) : V3 K :=
  ⟨p0.x + s * (p1.x - p0.x) + t * (p2.x - p0.x), p0.y + s * (p1.y - p0.y) + t * (p2.y - p0.y),
    p0.z + s * (p1.z - p0.z) + t * (p2.z - p0.z)⟩

/-- the point `q` is in the triangle `p0 p1 p2` of the space, border included -/
def InTri3 (p0 p1 p2 q : V3 K) : Prop :=
  ∃ s t : K, 0 ≤ s ∧ 0 ≤ t ∧ s + t ≤ 1 ∧ q = triPt p0 p1 p2 s t

/-- the square root of exact arithmetic -/
def IsSqrt (f : K → K) : Prop := ∀ x, 0 ≤ x → 0 ≤ f x ∧ f x * f x = x

/-- `r` is the distance of `pt` to the set `S` of the space: it is not larger than any distance to a point of `S`, and it is one of them -/
def IsDist3 (r : K) (pt : V3 K) (S : V3 K → Prop) : Prop :=
  0 ≤ r ∧ (∃ q, S q ∧ sq3 pt q = r * r) ∧ ∀ q, S q → r * r ≤ sq3 pt q

/-! ## Segments of the plane -/

theorem seg2_min (pt p0 p1 : V2 K) (t u : K)
    (h : 0 ≤ (u - t) * ((p0.x + t * (p1.x - p0.x) - pt.x) * (p1.x - p0.x) + (p0.y + t * (p1.y - p0.y) - pt.y) * (p1.y - p0.y))) :
    sq2 pt ⟨p0.x + t * (p1.x - p0.x), p0.y + t * (p1.y - p0.y)⟩ ≤
      sq2 pt ⟨p0.x + u * (p1.x - p0.x), p0.y + u * (p1.y - p0.y)⟩ := by
  unfold sq2
  have : 0 ≤ ((u - t) * (p1.x - p0.x)) ^ 2 + ((u - t) * (p1.y - p0.y)) ^ 2 := by positivity
  simp only
  nlinarith

/-- The squared distance from a point to a segment of the plane: it is the squared distance to some point of the segment, and no point of the segment is closer. -/
theorem C79_segment2 (sqrtF : K → K) (hs : IsSqrt sqrtF) (pt p0 p1 : V2 K) :
    (∃ q, OnSeg2 p0 p1 q ∧ sq2 pt q = sqDistSeg2 sqrtF pt p0 p1) ∧
      ∀ q, OnSeg2 p0 p1 q → sqDistSeg2 sqrtF pt p0 p1 ≤ sq2 pt q := by
  have key : ∃ t : K, 0 ≤ t ∧ t ≤ 1 ∧
      sqDistSeg2 sqrtF pt p0 p1 = sq2 pt ⟨p0.x + t * (p1.x - p0.x), p0.y + t * (p1.y - p0.y)⟩ ∧
      ∀ u, 0 ≤ u → u ≤ 1 → 0 ≤ (u - t) * ((p0.x + t * (p1.x - p0.x) - pt.x) * (p1.x - p0.x) + (p0.y + t * (p1.y - p0.y) - pt.y) * (p1.y - p0.y)) := by
    obtain ⟨h0, h1⟩ := hs ((p1.x - p0.x) * (p1.x - p0.x) + (p1.y - p0.y) * (p1.y - p0.y)) (add_nonneg (mul_self_nonneg _) (mul_self_nonneg _))
    unfold sqDistSeg2
    simp only
    generalize sqrtF ((p1.x - p0.x) * (p1.x - p0.x) + (p1.y - p0.y) * (p1.y - p0.y)) = n at h0 h1 ⊢
    by_cases hn : n = 0
    · rw [if_pos hn]
      have e : (p1.x - p0.x) * (p1.x - p0.x) + (p1.y - p0.y) * (p1.y - p0.y) = 0 := by rw [← h1, hn, zero_mul]
      have ex : p1.x - p0.x = 0 := by nlinarith [mul_self_nonneg (p1.x - p0.x), mul_self_nonneg (p1.y - p0.y)]
      have ey : p1.y - p0.y = 0 := by nlinarith [mul_self_nonneg (p1.x - p0.x), mul_self_nonneg (p1.y - p0.y)]
      refine ⟨0, le_refl _, zero_le_one, ?_, ?_⟩
      · unfold sq2; simp only; ring
      · intro u _ _; rw [ex, ey]; simp
    · rw [if_neg hn]
      have hp : 0 < n := lt_of_le_of_ne h0 (Ne.symm hn)
      have hd : (pt.x - p0.x) * ((p1.x - p0.x) / n) + (pt.y - p0.y) * ((p1.y - p0.y) / n) = ((pt.x - p0.x) * (p1.x - p0.x) + (pt.y - p0.y) * (p1.y - p0.y)) / n := by
        field_simp
      rw [hd]
      set c := (pt.x - p0.x) * (p1.x - p0.x) + (pt.y - p0.y) * (p1.y - p0.y) with hc
      by_cases ho : c / n < 0 ∨ c / n > n
      · rw [if_pos ho]
        by_cases hneg : c / n < 0
        · rw [if_pos hneg]
          have : c < 0 := by
            by_contra hh
            exact absurd (div_nonneg (not_lt.mp hh) h0) (not_le.mpr hneg)
          refine ⟨0, le_refl _, zero_le_one, ?_, ?_⟩
          · unfold sq2; simp only; ring
          · intro u hu _
            have : 0 ≤ u * (-c) := mul_nonneg hu (by linarith)
            rw [hc] at this
            nlinarith
        · rw [if_neg hneg]
          have hgt : c / n > n := ho.resolve_left hneg
          have : n * n < c := by
            rw [gt_iff_lt, lt_div_iff₀ hp] at hgt
            exact hgt
          refine ⟨1, zero_le_one, le_refl _, ?_, ?_⟩
          · unfold sq2; simp only; ring
          · intro u _ hu
            have : 0 ≤ (1 - u) * (c - n * n) := mul_nonneg (by linarith) (by linarith)
            rw [h1, hc] at this
            nlinarith
      · rw [if_neg ho]
        push Not at ho
        have hc0 : 0 ≤ c := by
          by_contra hh
          exact absurd (div_neg_of_neg_of_pos (not_le.mp hh) hp) (not_lt.mpr ho.1)
        have hc1 : c ≤ n * n := by
          have := ho.2
          rwa [div_le_iff₀ hp] at this
        have hnn : 0 < n * n := mul_pos hp hp
        refine ⟨c / (n * n), div_nonneg hc0 hnn.le, (div_le_one hnn).mpr hc1, ?_, ?_⟩
        · unfold sq2
          have e1 : ∀ d : K, c / n * (d / n) = c / (n * n) * d := by intro d; field_simp
          rw [e1, e1]
          simp only
          ring
        · intro u _ _
          have : (p0.x + c / (n * n) * (p1.x - p0.x) - pt.x) * (p1.x - p0.x) + (p0.y + c / (n * n) * (p1.y - p0.y) - pt.y) * (p1.y - p0.y) = 0 := by
            have e2 : (p0.x + c / (n * n) * (p1.x - p0.x) - pt.x) * (p1.x - p0.x) + (p0.y + c / (n * n) * (p1.y - p0.y) - pt.y) * (p1.y - p0.y)
                = c / (n * n) * ((p1.x - p0.x) * (p1.x - p0.x) + (p1.y - p0.y) * (p1.y - p0.y)) - c := by rw [hc]; ring
            rw [e2, ← h1, div_mul_cancel₀ _ hnn.ne', sub_self]
          rw [this, mul_zero]
  obtain ⟨t, ht0, ht1, e, hm⟩ := key
  rw [e]
  refine ⟨⟨_, ⟨t, ht0, ht1, rfl⟩, rfl⟩, ?_⟩
  rintro q ⟨u, hu0, hu1, rfl⟩
  exact seg2_min _ _ _ _ _ (hm u hu0 hu1)

/-! ## Segments of the space -/

theorem sqrt_isDist3 (f : K → K) (hs : IsSqrt f) (pt : V3 K) (S : V3 K → Prop) (d : K) (q : V3 K) (hq : S q) (e : sq3 pt q = d)
    (hm : ∀ q, S q → d ≤ sq3 pt q) : IsDist3 (f d) pt S := by
  have hd : 0 ≤ d := by rw [← e]; unfold sq3; positivity
  obtain ⟨h0, h1⟩ := hs d hd
  refine ⟨h0, ⟨q, hq, by rw [h1, e]⟩, ?_⟩
  intro q hq; rw [h1]; exact hm q hq

theorem seg3_min (pt p0 p1 : V3 K) (t u : K)
    (h : 0 ≤ (u - t) * (t * dot3 (sub3 p1 p0) (sub3 p1 p0) - dot3 (sub3 pt p0) (sub3 p1 p0))) :
    sq3 pt ⟨p0.x + t * (p1.x - p0.x), p0.y + t * (p1.y - p0.y), p0.z + t * (p1.z - p0.z)⟩ ≤
      sq3 pt ⟨p0.x + u * (p1.x - p0.x), p0.y + u * (p1.y - p0.y), p0.z + u * (p1.z - p0.z)⟩ := by
  unfold sq3
  unfold dot3 sub3 at h
  have : 0 ≤ ((u - t) * (p1.x - p0.x)) ^ 2 + ((u - t) * (p1.y - p0.y)) ^ 2 + ((u - t) * (p1.z - p0.z)) ^ 2 := by positivity
  simp only at h ⊢
  nlinarith

/-- The distance from a point to a segment of the space, whatever the segment, even reduced to a point. -/
theorem C79_segment3 (sqrtF : K → K) (hs : IsSqrt sqrtF) (pt p0 p1 : V3 K) :
    IsDist3 (distSeg3 sqrtF pt p0 p1) pt (OnSeg3 p0 p1) := by
  have key : ∃ t : K, 0 ≤ t ∧ t ≤ 1 ∧
      distSeg3 sqrtF pt p0 p1 = sqrtF (sq3 pt ⟨p0.x + t * (p1.x - p0.x), p0.y + t * (p1.y - p0.y), p0.z + t * (p1.z - p0.z)⟩) ∧
      ∀ u, 0 ≤ u → u ≤ 1 → 0 ≤ (u - t) * (t * dot3 (sub3 p1 p0) (sub3 p1 p0) - dot3 (sub3 pt p0) (sub3 p1 p0)) := by
    unfold distSeg3
    simp only
    by_cases h1 : dot3 (sub3 pt p0) (sub3 p1 p0) ≤ 0
    · rw [if_pos h1]
      refine ⟨0, le_refl _, zero_le_one, ?_, ?_⟩
      · congr 1; unfold sq3 dot3 sub3; simp only; ring
      · intro u hu _
        have := mul_nonneg hu (neg_nonneg.mpr h1)
        nlinarith
    · rw [if_neg h1]
      by_cases h2 : dot3 (sub3 p1 p0) (sub3 p1 p0) ≤ dot3 (sub3 pt p0) (sub3 p1 p0)
      · rw [if_pos h2]
        refine ⟨1, zero_le_one, le_refl _, ?_, ?_⟩
        · congr 1; unfold sq3 dot3 sub3; simp only; ring
        · intro u _ hu
          have := mul_nonneg (sub_nonneg.mpr hu) (sub_nonneg.mpr h2)
          nlinarith
      · rw [if_neg h2]
        have hp : 0 < dot3 (sub3 p1 p0) (sub3 p1 p0) := lt_trans (not_le.mp h1) (not_le.mp h2)
        refine ⟨dot3 (sub3 pt p0) (sub3 p1 p0) / dot3 (sub3 p1 p0) (sub3 p1 p0), div_nonneg (not_le.mp h1).le hp.le,
          (div_le_one hp).mpr (not_le.mp h2).le, ?_, ?_⟩
        · congr 1
          generalize dot3 (sub3 pt p0) (sub3 p1 p0) / dot3 (sub3 p1 p0) (sub3 p1 p0) = b
          unfold sq3 dot3 sub3; simp only; ring
        · intro u _ _
          rw [div_mul_cancel₀ _ hp.ne', sub_self, mul_zero]
  obtain ⟨t, ht0, ht1, e, hm⟩ := key
  rw [e]
  refine sqrt_isDist3 _ hs _ _ _ _ ⟨t, ht0, ht1, rfl⟩ rfl ?_
  rintro q ⟨u, hu0, hu1, rfl⟩
  exact seg3_min _ _ _ _ _ (hm u hu0 hu1)

end
end MC
