import Verif.BBTreeClosest
import Verif.BBTreeProps

/-!
# The distances between points and boxes are exact (C78)
-/

namespace MC
section
variable {K : Type} [CommRing K] [LinearOrder K] [IsStrictOrderedRing K]

/-! ## Specification: points of a box and squared distance -/

/-- the point `q` is in the box -/
def PtIn (q : List K) (box : List (K × K)) : Prop := List.Forall₂ (fun x b => b.1 ≤ x ∧ x ≤ b.2) q box

/-- the squared distance between two points -/
def sqDist (p q : List K) : K := (List.zipWith (fun x y => (x - y) * (x - y)) p q).sum

/-- a box whose lower bounds are not above its upper bounds -/
def ValidBox (box : List (K × K)) : Prop := ∀ b ∈ box, b.1 ≤ b.2

/-- the box of element `e` in the array -/
def boxOf (dim : Nat) (bbs : List K) (e : Nat) : List (K × K) := (List.range dim).map fun d => (boxLo dim bbs d e, boxHi dim bbs d e)

/-! ## One axis -/

theorem distInternal_bounds {x lo hi y : K} (h1 : lo ≤ y) (h2 : y ≤ hi) :
    (distInternal x lo hi).1 ≤ (x - y) * (x - y) ∧ (x - y) * (x - y) ≤ (distInternal x lo hi).2 := by
  unfold distInternal
  split_ifs with a b
  · exact ⟨by nlinarith, by nlinarith⟩
  · exact ⟨by nlinarith, by nlinarith⟩
  · refine ⟨mul_self_nonneg _, ?_⟩
    have h3 : |x - y| ≤ max (hi - x) (x - lo) := by
      rcases abs_cases (x - y) with ⟨h, -⟩ | ⟨h, -⟩
      · rw [h]; exact le_trans (by linarith) (le_max_right _ _)
      · rw [h]; exact le_trans (by linarith) (le_max_left _ _)
    rw [← abs_mul_abs_self (x - y)]
    exact mul_self_le_mul_self (abs_nonneg _) h3

omit [IsStrictOrderedRing K] in
theorem distInternal_min {x lo hi : K} (h : lo ≤ hi) : ∃ y, lo ≤ y ∧ y ≤ hi ∧ (x - y) * (x - y) = (distInternal x lo hi).1 := by
  unfold distInternal
  split_ifs with a b
  · exact ⟨lo, le_refl _, h, by ring⟩
  · exact ⟨hi, h, le_refl _, rfl⟩
  · exact ⟨x, not_lt.mp a, not_lt.mp b, by ring⟩

omit [IsStrictOrderedRing K] in
theorem distInternal_max {x lo hi : K} (h : lo ≤ hi) : ∃ y, lo ≤ y ∧ y ≤ hi ∧ (x - y) * (x - y) = (distInternal x lo hi).2 := by
  unfold distInternal
  split_ifs with a b
  · exact ⟨hi, h, le_refl _, by ring⟩
  · exact ⟨lo, le_refl _, h, rfl⟩
  · rcases max_choice (hi - x) (x - lo) with c | c
    · exact ⟨hi, h, le_refl _, by simp only [c]; ring⟩
    · exact ⟨lo, le_refl _, h, by simp only [c]⟩

theorem bbDist_bounds {la ha lb hb x y : K} (h1 : la ≤ x) (h2 : x ≤ ha) (h3 : lb ≤ y) (h4 : y ≤ hb) :
    (bbDistInternal la ha lb hb).1 ≤ (x - y) * (x - y) ∧ (x - y) * (x - y) ≤ (bbDistInternal la ha lb hb).2 := by
  unfold bbDistInternal
  simp only
  rw [← abs_mul_abs_self (x - y)]
  constructor
  · apply mul_self_le_mul_self (le_max_left _ _)
    refine max_le (abs_nonneg _) (max_le ?_ ?_)
    · exact le_trans (by linarith) (neg_le_abs _)
    · exact le_trans (by linarith) (le_abs_self _)
  · apply mul_self_le_mul_self (abs_nonneg _)
    rcases abs_cases (x - y) with ⟨h, -⟩ | ⟨h, -⟩
    · rw [h]; exact le_trans (le_trans (by linarith) (le_abs_self _)) (le_max_right _ _)
    · rw [h]; exact le_trans (le_trans (by linarith) (le_abs_self _)) (le_max_left _ _)

theorem bbDist_min {la ha lb hb : K} (h : la ≤ ha) (h' : lb ≤ hb) :
    ∃ x y, la ≤ x ∧ x ≤ ha ∧ lb ≤ y ∧ y ≤ hb ∧ (x - y) * (x - y) = (bbDistInternal la ha lb hb).1 := by
  unfold bbDistInternal
  simp only
  rcases lt_or_ge ha lb with c | c
  · refine ⟨ha, lb, h, le_refl _, le_refl _, h', ?_⟩
    rw [max_eq_left (a := lb - ha) (by linarith), max_eq_right (by linarith)]; ring
  · rcases lt_or_ge hb la with d | d
    · refine ⟨la, hb, le_refl _, h, h', le_refl _, ?_⟩
      rw [max_eq_right (a := lb - ha) (by linarith), max_eq_right (by linarith)]
    · refine ⟨max la lb, max la lb, le_max_left _ _, max_le h c, le_max_right _ _, max_le d h', ?_⟩
      rw [max_eq_left (a := (0 : K)) (max_le (by linarith) (by linarith))]; ring

omit [IsStrictOrderedRing K] in
theorem bbDist_max {la ha lb hb : K} (h : la ≤ ha) (h' : lb ≤ hb) :
    ∃ x y, la ≤ x ∧ x ≤ ha ∧ lb ≤ y ∧ y ≤ hb ∧ (x - y) * (x - y) = (bbDistInternal la ha lb hb).2 := by
  unfold bbDistInternal
  simp only
  rcases max_choice |hb - la| |ha - lb| with c | c
  · exact ⟨la, hb, le_refl _, h, h', le_refl _, by rw [c, abs_mul_abs_self]; ring⟩
  · exact ⟨ha, lb, h, le_refl _, le_refl _, h', by rw [c, abs_mul_abs_self]⟩

/-! ## All axes -/

/-- the smallest squared distance, axis by axis -/
def minD (pt : List K) (box : List (K × K)) : K := (List.zipWith (fun x b => (distInternal x b.1 b.2).1) pt box).sum

/-- the largest squared distance, axis by axis -/
def maxD (pt : List K) (box : List (K × K)) : K := (List.zipWith (fun x b => (distInternal x b.1 b.2).2) pt box).sum

omit [IsStrictOrderedRing K] in
theorem highLevelDist_ok : ∀ {pt : List K} {box : List (K × K)}, pt.length = box.length → box ≠ [] → highLevelDist pt box = .ok (minD pt box, maxD pt box)
  | [], [], _, h => absurd rfl h
  | [], _ :: _, h, _ => by simp at h
  | _ :: _, [], h, _ => by simp at h
  | [x], [b], _, _ => by simp [highLevelDist, minD, maxD]
  | [x], _ :: _ :: _, h, _ => by simp at h
  | _ :: _ :: _, [b], h, _ => by simp at h
  | x :: x' :: xs, b :: b' :: bs, h, _ => by
    have := highLevelDist_ok (pt := x' :: xs) (box := b' :: bs) (by simpa using h) (by simp)
    unfold highLevelDist
    rw [this, ok_bind]
    rfl

theorem minD_le_maxD_bounds : ∀ {pt : List K} {box : List (K × K)} {q : List K}, pt.length = box.length → PtIn q box →
    minD pt box ≤ sqDist pt q ∧ sqDist pt q ≤ maxD pt box
  | [], [], _, _, .nil => by simp [minD, maxD, sqDist]
  | [], _ :: _, _, h, _ => by simp at h
  | _ :: _, [], _, h, _ => by simp at h
  | x :: pt, b :: box, _, h, .cons (a := y) (l₁ := q) hy hq => by
    have h1 := minD_le_maxD_bounds (pt := pt) (by simpa using h) hq
    have h2 := distInternal_bounds (x := x) hy.1 hy.2
    unfold minD maxD sqDist at *
    simp only [List.zipWith_cons_cons, List.sum_cons]
    exact ⟨add_le_add h2.1 h1.1, add_le_add h2.2 h1.2⟩

omit [IsStrictOrderedRing K] in
theorem minD_attained : ∀ {pt : List K} {box : List (K × K)}, pt.length = box.length → ValidBox box → ∃ q, PtIn q box ∧ sqDist pt q = minD pt box
  | [], [], _, _ => ⟨[], .nil, rfl⟩
  | [], _ :: _, h, _ => by simp at h
  | _ :: _, [], h, _ => by simp at h
  | x :: pt, b :: box, h, hv => by
    obtain ⟨q, h1, h2⟩ := minD_attained (pt := pt) (box := box) (by simpa using h) (fun b hb => hv b (List.mem_cons_of_mem _ hb))
    obtain ⟨y, y1, y2, y3⟩ := distInternal_min (x := x) (hv b List.mem_cons_self)
    refine ⟨y :: q, .cons ⟨y1, y2⟩ h1, ?_⟩
    unfold minD sqDist at *
    simp only [List.zipWith_cons_cons, List.sum_cons]
    rw [y3, h2]

omit [IsStrictOrderedRing K] in
theorem maxD_attained : ∀ {pt : List K} {box : List (K × K)}, pt.length = box.length → ValidBox box → ∃ q, PtIn q box ∧ sqDist pt q = maxD pt box
  | [], [], _, _ => ⟨[], .nil, rfl⟩
  | [], _ :: _, h, _ => by simp at h
  | _ :: _, [], h, _ => by simp at h
  | x :: pt, b :: box, h, hv => by
    obtain ⟨q, h1, h2⟩ := maxD_attained (pt := pt) (box := box) (by simpa using h) (fun b hb => hv b (List.mem_cons_of_mem _ hb))
    obtain ⟨y, y1, y2, y3⟩ := distInternal_max (x := x) (hv b List.mem_cons_self)
    refine ⟨y :: q, .cons ⟨y1, y2⟩ h1, ?_⟩
    unfold maxD sqDist at *
    simp only [List.zipWith_cons_cons, List.sum_cons]
    rw [y3, h2]

/-- C78: the two distances from a point to a box computed by the tree of closest boxes are the smallest and the largest squared distances
from the point to the points of the box. -/
theorem C78_point_box {pt : List K} {box : List (K × K)} (hl : pt.length = box.length) (hb : box ≠ []) (hv : ValidBox box) :
    ∃ mn mx, highLevelDist pt box = .ok (mn, mx) ∧ (∀ q, PtIn q box → mn ≤ sqDist pt q ∧ sqDist pt q ≤ mx) ∧
      (∃ q, PtIn q box ∧ sqDist pt q = mn) ∧ ∃ q, PtIn q box ∧ sqDist pt q = mx :=
  ⟨_, _, highLevelDist_ok hl hb, fun _ hq => minD_le_maxD_bounds hl hq, minD_attained hl hv, maxD_attained hl hv⟩

example : highLevelDist [(3 : Int), 5, -1] [(0, 2), (4, 7), (0, 0)] = .ok (1 + 0 + 1, 9 + 4 + 1) ∧ ValidBox [((0 : Int), (2 : Int)), (4, 7), (0, 0)] := by
  refine ⟨by decide, ?_⟩
  unfold ValidBox
  decide

/-! ## Two boxes -/

theorem bbDist_all : ∀ {as bs : List (K × K)}, as.length = bs.length → as ≠ [] → ValidBox as → ValidBox bs → ∃ mn mx, highLevelBBDist as bs = .ok (mn, mx) ∧
    (∀ p q, PtIn p as → PtIn q bs → mn ≤ sqDist p q ∧ sqDist p q ≤ mx) ∧
      (∃ p q, PtIn p as ∧ PtIn q bs ∧ sqDist p q = mn) ∧ ∃ p q, PtIn p as ∧ PtIn q bs ∧ sqDist p q = mx
  | [], _, _, h, _, _ => absurd rfl h
  | _ :: _, [], h, _, _, _ => by simp at h
  | [a], _ :: _ :: _, h, _, _, _ => by simp at h
  | _ :: _ :: _, [b], h, _, _, _ => by simp at h
  | [a], [b], _, _, va, vb => by
    refine ⟨(bbDistInternal a.1 a.2 b.1 b.2).1, (bbDistInternal a.1 a.2 b.1 b.2).2, rfl, ?_, ?_, ?_⟩
    · intro p q hp hq
      obtain _ | ⟨hx, hp⟩ := hp
      obtain _ | _ := hp
      obtain _ | ⟨hy, hq⟩ := hq
      obtain _ | _ := hq
      have := bbDist_bounds hx.1 hx.2 hy.1 hy.2
      simpa [sqDist] using this
    · obtain ⟨x, y, h1, h2, h3, h4, h5⟩ := bbDist_min (va a List.mem_cons_self) (vb b List.mem_cons_self)
      exact ⟨[x], [y], .cons ⟨h1, h2⟩ .nil, .cons ⟨h3, h4⟩ .nil, by simpa [sqDist] using h5⟩
    · obtain ⟨x, y, h1, h2, h3, h4, h5⟩ := bbDist_max (va a List.mem_cons_self) (vb b List.mem_cons_self)
      exact ⟨[x], [y], .cons ⟨h1, h2⟩ .nil, .cons ⟨h3, h4⟩ .nil, by simpa [sqDist] using h5⟩
  | a :: a' :: as, b :: b' :: bs, h, _, va, vb => by
    obtain ⟨mn, mx, e1, e2, e3, e4⟩ := bbDist_all (as := a' :: as) (bs := b' :: bs) (by simpa using h) (by simp)
      (fun b hb => va b (List.mem_cons_of_mem _ hb)) (fun b hb => vb b (List.mem_cons_of_mem _ hb))
    refine ⟨(bbDistInternal a.1 a.2 b.1 b.2).1 + mn, (bbDistInternal a.1 a.2 b.1 b.2).2 + mx, ?_, ?_, ?_, ?_⟩
    · unfold highLevelBBDist
      rw [e1, ok_bind]
    · intro p q hp hq
      obtain _ | ⟨hx, hp⟩ := hp
      obtain _ | ⟨hy, hq⟩ := hq
      have h1 := bbDist_bounds hx.1 hx.2 hy.1 hy.2
      have h2 := e2 _ _ hp hq
      unfold sqDist at *
      simp only [List.zipWith_cons_cons, List.sum_cons]
      exact ⟨add_le_add h1.1 h2.1, add_le_add h1.2 h2.2⟩
    · obtain ⟨x, y, h1, h2, h3, h4, h5⟩ := bbDist_min (va a List.mem_cons_self) (vb b List.mem_cons_self)
      obtain ⟨p, q, h6, h7, h8⟩ := e3
      refine ⟨x :: p, y :: q, .cons ⟨h1, h2⟩ h6, .cons ⟨h3, h4⟩ h7, ?_⟩
      unfold sqDist at *
      simp only [List.zipWith_cons_cons, List.sum_cons]
      rw [h5, h8]
    · obtain ⟨x, y, h1, h2, h3, h4, h5⟩ := bbDist_max (va a List.mem_cons_self) (vb b List.mem_cons_self)
      obtain ⟨p, q, h6, h7, h8⟩ := e4
      refine ⟨x :: p, y :: q, .cons ⟨h1, h2⟩ h6, .cons ⟨h3, h4⟩ h7, ?_⟩
      unfold sqDist at *
      simp only [List.zipWith_cons_cons, List.sum_cons]
      rw [h5, h8]

/-- C78: the two distances between two boxes are the smallest and the largest squared distances between a point of one and a point of the
other. -/
theorem C78_box_box {as bs : List (K × K)} (hl : as.length = bs.length) (ha : as ≠ []) (va : ValidBox as) (vb : ValidBox bs) :
    ∃ mn mx, highLevelBBDist as bs = .ok (mn, mx) ∧ (∀ p q, PtIn p as → PtIn q bs → mn ≤ sqDist p q ∧ sqDist p q ≤ mx) ∧
      (∃ p q, PtIn p as ∧ PtIn q bs ∧ sqDist p q = mn) ∧ ∃ p q, PtIn p as ∧ PtIn q bs ∧ sqDist p q = mx := bbDist_all hl ha va vb

example : highLevelBBDist [((0 : Int), 1), (0, 4)] [(3, 4), (2, 6)] = .ok (4 + 0, 16 + 36) := by decide

/-! ## The distances of BBTreeDst -/

theorem dstMin_axis {x lo hi res : K} (h : lo ≤ hi) :
    (if Int.tdiv (signC (x - lo) + signC (x - hi)) 2 ≠ 0 then
      (let y := if Int.tdiv (signC (x - lo) + signC (x - hi)) 2 = 1 then x - hi else x - lo; res + y * y) else res) = res + (distInternal x lo hi).1 := by
  unfold distInternal signC
  rcases lt_trichotomy x lo with c | c | c
  · have c1 : ¬ (0 < x - lo) := by rw [not_lt]; linarith
    have c2 : x - lo < 0 := by linarith
    have c3 : ¬ (0 < x - hi) := by rw [not_lt]; linarith
    have c4 : x - hi < 0 := by linarith
    rw [if_pos c, if_neg c1, if_pos c2, if_neg c3, if_pos c4]
    have : Int.tdiv ((0 - 1) + (0 - 1)) 2 = -1 := by decide
    rw [this]
    simp only [ne_eq, not_false_eq_true, if_true, show ¬ ((-1 : Int) = 1) by decide, if_false, show ¬ ((-1 : Int) = 0) by decide]
    ring
  · have c0 : ¬ x < lo := by rw [c]; exact lt_irrefl _
    have c1 : ¬ (0 < x - lo) := by rw [not_lt]; linarith
    have c2 : ¬ x - lo < 0 := by rw [not_lt]; linarith
    have c3 : ¬ (0 < x - hi) := by rw [not_lt]; linarith
    have c5 : ¬ x > hi := by rw [not_lt]; linarith
    rw [if_neg c0, if_neg c1, if_neg c2, if_neg c3, if_neg c5]
    have : ∀ b : Prop, [Decidable b] → Int.tdiv ((0 - 0) + (0 - if b then 1 else 0)) 2 = 0 := by
      intro b _
      by_cases hb : b
      · rw [if_pos hb]; decide
      · rw [if_neg hb]; decide
    simp only [this]
    simp
  · have c0 : ¬ x < lo := not_lt.mpr c.le
    have c1 : 0 < x - lo := by linarith
    have c2 : ¬ x - lo < 0 := by rw [not_lt]; linarith
    rw [if_neg c0, if_pos c1, if_neg c2]
    rcases lt_trichotomy x hi with d | d | d
    · have c3 : ¬ (0 < x - hi) := by rw [not_lt]; linarith
      have c4 : x - hi < 0 := by linarith
      rw [if_neg c3, if_pos c4, if_neg (not_lt.mpr d.le)]
      have : Int.tdiv ((1 - 0) + (0 - 1)) 2 = 0 := by decide
      rw [this]; simp
    · have c3 : ¬ (0 < x - hi) := by rw [not_lt]; linarith
      have c4 : ¬ x - hi < 0 := by rw [not_lt]; linarith
      have c5 : ¬ x > hi := by rw [d]; exact lt_irrefl _
      rw [if_neg c3, if_neg c4, if_neg c5]
      have : Int.tdiv ((1 - 0) + (0 - 0)) 2 = 0 := by decide
      rw [this]; simp
    · have c3 : 0 < x - hi := by linarith
      have c4 : ¬ x - hi < 0 := by rw [not_lt]; linarith
      rw [if_pos c3, if_neg c4, if_pos d]
      have : Int.tdiv ((1 - 0) + (1 - 0)) 2 = 1 := by decide
      rw [this]; simp

theorem dstMax_axis {x lo hi : K} (h : lo ≤ hi) : max |x - lo| |x - hi| * max |x - lo| |x - hi| = (distInternal x lo hi).2 := by
  unfold distInternal
  split_ifs with a b
  · rw [abs_of_neg (by linarith), abs_of_neg (by linarith), max_eq_right (by linarith)]; ring
  · rw [abs_of_pos (by linarith), abs_of_pos (by linarith), max_eq_left (by linarith)]
  · rw [abs_of_nonneg (by linarith), abs_of_nonpos (by linarith), max_comm, neg_sub]

theorem dstMin_eq {big : K} {pt : List K} {box : List (K × K)} (hv : ValidBox box) : dstMin big pt box = minD pt box := by
  have hh : (box.headD (0, 0)).1 ≤ (box.headD (0, 0)).2 := by
    cases box with
    | nil => exact le_refl _
    | cons b bs => exact hv b List.mem_cons_self
  unfold dstMin
  rw [if_pos hh]
  have : ∀ (pt : List K) (box : List (K × K)) (res : K), ValidBox box → (pt.zip box).foldl (fun res xb =>
      let val1 := xb.1 - xb.2.1
      let val2 := xb.1 - xb.2.2
      let pos := Int.tdiv (signC val1 + signC val2) 2
      if pos ≠ 0 then (let x := if pos = 1 then val2 else val1; res + x * x) else res) res = res + minD pt box := by
    intro pt
    induction pt with
    | nil => intro box res _; simp [minD]
    | cons x pt ih =>
      intro box res hv
      cases box with
      | nil => simp [minD]
      | cons b box =>
        rw [List.zip_cons_cons, List.foldl_cons, ih _ _ fun b hb => hv b (List.mem_cons_of_mem _ hb)]
        simp only
        rw [dstMin_axis (hv b List.mem_cons_self)]
        simp only [minD, List.zipWith_cons_cons, List.sum_cons]
        ring
  rw [this pt box 0 hv, zero_add]

theorem dstMax_eq {big : K} {pt : List K} {box : List (K × K)} (hv : ValidBox box) : dstMax big pt box = maxD pt box := by
  have hh : (box.headD (0, 0)).1 ≤ (box.headD (0, 0)).2 := by
    cases box with
    | nil => exact le_refl _
    | cons b bs => exact hv b List.mem_cons_self
  unfold dstMax
  rw [if_pos hh]
  have : ∀ (pt : List K) (box : List (K × K)) (res : K), ValidBox box → (pt.zip box).foldl (fun res xb =>
      let val1 := xb.1 - xb.2.1
      let val2 := xb.1 - xb.2.2
      let x := max |val1| |val2|
      res + x * x) res = res + maxD pt box := by
    intro pt
    induction pt with
    | nil => intro box res _; simp [maxD]
    | cons x pt ih =>
      intro box res hv
      cases box with
      | nil => simp [maxD]
      | cons b box =>
        rw [List.zip_cons_cons, List.foldl_cons, ih _ _ fun b hb => hv b (List.mem_cons_of_mem _ hb)]
        simp only
        rw [dstMax_axis (hv b List.mem_cons_self)]
        simp only [maxD, List.zipWith_cons_cons, List.sum_cons]
        ring
  rw [this pt box 0 hv, zero_add]

/-! ## Boxes of groups of elements -/

/-- the first box lies in the second one -/
def Inside (b c : List (K × K)) : Prop := List.Forall₂ (fun x y => y.1 ≤ x.1 ∧ x.2 ≤ y.2) b c

omit [IsStrictOrderedRing K] [CommRing K] in
theorem ptIn_inside : ∀ {q : List K} {b c : List (K × K)}, PtIn q b → Inside b c → PtIn q c
  | _, _, _, .nil, .nil => .nil
  | _, _, _, .cons h hq, .cons h' hc => .cons ⟨le_trans h'.1 h.1, le_trans h.2 h'.2⟩ (ptIn_inside hq hc)

omit [IsStrictOrderedRing K] [CommRing K] in
theorem inside_valid {b c : List (K × K)} (h : Inside b c) (hv : ValidBox b) : ValidBox c := by
  induction h with
  | nil => intro b hb; simp at hb
  | cons hx ht ih =>
    intro y hy
    rcases List.mem_cons.mp hy with rfl | hy
    · exact le_trans hx.1 (le_trans (hv _ List.mem_cons_self) hx.2)
    · exact ih (fun b hb => hv b (List.mem_cons_of_mem _ hb)) y hy

theorem minD_inside {pt : List K} {b c : List (K × K)} (h : Inside b c) (hv : ValidBox b) (hl : pt.length = b.length) :
    minD pt c ≤ minD pt b ∧ maxD pt b ≤ maxD pt c := by
  have hl' : pt.length = c.length := by rw [hl, List.Forall₂.length_eq h]
  obtain ⟨q, h1, h2⟩ := minD_attained hl hv
  obtain ⟨q', h3, h4⟩ := maxD_attained hl hv
  exact ⟨h2 ▸ (minD_le_maxD_bounds hl' (ptIn_inside h1 h)).1, h4 ▸ (minD_le_maxD_bounds hl' (ptIn_inside h3 h)).2⟩

theorem minD_le_maxD {pt : List K} {b : List (K × K)} (hv : ValidBox b) (hl : pt.length = b.length) : minD pt b ≤ maxD pt b := by
  obtain ⟨q, h1, h2⟩ := minD_attained hl hv
  exact h2 ▸ (minD_le_maxD_bounds hl h1).2

omit [IsStrictOrderedRing K] [CommRing K] in
theorem inside_add : ∀ {b c : List (K × K)}, b.length = c.length → Inside b (boxAdd b c) ∧ Inside c (boxAdd b c) ∧ (boxAdd b c).length = b.length
  | [], [], _ => ⟨.nil, .nil, rfl⟩
  | [], _ :: _, h => by simp at h
  | _ :: _, [], h => by simp at h
  | x :: b, y :: c, h => by
    obtain ⟨h1, h2, h3⟩ := inside_add (b := b) (c := c) (by simpa using h)
    exact ⟨.cons ⟨min_le_left _ _, le_max_left _ _⟩ h1, .cons ⟨min_le_right _ _, le_max_right _ _⟩ h2, congrArg (· + 1) h3⟩

omit [IsStrictOrderedRing K] [CommRing K] in
theorem inside_trans : ∀ {a b c : List (K × K)}, Inside a b → Inside b c → Inside a c
  | _, _, _, .nil, .nil => .nil
  | _, _, _, .cons h hq, .cons h' hc => .cons ⟨le_trans h'.1 h.1, le_trans h.2 h'.2⟩ (inside_trans hq hc)

omit [LinearOrder K] [IsStrictOrderedRing K] in
theorem rdBox_ok {dim : Nat} {bbs : List K} {e : Nat} (he : (e + 1) * dim * 2 ≤ bbs.length) : rdBox dim bbs e = .ok (boxOf dim bbs e) := by
  have : ∀ l : List Nat, (∀ d ∈ l, d < dim) → l.mapM (fun d => (do
    let lo ← bbLo dim bbs d e
    let hi ← bbHi dim bbs d e
    .ok (lo, hi) : M (K × K))) = .ok (l.map fun d => (boxLo dim bbs d e, boxHi dim bbs d e)) := by
    intro l
    induction l with
    | nil => intro _; rfl
    | cons d l ih =>
      intro h
      obtain ⟨h1, h2⟩ := bbLo_ok (h d List.mem_cons_self) he
      rw [List.mapM_cons, h1, ok_bind, h2, ok_bind, ok_bind, ih fun d hd => h d (List.mem_cons_of_mem _ hd), ok_bind]
      rfl
  exact this _ fun d hd => List.mem_range.mp hd

omit [LinearOrder K] [IsStrictOrderedRing K] in
theorem boxOf_length (dim : Nat) (bbs : List K) (e : Nat) : (boxOf dim bbs e).length = dim := by simp [boxOf]

omit [IsStrictOrderedRing K] in
theorem boxOfElems_ok {dim : Nat} {bbs : List K} {big : K} {es : List Nat} (hv : ∀ e ∈ es, (e + 1) * dim * 2 ≤ bbs.length) :
    ∃ b, boxOfElems dim bbs big es = .ok b ∧ b.length = dim ∧ ∀ e ∈ es, Inside (boxOf dim bbs e) b := by
  have : ∀ (es pre : List Nat) (b : List (K × K)), (∀ e ∈ es, (e + 1) * dim * 2 ≤ bbs.length) → b.length = dim →
      (∀ e ∈ pre, Inside (boxOf dim bbs e) b) → ∃ b', es.foldlM (fun b e => do
        let b' ← rdBox dim bbs e
        (.ok (boxAdd b b') : M (List (K × K)))) b = .ok b' ∧ b'.length = dim ∧ ∀ e ∈ pre ++ es, Inside (boxOf dim bbs e) b' := by
    intro es
    induction es with
    | nil => intro pre b _ h1 h2; exact ⟨b, rfl, h1, by simpa using h2⟩
    | cons e es ih =>
      intro pre b hv h1 h2
      obtain ⟨a1, a2, a3⟩ := inside_add (b := b) (c := boxOf dim bbs e) (by rw [h1, boxOf_length])
      rw [List.foldlM_cons, rdBox_ok (hv e List.mem_cons_self), ok_bind, ok_bind]
      obtain ⟨b', b1, b2, b3⟩ := ih (pre ++ [e]) _ (fun e he => hv e (List.mem_cons_of_mem _ he)) (a3.trans h1) (by
        intro f hf
        rcases List.mem_append.mp hf with hf | hf
        · exact inside_trans (h2 f hf) a1
        · rw [List.mem_singleton.mp hf]; exact a2)
      exact ⟨b', b1, b2, by simpa using b3⟩
  obtain ⟨b, h1, h2, h3⟩ := this es [] (List.replicate dim (big, -big)) hv (by simp) (by simp)
  exact ⟨b, h1, h2, by simpa using h3⟩

end
end MC
