import Verif.GaussCell
import Verif.GaussRef
import Mathlib.Tactic.Linarith
import Mathlib.Tactic.Positivity
import Mathlib.Tactic.FieldSimp
import Mathlib.Tactic.Ring

/-!
# Reference cells as convex hulls

`InHull nodes p` is the specification: the point `p` is a mean of the nodes, with weights which are not negative.
-/

namespace MC

section
variable {K : Type} [Field K] [LinearOrder K] [IsStrictOrderedRing K]

/-- Component `k` of the sum of the nodes multiplied by the weights. -/
def wsum (w : List K) (nodes : List (List Rat)) (k : Nat) : K :=
  (List.zipWith (fun a (n : List Rat) => a * ((n.getD k 0 : Rat) : K)) w nodes).sum

/-- **Specification.** The point is in the convex hull of the nodes. -/
def InHull (nodes : List (List Rat)) (p : List K) : Prop :=
  ∃ w : List K, w.length = nodes.length ∧ (∀ a ∈ w, 0 ≤ a) ∧ w.sum = 1 ∧ ∀ k, p.getD k 0 = wsum w nodes k

theorem wsum_nil (nodes : List (List Rat)) (k : Nat) : wsum ([] : List K) nodes k = 0 := by simp [wsum]

theorem wsum_cons (a : K) (w : List K) (n : List Rat) (nodes : List (List Rat)) (k : Nat) :
    wsum (a :: w) (n :: nodes) k = a * ((n.getD k 0 : Rat) : K) + wsum w nodes k := by simp [wsum]

/-- Adding a weight to a node of the list. -/
theorem weight_add (nodes : List (List Rat)) (n : List Rat) (hn : n ∈ nodes) (a : K) (ha : 0 ≤ a) (w : List K)
    (hl : w.length = nodes.length) (hw : ∀ x ∈ w, 0 ≤ x) :
    ∃ w' : List K, w'.length = nodes.length ∧ (∀ x ∈ w', 0 ≤ x) ∧ w'.sum = a + w.sum ∧
      ∀ k, wsum w' nodes k = a * ((n.getD k 0 : Rat) : K) + wsum w nodes k := by
  induction nodes generalizing w with
  | nil => cases hn
  | cons m nodes ih =>
    cases w with
    | nil => simp at hl
    | cons x w =>
      simp only [List.mem_cons, forall_eq_or_imp] at hw
      rcases List.mem_cons.mp hn with rfl | hn
      · refine ⟨(a + x) :: w, hl, ?_, ?_, fun k => ?_⟩
        · simp only [List.mem_cons, forall_eq_or_imp]
          exact ⟨add_nonneg ha hw.1, hw.2⟩
        · simp only [List.sum_cons]; ring
        · rw [wsum_cons, wsum_cons]; ring
      · obtain ⟨w', h1, h2, h3, h4⟩ := ih hn w (by simpa using hl) hw.2
        refine ⟨x :: w', by simpa using h1, ?_, ?_, fun k => ?_⟩
        · simp only [List.mem_cons, forall_eq_or_imp]
          exact ⟨hw.1, h2⟩
        · simp only [List.sum_cons, h3]; ring
        · rw [wsum_cons, wsum_cons, h4 k]; ring

theorem weight_move (nodes nodes' : List (List Rat)) (h : ∀ n ∈ nodes, n ∈ nodes') (w : List K)
    (hl : w.length = nodes.length) (hw : ∀ x ∈ w, 0 ≤ x) :
    ∃ w' : List K, w'.length = nodes'.length ∧ (∀ x ∈ w', 0 ≤ x) ∧ w'.sum = w.sum ∧
      ∀ k, wsum w' nodes' k = wsum w nodes k := by
  induction nodes generalizing w with
  | nil =>
    cases w with
    | cons _ _ => simp at hl
    | nil =>
      refine ⟨List.replicate nodes'.length 0, by simp, ?_, by simp, fun k => ?_⟩
      · intro x hx; rw [List.eq_of_mem_replicate hx]
      · rw [wsum_nil]
        induction nodes' with
        | nil => simp [wsum]
        | cons n nodes' ih => rw [List.length_cons, List.replicate_succ, wsum_cons, ih (by simp)]; ring
  | cons n nodes ih =>
    cases w with
    | nil => simp at hl
    | cons a w =>
      simp only [List.mem_cons, forall_eq_or_imp] at hw h
      obtain ⟨w1, h1, h2, h3, h4⟩ := ih h.2 w (by simpa using hl) hw.2
      obtain ⟨w2, g1, g2, g3, g4⟩ := weight_add nodes' n h.1 a hw.1 w1 h1 h2
      refine ⟨w2, g1, g2, by rw [g3, h3, List.sum_cons], fun k => ?_⟩
      rw [g4 k, h4 k, wsum_cons]

theorem InHull.mono {nodes nodes' : List (List Rat)} (h : ∀ n ∈ nodes, n ∈ nodes') {p : List K} (hp : InHull nodes p) :
    InHull nodes' p := by
  obtain ⟨w, h1, h2, h3, h4⟩ := hp
  obtain ⟨w', g1, g2, g3, g4⟩ := weight_move nodes nodes' h w h1 h2
  exact ⟨w', g1, g2, by rw [g3, h3], fun k => by rw [h4 k, g4 k]⟩

/-- `a[0] x + a[1] y + a[2] z` -/
def linAt (a : Rat × Rat × Rat) (p : List K) : K := (a.1 : K) * ptOf p 0 + (a.2.1 : K) * ptOf p 1 + (a.2.2 : K) * ptOf p 2

theorem weights_le (nodes : List (List Rat)) (a : Rat × Rat × Rat) (b : Rat)
    (h : ∀ n ∈ nodes, a.1 * n.getD 0 0 + a.2.1 * n.getD 1 0 + a.2.2 * n.getD 2 0 ≤ b) (w : List K)
    (hl : w.length = nodes.length) (hw : ∀ x ∈ w, 0 ≤ x) :
    (a.1 : K) * wsum w nodes 0 + (a.2.1 : K) * wsum w nodes 1 + (a.2.2 : K) * wsum w nodes 2 ≤ w.sum * b := by
  induction nodes generalizing w with
  | nil =>
    cases w with
    | nil => simp [wsum_nil]
    | cons _ _ => simp at hl
  | cons n nodes ih =>
    cases w with
    | nil => simp at hl
    | cons x w =>
      simp only [List.mem_cons, forall_eq_or_imp] at hw h
      have h1 := ih h.2 w (by simpa using hl) hw.2
      have h2 : (a.1 : K) * ((n.getD 0 0 : Rat) : K) + (a.2.1 : K) * ((n.getD 1 0 : Rat) : K) +
          (a.2.2 : K) * ((n.getD 2 0 : Rat) : K) ≤ (b : K) := by
        exact_mod_cast h.1
      have h3 := mul_le_mul_of_nonneg_left h2 hw.1
      rw [wsum_cons, wsum_cons, wsum_cons, List.sum_cons]
      linarith

/-- A linear inequality which holds at the nodes holds in the hull. -/
theorem InHull.le {nodes : List (List Rat)} {p : List K} (hp : InHull nodes p) (a : Rat × Rat × Rat) (b : Rat)
    (h : ∀ n ∈ nodes, a.1 * n.getD 0 0 + a.2.1 * n.getD 1 0 + a.2.2 * n.getD 2 0 ≤ b) : linAt a p ≤ b := by
  obtain ⟨w, h1, h2, h3, h4⟩ := hp
  have := weights_le nodes a b h w h1 h2
  unfold linAt ptOf
  rw [h4 0, h4 1, h4 2]
  rw [h3, one_mul] at this
  exact this

/-- The faces of the reference cells: linear inequalities. -/
def RefShape.faces (s : RefShape) (neg : Bool) : List ((Rat × Rat × Rat) × Rat) :=
  match s, neg with
  | .seg, true => [((-1, 0, 0), 1), ((1, 0, 0), 1)]
  | .seg, false => [((-1, 0, 0), 0), ((1, 0, 0), 1)]
  | .tri, true => [((-1, 0, 0), 1), ((0, -1, 0), 1), ((1, 1, 0), 0)]
  | .tri, false => [((-1, 0, 0), 0), ((0, -1, 0), 0), ((1, 1, 0), 1)]
  | .quad, _ => [((-1, 0, 0), 1), ((1, 0, 0), 1), ((0, -1, 0), 1), ((0, 1, 0), 1)]
  | .tetra, _ => [((-1, 0, 0), 0), ((0, -1, 0), 0), ((0, 0, -1), 0), ((1, 1, 1), 1)]
  | .hexa, _ => [((-1, 0, 0), 1), ((1, 0, 0), 1), ((0, -1, 0), 1), ((0, 1, 0), 1), ((0, 0, -1), 1), ((0, 0, 1), 1)]
  | .penta, _ => [((-1, 0, 0), 1), ((1, 0, 0), 1), ((0, -1, 0), 0), ((0, 0, -1), 0), ((0, 1, 1), 1)]
  | .pyra, _ => [((1, 1, 1), 1), ((1, -1, 1), 1), ((-1, 1, 1), 1), ((-1, -1, 1), 1), ((0, 0, -1), 0)]

/-- The corners of the reference cells. -/
def RefShape.corners (s : RefShape) (neg : Bool) : List (List Rat) :=
  match s, neg with
  | .seg, true => [[-1], [1]]
  | .seg, false => [[0], [1]]
  | .tri, true => [[-1, 1], [-1, -1], [1, -1]]
  | .tri, false => [[0, 0], [1, 0], [0, 1]]
  | .quad, _ => [[-1, -1], [1, -1], [1, 1], [-1, 1]]
  | .tetra, _ => [[0, 0, 0], [1, 0, 0], [0, 1, 0], [0, 0, 1]]
  | .hexa, _ => [[-1, -1, -1], [1, -1, -1], [1, 1, -1], [-1, 1, -1], [-1, -1, 1], [1, -1, 1], [1, 1, 1], [-1, 1, 1]]
  | .penta, _ => [[-1, 0, 0], [-1, 1, 0], [-1, 0, 1], [1, 0, 0], [1, 1, 0], [1, 0, 1]]
  | .pyra, _ => [[1, 0, 0], [0, 1, 0], [-1, 0, 0], [0, -1, 0], [0, 0, 1]]

/-- The point satisfies the inequalities of the faces. -/
def InsideRef (s : RefShape) (neg : Bool) (p : List K) : Prop := ∀ f ∈ s.faces neg, linAt f.1 p ≤ (f.2 : K)

theorem ptOf_eq {p : List K} {d : Nat} (h : p.length = d) (k : Nat) (hk : d ≤ k) : p.getD k 0 = 0 := by
  rw [List.getD_eq_getElem?_getD, List.getElem?_eq_none (by omega)]; rfl

theorem hull_of_weights (nodes : List (List Rat)) (p w : List K) (hd : p.length ≤ 3) (hn : ∀ n ∈ nodes, n.length ≤ 3)
    (h1 : w.length = nodes.length) (h2 : ∀ a ∈ w, 0 ≤ a) (h3 : w.sum = 1) (h4 : p.getD 0 0 = wsum w nodes 0)
    (h5 : p.getD 1 0 = wsum w nodes 1) (h6 : p.getD 2 0 = wsum w nodes 2) : InHull nodes p := by
  refine ⟨w, h1, h2, h3, fun k => ?_⟩
  match k with
  | 0 => exact h4
  | 1 => exact h5
  | 2 => exact h6
  | k + 3 =>
    rw [List.getD_eq_getElem?_getD, List.getElem?_eq_none (by omega), Option.getD_none]
    clear h1 h2 h3 h4 h5 h6
    induction nodes generalizing w with
    | nil => simp [wsum]
    | cons n nodes ih =>
      cases w with
      | nil => simp [wsum]
      | cons a w =>
        have : n.length ≤ 3 := hn n (by simp)
        rw [wsum_cons, ← ih _ (fun m hm => hn m (by simp [hm])), List.getD_eq_getElem?_getD, List.getElem?_eq_none (by omega)]
        simp

/-- A point which satisfies the inequalities of the faces is in the hull of the corners. -/
theorem hull_of_inside (s : RefShape) (neg : Bool) (p : List K) (hp : p.length = s.dim) (h : InsideRef s neg p) :
    InHull (s.corners neg) p := by
  have hd : p.length ≤ 3 := by rw [hp]; cases s <;> decide
  have hn : ∀ n ∈ s.corners neg, n.length ≤ 3 := by cases s <;> cases neg <;> decide
  have z1 : s.dim ≤ 1 → ptOf p 1 = 0 := fun e => ptOf_eq hp 1 e
  have z2 : s.dim ≤ 2 → ptOf p 2 = 0 := fun e => ptOf_eq hp 2 e
  unfold InsideRef at h
  generalize hx : ptOf p 0 = x at *
  generalize hy : ptOf p 1 = y at *
  generalize hz : ptOf p 2 = z at *
  simp only [linAt, hx, hy, hz] at h
  have fin : ∀ w : List K, w.length = (s.corners neg).length → (∀ a ∈ w, 0 ≤ a) → w.sum = 1 →
      x = wsum w (s.corners neg) 0 → y = wsum w (s.corners neg) 1 → z = wsum w (s.corners neg) 2 →
      InHull (s.corners neg) p := fun w h1 h2 h3 h4 h5 h6 =>
    hull_of_weights _ p w hd hn h1 h2 h3 (hx.trans h4) (hy.trans h5) (hz.trans h6)
  cases s with
  | seg =>
    have hy0 := z1 (by decide); have hz0 := z2 (by decide)
    subst hy0; subst hz0
    cases neg <;> simp [RefShape.faces] at h
    · refine fin [1 - x, x] rfl ?_ ?_ ?_ ?_ ?_ <;> simp [RefShape.corners, wsum]
      exact ⟨by linarith, by linarith⟩
    · refine fin [(1 - x) / 2, (1 + x) / 2] rfl ?_ ?_ ?_ ?_ ?_ <;> simp [RefShape.corners, wsum] <;> try ring
      exact ⟨by linarith, by linarith⟩
  | tri =>
    have hz0 := z2 (by decide)
    subst hz0
    cases neg <;> simp [RefShape.faces] at h
    · refine fin [1 - x - y, x, y] rfl ?_ ?_ ?_ ?_ ?_ <;> simp [RefShape.corners, wsum]
      exact ⟨by linarith, by linarith, by linarith⟩
    · refine fin [(1 + y) / 2, -(x + y) / 2, (1 + x) / 2] rfl ?_ ?_ ?_ ?_ ?_ <;> simp [RefShape.corners, wsum] <;> try ring
      exact ⟨by linarith, by linarith, by linarith⟩
  | quad =>
    have hz0 := z2 (by decide)
    subst hz0
    simp [RefShape.faces] at h
    obtain ⟨h1, h2, h3, h4⟩ := h
    have a1 : 0 ≤ 1 + x := by linarith
    have a2 : 0 ≤ 1 - x := by linarith
    have a3 : 0 ≤ 1 + y := by linarith
    have a4 : 0 ≤ 1 - y := by linarith
    refine fin [(1 - x) * (1 - y) / 4, (1 + x) * (1 - y) / 4, (1 + x) * (1 + y) / 4, (1 - x) * (1 + y) / 4] rfl ?_ ?_ ?_ ?_ ?_
    · simp only [List.mem_cons, List.not_mem_nil, or_false, forall_eq_or_imp, forall_eq]
      refine ⟨?_, ?_, ?_, ?_⟩ <;> positivity
    all_goals simp [RefShape.corners, wsum]
    all_goals ring
  | tetra =>
    simp [RefShape.faces] at h
    refine fin [1 - x - y - z, x, y, z] rfl ?_ ?_ ?_ ?_ ?_ <;> simp [RefShape.corners, wsum] <;> try ring
    exact ⟨by linarith, by linarith, by linarith, by linarith⟩
  | hexa =>
    simp [RefShape.faces] at h
    obtain ⟨h1, h2, h3, h4, h5, h6⟩ := h
    have a1 : 0 ≤ 1 + x := by linarith
    have a2 : 0 ≤ 1 - x := by linarith
    have a3 : 0 ≤ 1 + y := by linarith
    have a4 : 0 ≤ 1 - y := by linarith
    have a5 : 0 ≤ 1 + z := by linarith
    have a6 : 0 ≤ 1 - z := by linarith
    refine fin [(1 - x) * (1 - y) * (1 - z) / 8, (1 + x) * (1 - y) * (1 - z) / 8, (1 + x) * (1 + y) * (1 - z) / 8,
      (1 - x) * (1 + y) * (1 - z) / 8, (1 - x) * (1 - y) * (1 + z) / 8, (1 + x) * (1 - y) * (1 + z) / 8,
      (1 + x) * (1 + y) * (1 + z) / 8, (1 - x) * (1 + y) * (1 + z) / 8] rfl ?_ ?_ ?_ ?_ ?_
    · simp only [List.mem_cons, List.not_mem_nil, or_false, forall_eq_or_imp, forall_eq]
      refine ⟨?_, ?_, ?_, ?_, ?_, ?_, ?_, ?_⟩ <;> positivity
    all_goals simp [RefShape.corners, wsum]
    all_goals ring
  | penta =>
    simp [RefShape.faces] at h
    obtain ⟨h1, h2, h3, h4, h5⟩ := h
    have a1 : 0 ≤ 1 + x := by linarith
    have a2 : 0 ≤ 1 - x := by linarith
    have a3 : 0 ≤ 1 - y - z := by linarith
    refine fin [(1 - x) * (1 - y - z) / 2, (1 - x) * y / 2, (1 - x) * z / 2, (1 + x) * (1 - y - z) / 2, (1 + x) * y / 2,
      (1 + x) * z / 2] rfl ?_ ?_ ?_ ?_ ?_
    · simp only [List.mem_cons, List.not_mem_nil, or_false, forall_eq_or_imp, forall_eq]
      refine ⟨?_, ?_, ?_, ?_, ?_, ?_⟩ <;> positivity
    all_goals simp [RefShape.corners, wsum]
    all_goals ring
  | pyra =>
    simp [RefShape.faces] at h
    obtain ⟨h1, h2, h3, h4, h5⟩ := h
    refine fin [(1 - z - |x| - |y|) / 4 + (|x| + x) / 2, (1 - z - |x| - |y|) / 4 + (|y| + y) / 2,
      (1 - z - |x| - |y|) / 4 + (|x| - x) / 2, (1 - z - |x| - |y|) / 4 + (|y| - y) / 2, z] rfl ?_ ?_ ?_ ?_ ?_
    · have b1 : 0 ≤ 1 - z - |x| - |y| := by
        rcases abs_cases x with ⟨e, _⟩ | ⟨e, _⟩ <;> rcases abs_cases y with ⟨e', _⟩ | ⟨e', _⟩ <;> rw [e, e'] <;> linarith
      have b2 := neg_abs_le x
      have b3 := le_abs_self x
      have b4 := neg_abs_le y
      have b5 := le_abs_self y
      simp only [List.mem_cons, List.not_mem_nil, or_false, forall_eq_or_imp, forall_eq]
      exact ⟨by linarith, by linarith, by linarith, by linarith, h5⟩
    all_goals simp [RefShape.corners, wsum]
    all_goals ring

end

end MC
