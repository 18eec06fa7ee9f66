import Verif.GaussCellProps

/-!
# C97: default reference cells, points in a reference cell, and the nearest point of a reference cell
-/

namespace MC

section
variable {K : Type} [Field K] [LinearOrder K] [IsStrictOrderedRing K]

/-- The reference cell starts at a negative coordinate (segments and triangles). -/
def RefElt.neg (e : RefElt) : Bool := decide ((e.ref.flatten).getD 0 0 < -(1 / 2))

/-- What is checked on the table of the reference cells: all the nodes are in the cell and all the corners are nodes. -/
theorem gaussTable_cells : ∀ t ∈ gaussTable, ∀ e ∈ t.2, e.ref.Nodup ∨ t.1 = 6 → ∃ s, refShape t.1 = some s ∧
    s.dim = e.dim ∧ e.ref ≠ [] ∧ (∀ n ∈ s.corners e.neg, n ∈ e.ref) ∧
    (∀ f ∈ s.faces e.neg, ∀ n ∈ e.ref, f.1.1 * n.getD 0 0 + f.1.2.1 * n.getD 1 0 + f.1.2.2 * n.getD 2 0 ≤ f.2) := by
  have key : ∀ t ∈ gaussTable, ∀ e ∈ t.2, e.ref.Nodup ∨ t.1 = 6 →
      match refShape t.1 with
      | none => False
      | some s => s.dim = e.dim ∧ e.ref ≠ [] ∧ (∀ n ∈ s.corners e.neg, n ∈ e.ref) ∧
        (∀ f ∈ s.faces e.neg, ∀ n ∈ e.ref, f.1.1 * n.getD 0 0 + f.1.2.1 * n.getD 1 0 + f.1.2.2 * n.getD 2 0 ≤ f.2) := by
    have hd : ∀ (o : Option RefShape) (e : RefElt), (match o with
      | none => false
      | some s => decide (s.dim = e.dim ∧ e.ref ≠ [] ∧ (∀ n ∈ s.corners e.neg, n ∈ e.ref) ∧
        (∀ f ∈ s.faces e.neg, ∀ n ∈ e.ref, f.1.1 * n.getD 0 0 + f.1.2.1 * n.getD 1 0 + f.1.2.2 * n.getD 2 0 ≤ f.2))) = true →
      match o with
      | none => False
      | some s => s.dim = e.dim ∧ e.ref ≠ [] ∧ (∀ n ∈ s.corners e.neg, n ∈ e.ref) ∧
        (∀ f ∈ s.faces e.neg, ∀ n ∈ e.ref, f.1.1 * n.getD 0 0 + f.1.2.1 * n.getD 1 0 + f.1.2.2 * n.getD 2 0 ≤ f.2) := by
      intro o e h
      cases o with
      | none => simp at h
      | some s => simpa using h
    intro t ht e he h
    apply hd
    revert h
    revert t e
    decide +kernel
  intro t ht e he h
  have := key t ht e he h
  cases hs : refShape t.1 with
  | none => rw [hs] at this; exact this.elim
  | some s => rw [hs] at this; exact ⟨s, rfl, this⟩

/-- The hull of the reference nodes is given by the inequalities of the faces. -/
theorem hull_iff (t : Int × List RefElt) (ht : t ∈ gaussTable) (e : RefElt) (he : e ∈ t.2) (h : e.ref.Nodup ∨ t.1 = 6)
    (s : RefShape) (hs : refShape t.1 = some s) (p : List K) (hp : p.length = e.dim) :
    InHull e.ref p ↔ InsideRef s e.neg p := by
  obtain ⟨s', hs', hd, _, hc, hf⟩ := gaussTable_cells t ht e he h
  rw [hs] at hs'
  obtain rfl := Option.some.inj hs'
  constructor
  · intro hh f hfm
    exact hh.le f.1 f.2 (hf f hfm)
  · intro hh
    exact (hull_of_inside s e.neg p (hp.trans hd.symm) hh).mono hc

theorem forall_lt_add {a b : K} : (∀ eps : K, 0 < eps → a < b + eps) ↔ a ≤ b :=
  ⟨fun h => le_of_forall_pos_lt_add h, fun h eps he => by linarith⟩

theorem forall_le_add {a b : K} : (∀ eps : K, 0 < eps → a ≤ b + eps) ↔ a ≤ b :=
  ⟨fun h => le_of_forall_pos_le_add h, fun h eps he => by linarith⟩

theorem neg_half_iff (e : RefElt) (hne : e.ref.flatten ≠ []) :
    (ptOf (castL (K := K) e.ref.flatten) 0 < -(1 / 2)) ↔ e.neg = true := by
  rw [ptOf_cast]
  unfold RefElt.neg ptOf
  rw [decide_eq_true_eq]
  have : (-(1 / 2) : K) = ((-(1 / 2) : Rat) : K) := by push_cast; rfl
  rw [this]
  exact Rat.cast_lt

/-- The test with all the tolerances is the test of the faces (the pyramids have no test on the base). -/
theorem inOrOut_iff (s : RefShape) (r0 : K) (neg : Bool) (hr : (r0 < -(1 / 2)) ↔ neg = true) (p : List K)
    (hz : s = .pyra → 0 ≤ ptOf p 2) :
    (∀ eps : K, 0 < eps → inOrOut s r0 p eps = true) ↔ InsideRef s neg p := by
  unfold inOrOut InsideRef
  simp only [linAt]
  generalize ptOf p 0 = x at *
  generalize ptOf p 1 = y at *
  generalize ptOf p 2 = z at *
  have l (a b : K) : (∀ eps : K, 0 < eps → a < b + eps) ↔ a ≤ b := forall_lt_add
  have m (a b : K) : (∀ eps : K, 0 < eps → a > -b - eps) ↔ -b ≤ a := by
    refine ⟨fun h => le_of_forall_pos_lt_add fun e he => ?_, fun h e he => ?_⟩
    · have := h e he; linarith
    · linarith
  have m0 (a : K) : (∀ eps : K, 0 < eps → a > -eps) ↔ 0 ≤ a := by
    refine ⟨fun h => le_of_forall_pos_lt_add fun e he => ?_, fun h e he => ?_⟩
    · have := h e he; linarith
    · linarith
  have q (a : K) : (∀ eps : K, 0 < eps → ¬ |a| > 1 + eps) ↔ |a| ≤ 1 := by
    refine ⟨fun h => le_of_forall_pos_le_add fun e he => not_lt.mp (h e he), fun h e he => ?_⟩
    rw [not_lt]; linarith
  cases s with
  | seg =>
    by_cases hn : r0 < -(1 / 2)
    · rw [hr.mp hn]
      simp only [if_pos hn, decide_eq_true_eq, l, abs_le, RefShape.faces]
      simp [-and_congr_right_iff, -and_congr_left_iff]
      constructor <;> rintro ⟨h1, h2⟩ <;> constructor <;> linarith
    · have hneg : neg = false := by rw [← Bool.not_eq_true, ← hr]; exact hn
      rw [hneg]
      simp only [if_neg hn, decide_eq_true_eq, forall_and, l, m0, RefShape.faces]
      simp
  | tri =>
    by_cases hn : r0 < -(1 / 2)
    · rw [hr.mp hn]
      simp only [if_pos hn, decide_eq_true_eq, forall_and, l, m, RefShape.faces]
      simp [-and_congr_right_iff, -and_congr_left_iff]
      constructor
      · rintro ⟨h1, h2, h3, h4, h5⟩; exact ⟨by linarith, by linarith, by linarith⟩
      · rintro ⟨h1, h2, h3⟩; exact ⟨by linarith, by linarith, by linarith, by linarith, by linarith⟩
    · have hneg : neg = false := by rw [← Bool.not_eq_true, ← hr]; exact hn
      rw [hneg]
      simp only [if_neg hn, decide_eq_true_eq, forall_and, l, m0, RefShape.faces]
      simp [-and_congr_right_iff, -and_congr_left_iff]
      constructor
      · rintro ⟨h1, h2, h3, h4, h5⟩; exact ⟨by linarith, by linarith, by linarith⟩
      · rintro ⟨h1, h2, h3⟩; exact ⟨by linarith, by linarith, by linarith, by linarith, by linarith⟩
  | quad =>
    simp only [decide_eq_true_eq, forall_and, q, abs_le, RefShape.faces]
    simp [-and_congr_right_iff, -and_congr_left_iff]
    constructor
    · rintro ⟨⟨h1, h2⟩, h3, h4⟩; exact ⟨by linarith, by linarith, by linarith, by linarith⟩
    · rintro ⟨h1, h2, h3, h4⟩; exact ⟨⟨by linarith, by linarith⟩, by linarith, by linarith⟩
  | tetra =>
    simp only [decide_eq_true_eq, forall_and, l, m0, RefShape.faces]
    simp [-and_congr_right_iff, -and_congr_left_iff]
    constructor
    · rintro ⟨h1, h2, h3, h4, h5, h6, h7⟩; exact ⟨by linarith, by linarith, by linarith, by linarith⟩
    · rintro ⟨h1, h2, h3, h4⟩
      exact ⟨by linarith, by linarith, by linarith, by linarith, by linarith, by linarith, by linarith⟩
  | hexa =>
    simp only [decide_eq_true_eq, forall_and, q, abs_le, RefShape.faces]
    simp [-and_congr_right_iff, -and_congr_left_iff]
    constructor
    · rintro ⟨⟨h1, h2⟩, ⟨h3, h4⟩, h5, h6⟩
      exact ⟨by linarith, by linarith, by linarith, by linarith, by linarith, by linarith⟩
    · rintro ⟨h1, h2, h3, h4, h5, h6⟩
      exact ⟨⟨by linarith, by linarith⟩, ⟨by linarith, by linarith⟩, by linarith, by linarith⟩
  | penta =>
    simp only [decide_eq_true_eq, forall_and, l, m0, abs_le, RefShape.faces]
    simp [-and_congr_right_iff, -and_congr_left_iff]
    constructor
    · rintro ⟨⟨h1, h2⟩, h3, h4, h5, h6, h7⟩; exact ⟨by linarith, by linarith, by linarith, by linarith, by linarith⟩
    · rintro ⟨h1, h2, h3, h4, h5⟩
      exact ⟨⟨by linarith, by linarith⟩, by linarith, by linarith, by linarith, by linarith, by linarith⟩
  | pyra =>
    have hz' := hz rfl
    simp only [decide_eq_true_eq, l, RefShape.faces]
    simp [-and_congr_right_iff, -and_congr_left_iff]
    constructor
    · intro h
      have b2 := neg_abs_le x
      have b3 := le_abs_self x
      have b4 := neg_abs_le y
      have b5 := le_abs_self y
      exact ⟨by linarith, by linarith, by linarith, by linarith, hz'⟩
    · rintro ⟨h1, h2, h3, h4, h5⟩
      rcases abs_cases x with ⟨e, _⟩ | ⟨e, _⟩ <;> rcases abs_cases y with ⟨e', _⟩ | ⟨e', _⟩ <;> rw [e, e'] <;> linarith

/-- **C97.** A point is told to be in a reference cell, whatever the tolerance is, exactly when it is in the convex hull of
the nodes of the reference cell. (For the pyramids, among the points above the base only, see `C97_finding_pyramid_base`.)-/
theorem C97_inside_is_the_convex_hull (t : Int × List RefElt) (ht : t ∈ gaussTable) (e : RefElt) (he : e ∈ t.2)
    (h : e.ref.Nodup ∨ t.1 = 6) (p : List K) (hp : p.length = e.dim) (hz : t.1 = 15 ∨ t.1 = 23 → 0 ≤ p.getD 2 0) :
    (∀ eps : K, 0 < eps → isInOrOut t.1 (castL e.ref.flatten) p eps = .ok true) ↔ InHull e.ref p := by
  obtain ⟨s, hs, hd, hne, _, _⟩ := gaussTable_cells t ht e he h
  have hfl : e.ref.flatten ≠ [] := by
    have : ∀ t ∈ gaussTable, ∀ e ∈ t.2, e.ref.flatten ≠ [] := by decide
    exact this t ht e he
  have hp15 : s = .pyra → t.1 = 15 ∨ t.1 = 23 := by
    rintro rfl
    unfold refShape at hs
    repeat' split at hs
    all_goals first | assumption | simp at hs
  rw [hull_iff t ht e he h s hs p hp,
    ← inOrOut_iff s (ptOf (castL (K := K) e.ref.flatten) 0) e.neg (neg_half_iff e hfl) p (fun e => hz (hp15 e))]
  unfold isInOrOut
  rw [hs]
  dsimp only
  have hcn : castL (K := K) e.ref.flatten ≠ [] := by simpa [castL] using hfl
  have hno : ¬ ((s.usesRef = true ∧ castL (K := K) e.ref.flatten = []) ∨ p.length < s.dim) := by
    rw [not_or]; exact ⟨fun h => hcn h.2, by omega⟩
  simp only [if_neg hno, Except.ok.injEq]

end

end MC
