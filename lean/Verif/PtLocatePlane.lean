import Verif.PtLocateMesh
import Mathlib.Algebra.BigOperators.Fin
import Mathlib.Algebra.BigOperators.Group.Finset.Basic
import Mathlib.Tactic.LinearCombination
import Mathlib.Tactic.FieldSimp

/-!
# Location of points: the cells of the plane
-/

namespace MC
section
variable {K : Type} [Field K] [LinearOrder K] [IsStrictOrderedRing K]

/-- coordinates of a point -/
def ptX (pt : List K) (k : Nat) : K := pt.getD k 0

/-- the point is a combination of the nodes with coefficients of sum 1, which are at least `-tol`.  When `tol` is zero the point is in the convex hull of the nodes. -/
def InNodes (dim : Nat) (coords : List K) (tol : K) (nodes : List Int) (pt : List K) : Prop :=
  ∃ w : Nat → K, (∀ i, i < nodes.length → -tol ≤ w i) ∧ ∑ i ∈ Finset.range nodes.length, w i = 1 ∧
    ∀ k, k < dim → ptX pt k = ∑ i ∈ Finset.range nodes.length, w i * nodeX dim coords (nodes.getD i 0) k

/-- twice the signed area of the triangle `p`, `a`, `b` of the plane -/
def side2 (a b p : Nat → K) : K := (a 0 - p 0) * (b 1 - p 1) - (a 1 - p 1) * (b 0 - p 0)

/-- node ids of the mesh -/
def NodesOK (dim : Nat) (coords : List K) (nodes : List Int) : Prop := ∀ n ∈ nodes, 0 ≤ n ∧ n < ((coords.length / dim : Nat) : Int)

theorem ptSign_val (eps a : K) : ptSign eps a = -1 ∨ ptSign eps a = 0 ∨ ptSign eps a = 1 := by
  unfold ptSign; split_ifs <;> simp

theorem ptSign_neg {eps a : K} : ptSign eps a ≠ -1 ↔ -eps ≤ a := by
  unfold ptSign
  split_ifs with h1 h2
  · simpa using h1
  · simpa using le_of_not_gt h1
  · simpa using le_of_not_gt h1

theorem ptSign_pos {eps a : K} (he : 0 ≤ eps) : ptSign eps a ≠ 1 ↔ a ≤ eps := by
  unfold ptSign
  split_ifs with h1 h2
  · have : a ≤ eps := by linarith
    simpa using this
  · simpa using h2
  · simpa using le_of_not_gt h2

theorem decideFromSign_iff {l : List Int} (h : ∀ v ∈ l, v = -1 ∨ v = 0 ∨ v = 1) : decideFromSign l = true ↔ (∀ v ∈ l, v ≠ -1) ∨ ∀ v ∈ l, v ≠ 1 := by
  have key : ∀ (l : List Int), (∀ v ∈ l, v = -1 ∨ v = 0 ∨ v = 1) → ∀ (a b : Int), (a = -1 ∨ a = 0 ∨ a = 1) → (b = -1 ∨ b = 0 ∨ b = 1) →
      ∃ a' b', l.foldl (fun (s : Int × Int) v => (if v < s.1 then v else s.1, if v > s.2 then v else s.2)) (a, b) = (a', b') ∧
        (a' ≠ -1 ↔ a ≠ -1 ∧ ∀ v ∈ l, v ≠ -1) ∧ (b' ≠ 1 ↔ b ≠ 1 ∧ ∀ v ∈ l, v ≠ 1) := by
    intro l
    induction l with
    | nil => intro _ a b _ _; exact ⟨a, b, rfl, by simp, by simp⟩
    | cons v l ih =>
      intro h a b ha hb
      have hv := h v List.mem_cons_self
      obtain ⟨a', b', e, p, q⟩ := ih (fun x hx => h x (List.mem_cons_of_mem _ hx)) (if v < a then v else a) (if v > b then v else b)
        (by split_ifs <;> assumption) (by split_ifs <;> assumption)
      refine ⟨a', b', by rw [List.foldl_cons]; exact e, p.trans ?_, q.trans ?_⟩
      · rw [List.forall_mem_cons, ← and_assoc]
        apply and_congr_left'
        split_ifs <;> omega
      · rw [List.forall_mem_cons, ← and_assoc]
        apply and_congr_left'
        split_ifs <;> omega
  obtain ⟨a', b', e, p, q⟩ := key l h 1 (-1) (by simp) (by simp)
  unfold decideFromSign
  simp only [e, decide_eq_true_iff]
  rw [p, q]
  simp

theorem decideSigns_iff {ι : Type} {eps : K} (he : 0 ≤ eps) (l : List ι) (g : ι → K) :
    decideFromSign (l.map fun i => ptSign eps (g i)) = true ↔ (∀ i ∈ l, -eps ≤ g i) ∨ ∀ i ∈ l, g i ≤ eps := by
  rw [decideFromSign_iff (by
    intro v hv
    obtain ⟨i, -, rfl⟩ := List.mem_map.mp hv
    exact ptSign_val _ _)]
  simp only [List.forall_mem_map]
  apply or_congr
  · exact forall₂_congr fun i _ => ptSign_neg
  · exact forall₂_congr fun i _ => ptSign_pos he

omit [LinearOrder K] [IsStrictOrderedRing K] in
theorem rdV2_ok {coords : List K} {n : Int} (h0 : 0 ≤ n) (h1 : n < ((coords.length / 2 : Nat) : Int)) :
    rdV2 coords n = .ok ⟨nodeX 2 coords n 0, nodeX 2 coords n 1⟩ := by
  have e : ∀ j : Nat, j < 2 → rd coords (2 * n + (j : Int)) = .ok (nodeX 2 coords n j) := by
    intro j hj
    have : (2 : Int) * n + (j : Int) = ((2 * n.toNat + j : Nat) : Int) := by push_cast; rw [Int.toNat_of_nonneg h0]
    rw [this, rd_getD (by omega)]
    rfl
  unfold rdV2
  have e0 := e 0 (by omega)
  have e1 := e 1 (by omega)
  simp only [Nat.cast_zero, add_zero, Nat.cast_one] at e0 e1
  rw [e0, ok_bind, e1, ok_bind]

omit [LinearOrder K] [IsStrictOrderedRing K] in
theorem rdV2_pt {pt : List K} (h : pt.length = 2) : rdV2 pt 0 = .ok ⟨ptX pt 0, ptX pt 1⟩ := by
  rw [rdV2_ok (by omega) (by rw [h]; decide)]
  rfl

omit [LinearOrder K] [IsStrictOrderedRing K] in
theorem monDet_side (px py : K) (a b p : Nat → K) (h0 : p 0 = px) (h1 : p 1 = py) : monDet ⟨px, py⟩ ⟨a 0, a 1⟩ ⟨b 0, b 1⟩ = side2 a b p := by
  subst h0 h1
  unfold monDet side2
  ring

/-- the nodes of a cell, which are an edge of it when they are consecutive -/
def sideOf (coords : List K) (pt : List K) (nodes : List Int) (i : Nat) : K :=
  side2 (nodeX 2 coords (nodes.getD i 0)) (nodeX 2 coords (nodes.getD ((i + 1) % nodes.length) 0)) (ptX pt)

/-- C101: the test of the triangles and quadrangles of the plane.  The point is accepted when its determinants with all the edges of the cell are at least `-eps`, or when they are all at most `eps`. -/
theorem C101_test_in_the_plane {coords pt : List K} {eps : K} (he : 0 ≤ eps) (sqrtF : K → K) (big : K) (polyIn : List K → K → Cell → M Bool)
    {c : Cell} (ht : (c.type = 3 ∧ c.nodes.length = 3) ∨ (c.type = 4 ∧ c.nodes.length = 4)) (hn : NodesOK 2 coords c.nodes) (hp : pt.length = 2) :
    ∃ b, cellContains 2 sqrtF big polyIn coords pt eps c = .ok b ∧
      (b = true ↔ (∀ i, i < c.nodes.length → -eps ≤ sideOf coords pt c.nodes i) ∨ ∀ i, i < c.nodes.length → sideOf coords pt c.nodes i ≤ eps) := by
  obtain ⟨cm, h1, h2, h3⟩ : ∃ cm, getCellModel c.type = .ok cm ∧ cm.nbSons = c.nodes.length ∧ cm.quad = false := by
    rcases ht with ⟨h, h'⟩ | ⟨h, h'⟩
    · exact ⟨cm_tri3, by rw [h]; rfl, by rw [h']; rfl, rfl⟩
    · exact ⟨cm_quad4, by rw [h]; rfl, by rw [h']; rfl, rfl⟩
  have h5 : c.type ≠ 5 := by omega
  have hpos : 0 < c.nodes.length := by omega
  have hV : ∀ i, i < c.nodes.length → c.nodes.getD i 0 ∈ c.nodes := by
    intro i hi
    rw [List.getD_eq_getElem _ _ hi]
    exact List.getElem_mem hi
  refine ⟨_, ?_, decideSigns_iff he (List.range c.nodes.length) (sideOf coords pt c.nodes) |>.trans (by simp only [List.mem_range])⟩
  unfold cellContains
  rw [h1, ok_bind, if_pos rfl, if_pos ⟨h5, h3⟩]
  unfold contains2DSimple2
  rw [h1, ok_bind, rdV2_pt hp, ok_bind, h2]
  have e1 : (List.range c.nodes.length).mapM (fun (i : Nat) => (do
      let n ← rd c.nodes (i : Int)
      rdV2 coords n : M (V2 K))) = .ok ((List.range c.nodes.length).map fun i =>
        ⟨nodeX 2 coords (c.nodes.getD i 0) 0, nodeX 2 coords (c.nodes.getD i 0) 1⟩) := by
    apply mapM_ok_map
    intro i hi
    have hi := List.mem_range.mp hi
    rw [rd_natCast hi, ok_bind, ← List.getD_eq_getElem _ 0 hi]
    exact rdV2_ok (hn _ (hV i hi)).1 (hn _ (hV i hi)).2
  rw [e1, ok_bind]
  unfold contains2DSimple
  have e2 : (List.range c.nodes.length).mapM (fun (i : Nat) => (do
      let a ← rd ((List.range c.nodes.length).map fun i =>
        (⟨nodeX 2 coords (c.nodes.getD i 0) 0, nodeX 2 coords (c.nodes.getD i 0) 1⟩ : V2 K)) (i : Int)
      let b ← rd ((List.range c.nodes.length).map fun i =>
        (⟨nodeX 2 coords (c.nodes.getD i 0) 0, nodeX 2 coords (c.nodes.getD i 0) 1⟩ : V2 K)) (((i + 1) % c.nodes.length : Nat) : Int)
      .ok (ptSign eps (monDet ⟨ptX pt 0, ptX pt 1⟩ a b)) : M Int)) = .ok ((List.range c.nodes.length).map fun i => ptSign eps (sideOf coords pt c.nodes i)) := by
    apply mapM_ok_map
    intro i hi
    have hi := List.mem_range.mp hi
    have hj := Nat.mod_lt (i + 1) hpos
    rw [rd_natCast (by simpa using hi), ok_bind, rd_natCast (by simpa using hj), ok_bind]
    simp only [List.getElem_map, List.getElem_range]
    rw [monDet_side _ _ _ _ (ptX pt) rfl rfl]
    rfl
  rw [e2, ok_bind]

/-- a triangle: three nodes -/
theorem sides3 (coords pt : List K) (a b c : Int) (P : K → Prop) : (∀ i, i < [a, b, c].length → P (sideOf coords pt [a, b, c] i)) ↔
    P (side2 (nodeX 2 coords a) (nodeX 2 coords b) (ptX pt)) ∧ P (side2 (nodeX 2 coords b) (nodeX 2 coords c) (ptX pt)) ∧ P (side2 (nodeX 2 coords c) (nodeX 2 coords a) (ptX pt)) := by
  constructor
  · intro h
    exact ⟨h 0 (by simp), h 1 (by simp), by simpa [sideOf] using h 2 (by simp)⟩
  · rintro ⟨h0, h1, h2⟩ i hi
    have hi : i < 3 := by simpa using hi
    rcases (by omega : i = 0 ∨ i = 1 ∨ i = 2) with rfl | rfl | rfl
    · exact h0
    · exact h1
    · simpa [sideOf] using h2

theorem sides4 (coords pt : List K) (a b c d : Int) (P : K → Prop) : (∀ i, i < [a, b, c, d].length → P (sideOf coords pt [a, b, c, d] i)) ↔
    P (side2 (nodeX 2 coords a) (nodeX 2 coords b) (ptX pt)) ∧ P (side2 (nodeX 2 coords b) (nodeX 2 coords c) (ptX pt)) ∧ P (side2 (nodeX 2 coords c) (nodeX 2 coords d) (ptX pt)) ∧
      P (side2 (nodeX 2 coords d) (nodeX 2 coords a) (ptX pt)) := by
  constructor
  · intro h
    exact ⟨h 0 (by simp), h 1 (by simp), h 2 (by simp), by simpa [sideOf] using h 3 (by simp)⟩
  · rintro ⟨h0, h1, h2, h3⟩ i hi
    have hi : i < 4 := by simpa using hi
    rcases (by omega : i = 0 ∨ i = 1 ∨ i = 2 ∨ i = 3) with rfl | rfl | rfl | rfl
    · exact h0
    · exact h1
    · exact h2
    · simpa [sideOf] using h3

theorem inNodes3 {coords pt : List K} {tol : K} {a b c : Int} : InNodes 2 coords tol [a, b, c] pt ↔ ∃ u v w : K, -tol ≤ u ∧ -tol ≤ v ∧ -tol ≤ w ∧ u + v + w = 1 ∧
    ∀ k, k < 2 → ptX pt k = u * nodeX 2 coords a k + v * nodeX 2 coords b k + w * nodeX 2 coords c k := by
  unfold InNodes
  constructor
  · rintro ⟨w, h1, h2, h3⟩
    refine ⟨w 0, w 1, w 2, h1 0 (by simp), h1 1 (by simp), h1 2 (by simp), by simpa [Finset.sum_range_succ] using h2, fun k hk => ?_⟩
    simpa [Finset.sum_range_succ] using h3 k hk
  · rintro ⟨u, v, w, h0, h1, h2, h3, h4⟩
    refine ⟨fun i => if i = 0 then u else if i = 1 then v else w, fun i _ => ?_, by simpa [Finset.sum_range_succ] using h3, fun k hk => ?_⟩
    · dsimp only; split_ifs <;> assumption
    · simpa [Finset.sum_range_succ] using h4 k hk

theorem inNodes4 {dim : Nat} {coords pt : List K} {tol : K} {a b c d : Int} : InNodes dim coords tol [a, b, c, d] pt ↔ ∃ u v w t : K, -tol ≤ u ∧ -tol ≤ v ∧ -tol ≤ w ∧ -tol ≤ t ∧ u + v + w + t = 1 ∧
    ∀ k, k < dim → ptX pt k = u * nodeX dim coords a k + v * nodeX dim coords b k + w * nodeX dim coords c k + t * nodeX dim coords d k := by
  unfold InNodes
  constructor
  · rintro ⟨w, h1, h2, h3⟩
    refine ⟨w 0, w 1, w 2, w 3, h1 0 (by simp), h1 1 (by simp), h1 2 (by simp), h1 3 (by simp), by simpa [Finset.sum_range_succ] using h2, fun k hk => ?_⟩
    simpa [Finset.sum_range_succ] using h3 k hk
  · rintro ⟨u, v, w, t, h0, h1, h2, h5, h3, h4⟩
    refine ⟨fun i => if i = 0 then u else if i = 1 then v else if i = 2 then w else t, fun i _ => ?_, by simpa [Finset.sum_range_succ] using h3, fun k hk => ?_⟩
    · dsimp only; split_ifs <;> assumption
    · simpa [Finset.sum_range_succ] using h4 k hk

omit [LinearOrder K] [IsStrictOrderedRing K] in
/-- the determinants with the edges of a triangle are the barycentric coordinates times the area -/
theorem side2_combo {a b c p : Nat → K} {u v w : K} (h : u + v + w = 1) (hp : ∀ k, k < 2 → p k = u * a k + v * b k + w * c k) :
    side2 a b p = w * side2 a b c ∧ side2 b c p = u * side2 a b c ∧ side2 c a p = v * side2 a b c := by
  have h0 := hp 0 (by omega)
  have h1 := hp 1 (by omega)
  have hu : u = 1 - v - w := by linear_combination h
  subst hu
  unfold side2
  rw [h0, h1]
  refine ⟨?_, ?_, ?_⟩ <;> ring

omit [LinearOrder K] [IsStrictOrderedRing K] in
theorem side2_sum (a b c p : Nat → K) : side2 a b p + side2 b c p + side2 c a p = side2 a b c := by unfold side2; ring

/-- C101: a point is accepted by the test of a triangle of the plane whose doubled area is more than three times the tolerance exactly when all its barycentric coordinates are at least `-eps / (2 area)`.  With a null tolerance: exactly when it is in the triangle. -/
theorem C101_triangle_in_the_plane {coords pt : List K} {eps : K} (he : 0 ≤ eps) (sqrtF : K → K) (big : K) (polyIn : List K → K → Cell → M Bool)
    {a b c : Int} (hn : NodesOK 2 coords [a, b, c]) (hp : pt.length = 2)
    (hA : 3 * eps < |side2 (nodeX 2 coords a) (nodeX 2 coords b) (nodeX 2 coords c)|) :
    cellContains 2 sqrtF big polyIn coords pt eps ⟨3, [a, b, c]⟩ = .ok true ↔
      InNodes 2 coords (eps / |side2 (nodeX 2 coords a) (nodeX 2 coords b) (nodeX 2 coords c)|) [a, b, c] pt := by
  obtain ⟨r, r1, r2⟩ := C101_test_in_the_plane (c := ⟨3, [a, b, c]⟩) he sqrtF big polyIn (Or.inl ⟨rfl, rfl⟩) hn hp
  rw [r1]
  have hr : (Except.ok r : M Bool) = .ok true ↔ r = true := by simp
  rw [hr, r2]
  have s1 := sides3 coords pt a b c (fun x => -eps ≤ x)
  have s2 := sides3 coords pt a b c (fun x => x ≤ eps)
  rw [s1, s2, inNodes3]
  generalize hA0 : side2 (nodeX 2 coords a) (nodeX 2 coords b) (nodeX 2 coords c) = A at *
  have hsum := side2_sum (nodeX 2 coords a) (nodeX 2 coords b) (nodeX 2 coords c) (ptX pt)
  rw [hA0] at hsum
  have hpos : 0 < |A| := by linarith
  have hA' : A ≠ 0 := abs_pos.mp hpos
  -- the barycentric coordinates are determined
  have hex : ∀ k, k < 2 → ptX pt k = side2 (nodeX 2 coords b) (nodeX 2 coords c) (ptX pt) / A * nodeX 2 coords a k +
      side2 (nodeX 2 coords c) (nodeX 2 coords a) (ptX pt) / A * nodeX 2 coords b k + side2 (nodeX 2 coords a) (nodeX 2 coords b) (ptX pt) / A * nodeX 2 coords c k := by
    intro k hk
    have : A * ptX pt k = side2 (nodeX 2 coords b) (nodeX 2 coords c) (ptX pt) * nodeX 2 coords a k +
      side2 (nodeX 2 coords c) (nodeX 2 coords a) (ptX pt) * nodeX 2 coords b k + side2 (nodeX 2 coords a) (nodeX 2 coords b) (ptX pt) * nodeX 2 coords c k := by
      rw [← hA0]
      unfold side2
      rcases (by omega : k = 0 ∨ k = 1) with rfl | rfl <;> ring
    field_simp
    linear_combination this
  have hiff : (∃ u v w : K, -(eps / |A|) ≤ u ∧ -(eps / |A|) ≤ v ∧ -(eps / |A|) ≤ w ∧ u + v + w = 1 ∧
      ∀ k, k < 2 → ptX pt k = u * nodeX 2 coords a k + v * nodeX 2 coords b k + w * nodeX 2 coords c k) ↔
      -(eps / |A|) ≤ side2 (nodeX 2 coords a) (nodeX 2 coords b) (ptX pt) / A ∧ -(eps / |A|) ≤ side2 (nodeX 2 coords b) (nodeX 2 coords c) (ptX pt) / A ∧
        -(eps / |A|) ≤ side2 (nodeX 2 coords c) (nodeX 2 coords a) (ptX pt) / A := by
    constructor
    · rintro ⟨u, v, w, hu, hv, hw, h1, h2⟩
      obtain ⟨c1, c2, c3⟩ := side2_combo h1 h2
      rw [hA0] at c1 c2 c3
      rw [c1, c2, c3, mul_div_cancel_right₀ _ hA', mul_div_cancel_right₀ _ hA', mul_div_cancel_right₀ _ hA']
      exact ⟨hw, hu, hv⟩
    · rintro ⟨h1, h2, h3⟩
      refine ⟨_, _, _, h2, h3, h1, ?_, hex⟩
      field_simp
      linear_combination hsum
  rw [hiff]
  have hdiv : ∀ x : K, -(eps / |A|) ≤ x / A ↔ if 0 < A then -eps ≤ x else x ≤ eps := by
    intro x
    split_ifs with h
    · rw [abs_of_pos h, ← neg_div, div_le_div_iff_of_pos_right h]
    · have h' : A < 0 := lt_of_le_of_ne (le_of_not_gt h) hA'
      rw [abs_of_neg h', div_neg, neg_neg, div_le_div_right_of_neg h']
  rw [hdiv, hdiv, hdiv]
  generalize side2 (nodeX 2 coords a) (nodeX 2 coords b) (ptX pt) = x at *
  generalize side2 (nodeX 2 coords b) (nodeX 2 coords c) (ptX pt) = y at *
  generalize side2 (nodeX 2 coords c) (nodeX 2 coords a) (ptX pt) = z at *
  split_ifs with h
  · rw [abs_of_pos h] at hA
    constructor
    · rintro (h1 | ⟨h1, h2, h3⟩)
      · exact h1
      · linarith
    · exact Or.inl
  · have h' : A < 0 := lt_of_le_of_ne (le_of_not_gt h) hA'
    rw [abs_of_neg h'] at hA
    constructor
    · rintro (⟨h1, h2, h3⟩ | h1)
      · linarith
      · exact h1
    · exact Or.inr

end
end MC
