import Verif.PtLocateSpace

/-!
# Location of points: the meshes of the space and of the line
-/

namespace MC
section
variable {K : Type} [Field K] [LinearOrder K] [IsStrictOrderedRing K]

omit [LinearOrder K] [IsStrictOrderedRing K] in
/-- the volume is affine in the point -/
theorem side3_combo {n : Nat} {w : Nat → K} {x : Nat → Nat → K} {p : Nat → K} (h1 : ∑ i ∈ Finset.range n, w i = 1) (hp : ∀ k, k < 3 → p k = ∑ i ∈ Finset.range n, w i * x i k)
    (a b c : Nat → K) : side3 a b c p = ∑ i ∈ Finset.range n, w i * side3 a b c (x i) := by
  have e : ∀ i, w i * side3 a b c (x i) = nrm3 a b c 0 * (w i * x i 0) + nrm3 a b c 1 * (w i * x i 1) + nrm3 a b c 2 * (w i * x i 2) -
      (nrm3 a b c 0 * a 0 + nrm3 a b c 1 * a 1 + nrm3 a b c 2 * a 2) * w i := by
    intro i; unfold side3; ring
  simp only [e]
  rw [Finset.sum_sub_distrib, Finset.sum_add_distrib, Finset.sum_add_distrib, ← Finset.mul_sum, ← Finset.mul_sum, ← Finset.mul_sum, ← Finset.mul_sum,
    ← hp 0 (by omega), ← hp 1 (by omega), ← hp 2 (by omega), h1]
  unfold side3
  ring

/-- a cell of the space all the nodes of which are on the same side of the planes of three consecutive nodes of its faces -/
def ConvexSpace (coords : List K) (c : Cell) : Prop :=
  c.type ≠ 5 ∧ c.nodeIds ≠ [] ∧ NodesOK 3 coords c.nodeIds ∧ ∃ cm sons, getCellModel c.type = .ok cm ∧ cm.allSons c.nodes = .ok sons ∧ sons ≠ [] ∧
    (∀ s ∈ sons, s.2 ≠ [] ∧ NodesOK 3 coords s.2) ∧
    ∃ σ : K, σ ≠ 0 ∧ ∀ s ∈ sons, ∀ i, ∀ n ∈ c.nodeIds, 0 ≤ σ * side3 (nodeX 3 coords (faceNode s.2 i)) (nodeX 3 coords (faceNode s.2 (i + 1))) (nodeX 3 coords (faceNode s.2 (i + 2))) (nodeX 3 coords n)

theorem sign_of_scaled {σ : K} (hσ : σ ≠ 0) {ι : Type} {l : List ι} {g : ι → K} {eps : K} (he : 0 ≤ eps) (h : ∀ t ∈ l, 0 ≤ σ * g t) : (∀ t ∈ l, -eps ≤ g t) ∨ ∀ t ∈ l, g t ≤ eps := by
  rcases lt_or_gt_of_ne hσ with hs | hs
  · right
    intro t ht
    have : g t ≤ 0 := by
      by_contra hc
      have := mul_neg_of_neg_of_pos hs (not_le.mp hc)
      linarith [h t ht]
    linarith
  · left
    intro t ht
    have := nonneg_of_mul_nonneg_right (h t ht) hs
    linarith

/-- C101: the test of a convex cell of the space (one whose nodes are all on the same side of its faces), whatever its type, gives an answer, and accepts every point of the convex hull of the nodes, border included, whatever the tolerance. -/
theorem C101_convex_cells_of_the_space {coords pt : List K} {big eps : K} (he : 0 ≤ eps) {sqrtF : K → K} (hs : IsSqrt sqrtF) (polyIn : List K → K → Cell → M Bool) {c : Cell}
    (hc : ConvexSpace coords c) (hb : ∀ x ∈ coords, -big ≤ x ∧ x ≤ big) (hp : pt.length = 3) :
    (∃ b, cellContains 3 sqrtF big polyIn coords pt eps c = .ok b) ∧ (InNodes 3 coords 0 c.nodeIds pt → cellContains 3 sqrtF big polyIn coords pt eps c = .ok true) := by
  obtain ⟨h5, hid, hno, cm, sons, hcm, hsons, hne, hn, σ, hσ, hcv⟩ := hc
  obtain ⟨b, ranks, f, t1, t2, t3, -, -, t4⟩ := C101_test_in_space he hs polyIn h5 hcm hsons hne hn hb hp
  refine ⟨⟨b, t1⟩, ?_⟩
  rintro ⟨w, w0, w1, w2⟩
  rw [neg_zero] at w0
  rw [t1]
  congr 1
  rw [t4]
  apply sign_of_scaled hσ he
  intro t ht
  have hside : 0 ≤ σ * side3 (nodeX 3 coords t.1) (nodeX 3 coords t.2.1) (nodeX 3 coords t.2.2) (ptX pt) := by
    rw [List.mem_iff_getElem] at ht
    obtain ⟨j, hj, rfl⟩ := ht
    rw [List.length_zipWith] at hj
    rw [List.getElem_zipWith, side3_combo w1 w2, Finset.mul_sum]
    apply Finset.sum_nonneg
    intro i hi
    have hi := Finset.mem_range.mp hi
    have hm : c.nodeIds.getD i 0 ∈ c.nodeIds := by
      rw [List.getD_eq_getElem _ _ hi]; exact List.getElem_mem hi
    have := mul_nonneg (w0 i hi) (hcv _ (List.getElem_mem (l := sons) (n := j) (by omega)) (ranks[j]'(by omega)) _ hm)
    calc (0 : K) ≤ _ := this
      _ = _ := by unfold faceTri; ring
  have hsq := (hs _ (nrmSq_nonneg (nodeX 3 coords t.1) (nodeX 3 coords t.2.1) (nodeX 3 coords t.2.2))).1
  have : σ * (planeDist sqrtF (nodeX 3 coords t.1) (nodeX 3 coords t.2.1) (nodeX 3 coords t.2.2) (ptX pt) / f) =
      σ * side3 (nodeX 3 coords t.1) (nodeX 3 coords t.2.1) (nodeX 3 coords t.2.2) (ptX pt) / sqrtF (nrmSq (nodeX 3 coords t.1) (nodeX 3 coords t.2.1) (nodeX 3 coords t.2.2)) / f := by
    unfold planeDist; ring
  rw [this]
  exact div_nonneg (div_nonneg hside hsq) t2

/-- a tetrahedron which is not flat -/
def ProperTetra (coords : List K) (c : Cell) : Prop :=
  c.type = 14 ∧ NodesOK 3 coords c.nodes ∧ ∃ p q r s, c.nodes = [p, q, r, s] ∧ side3 (nodeX 3 coords p) (nodeX 3 coords q) (nodeX 3 coords r) (nodeX 3 coords s) ≠ 0

theorem tetra_sons (p q r s : Int) : cm_tetra4.allSons [p, q, r, s] = .ok [(3, [p, q, r]), (3, [p, s, q]), (3, [q, s, r]), (3, [r, s, p])] := by
  rw [allSons_static (t := 14) rfl rfl (by decide) rfl]
  rfl

omit [LinearOrder K] [IsStrictOrderedRing K] in
/-- the faces of a tetrahedron seen from its nodes -/
theorem tetra_faces (p q r s : Nat → K) : side3 p s q r = side3 p q r s ∧ side3 q s r p = side3 p q r s ∧ side3 r s p q = side3 p q r s := by
  refine ⟨?_, ?_, ?_⟩ <;> (simp only [side3, nrm3]; norm_num; ring)

omit [LinearOrder K] [IsStrictOrderedRing K] in
theorem side3_rot (a b c p : Nat → K) : side3 b c a p = side3 a b c p := by
  simp only [side3, nrm3]; norm_num; ring

omit [LinearOrder K] [IsStrictOrderedRing K] in
theorem side3_self (a b c : Nat → K) : side3 a b c a = 0 ∧ side3 a b c b = 0 ∧ side3 a b c c = 0 := by
  refine ⟨?_, ?_, ?_⟩ <;> (simp only [side3, nrm3]; norm_num; try ring)

theorem faceNode_three (a b c : Int) (i : Nat) : (faceNode [a, b, c] i, faceNode [a, b, c] (i + 1), faceNode [a, b, c] (i + 2)) = (a, b, c) ∨
    (faceNode [a, b, c] i, faceNode [a, b, c] (i + 1), faceNode [a, b, c] (i + 2)) = (b, c, a) ∨
    (faceNode [a, b, c] i, faceNode [a, b, c] (i + 1), faceNode [a, b, c] (i + 2)) = (c, a, b) := by
  unfold faceNode
  have hl : [a, b, c].length = 3 := rfl
  rw [hl]
  rcases (by omega : i % 3 = 0 ∨ i % 3 = 1 ∨ i % 3 = 2) with h | h | h
  · left; rw [h, show (i + 1) % 3 = 1 by omega, show (i + 2) % 3 = 2 by omega]; rfl
  · right; left; rw [h, show (i + 1) % 3 = 2 by omega, show (i + 2) % 3 = 0 by omega]; rfl
  · right; right; rw [h, show (i + 1) % 3 = 0 by omega, show (i + 2) % 3 = 1 by omega]; rfl

/-- a tetrahedron is convex -/
theorem tetra_convex {coords : List K} {c : Cell} (hc : ProperTetra coords c) : ConvexSpace coords c ∧ c.nodeIds = c.nodes := by
  obtain ⟨ht, hn, p, q, r, s, hnodes, hne⟩ := hc
  have hids : c.nodeIds = c.nodes := by
    unfold Cell.nodeIds
    apply List.filter_eq_self.mpr
    intro n hm
    exact decide_eq_true (hn n hm).1
  have hmem : ∀ n, n ∈ c.nodes ↔ n = p ∨ n = q ∨ n = r ∨ n = s := by rw [hnodes]; simp
  have hP := hn p ((hmem p).mpr (by simp)); have hQ := hn q ((hmem q).mpr (by simp))
  have hR := hn r ((hmem r).mpr (by simp)); have hS := hn s ((hmem s).mpr (by simp))
  refine ⟨⟨by omega, by rw [hids, hnodes]; simp, by rw [hids]; exact hn, cm_tetra4, _, by rw [ht]; rfl, by rw [hnodes]; exact tetra_sons p q r s, by simp, ?_, ?_⟩, hids⟩
  · intro f hf
    simp only [List.mem_cons, List.not_mem_nil, or_false] at hf
    unfold NodesOK
    rcases hf with rfl | rfl | rfl | rfl <;> (refine ⟨by simp, ?_⟩; intro n hm; simp only [List.mem_cons, List.not_mem_nil, or_false] at hm; rcases hm with rfl | rfl | rfl <;> assumption)
  · refine ⟨side3 (nodeX 3 coords p) (nodeX 3 coords q) (nodeX 3 coords r) (nodeX 3 coords s), hne, ?_⟩
    rw [hids]
    -- each face, each rank
    have face : ∀ (a b c d : Int), side3 (nodeX 3 coords a) (nodeX 3 coords b) (nodeX 3 coords c) (nodeX 3 coords d) = side3 (nodeX 3 coords p) (nodeX 3 coords q) (nodeX 3 coords r) (nodeX 3 coords s) →
        ∀ i n, (n = a ∨ n = b ∨ n = c ∨ n = d) → 0 ≤ side3 (nodeX 3 coords p) (nodeX 3 coords q) (nodeX 3 coords r) (nodeX 3 coords s) *
          side3 (nodeX 3 coords (faceNode [a, b, c] i)) (nodeX 3 coords (faceNode [a, b, c] (i + 1))) (nodeX 3 coords (faceNode [a, b, c] (i + 2))) (nodeX 3 coords n) := by
      intro a b c d hD i n hn
      have rot : side3 (nodeX 3 coords (faceNode [a, b, c] i)) (nodeX 3 coords (faceNode [a, b, c] (i + 1))) (nodeX 3 coords (faceNode [a, b, c] (i + 2))) (nodeX 3 coords n) =
          side3 (nodeX 3 coords a) (nodeX 3 coords b) (nodeX 3 coords c) (nodeX 3 coords n) := by
        rcases faceNode_three a b c i with h | h | h <;> (simp only [Prod.mk.injEq] at h; rw [h.1, h.2.1, h.2.2])
        · exact side3_rot _ _ _ _
        · rw [side3_rot, side3_rot]
      rw [rot]
      obtain ⟨z1, z2, z3⟩ := side3_self (nodeX 3 coords a) (nodeX 3 coords b) (nodeX 3 coords c)
      rcases hn with rfl | rfl | rfl | rfl
      · rw [z1, mul_zero]
      · rw [z2, mul_zero]
      · rw [z3, mul_zero]
      · rw [hD]; exact mul_self_nonneg _
    obtain ⟨f1, f2, f3⟩ := tetra_faces (nodeX 3 coords p) (nodeX 3 coords q) (nodeX 3 coords r) (nodeX 3 coords s)
    intro f hf i n hm
    have hm := (hmem n).mp hm
    simp only [List.mem_cons, List.not_mem_nil, or_false] at hf
    rcases hf with rfl | rfl | rfl | rfl
    · exact face p q r s rfl i n (by tauto)
    · exact face p s q r f1 i n (by tauto)
    · exact face q s r p f2 i n (by tauto)
    · exact face r s p q f3 i n (by tauto)

/-- C101: with a null tolerance, the test of a tetrahedron which is not flat accepts exactly the points of the tetrahedron. -/
theorem C101_tetrahedra {coords pt : List K} {big : K} {sqrtF : K → K} (hs : IsSqrt sqrtF) (polyIn : List K → K → Cell → M Bool) {c : Cell}
    (hc : ProperTetra coords c) (hb : ∀ x ∈ coords, -big ≤ x ∧ x ≤ big) (hp : pt.length = 3) :
    cellContains 3 sqrtF big polyIn coords pt 0 c = .ok true ↔ InNodes 3 coords 0 c.nodes pt := by
  constructor
  swap
  · intro hin
    obtain ⟨hcv, hids⟩ := tetra_convex hc
    exact (C101_convex_cells_of_the_space (le_refl _) hs polyIn hcv hb hp).2 (by rw [hids]; exact hin)
  obtain ⟨⟨h5, -, -, cm, sons, hcm, hsons, hne, hn, -⟩, -⟩ := tetra_convex hc
  obtain ⟨ht, hno, p, q, r, s, hnodes, hD⟩ := hc
  have ecm : cm = cm_tetra4 := by
    rw [ht] at hcm
    have : (Except.ok cm : M CellModel) = .ok cm_tetra4 := hcm.symm.trans rfl
    simpa using this
  subst ecm
  have esons : sons = [(3, [p, q, r]), (3, [p, s, q]), (3, [q, s, r]), (3, [r, s, p])] := by
    rw [hnodes, tetra_sons] at hsons
    simpa using hsons.symm
  obtain ⟨b, ranks, f, t1, t2, t3, t4, -, t6⟩ := C101_test_in_space (le_refl (0 : K)) hs polyIn h5 hcm hsons hne hn hb hp
  have er : ranks = [0, 0, 0, 0] := by
    rw [esons] at t3
    have hall := t3.imp fun _ _ h => h.1 (by rw [ht]; decide)
    match ranks, hall with
    | [a, b, c, d], hall =>
      simp only [List.forall₂_cons, List.forall₂_nil_left_iff, and_true] at hall
      obtain ⟨rfl, rfl, rfl, rfl⟩ := hall
      rfl
  rw [esons, er] at t4 t6
  simp only [List.zipWith_cons_cons, List.zipWith_nil_left, faceTri, faceNode, List.length_cons, List.length_nil] at t4 t6
  norm_num at t4 t6
  rw [t1]
  intro hb'
  have hb' : b = true := by simpa using hb'
  rw [t6] at hb'
  generalize hP : nodeX 3 coords p = P at *
  generalize hQ : nodeX 3 coords q = Q at *
  generalize hR : nodeX 3 coords r = R at *
  generalize hS : nodeX 3 coords s = S at *
  have hf : 0 < f := by
    rcases t2.eq_or_lt with h | h
    · exfalso
      subst h
      have eq : ∀ k, k < 3 → Q k = P k ∧ R k = P k ∧ S k = P k := by
        intro k hk
        have hk := t4 k hk
        simp only [zero_add] at hk
        refine ⟨le_antisymm hk.2.1.1 hk.1.2.1, le_antisymm hk.2.2.1.1 hk.1.2.2.1, le_antisymm hk.2.2.2.2.1.1 hk.1.2.2.2.2.1⟩
      apply hD
      obtain ⟨a0, b0, c0⟩ := eq 0 (by omega)
      obtain ⟨a1, b1, c1⟩ := eq 1 (by omega)
      obtain ⟨a2, b2, c2⟩ := eq 2 (by omega)
      simp only [side3, c0, c1, c2]
      ring
    · exact h
  have sq : ∀ a b c d : Nat → K, side3 a b c d ≠ 0 → 0 < sqrtF (nrmSq a b c) := by
    intro a b c d h
    obtain ⟨h1, h2⟩ := hs _ (nrmSq_nonneg a b c)
    rcases h1.eq_or_lt with h0 | h0
    · exfalso
      rw [← h0, mul_zero] at h2
      have n0 : nrm3 a b c 0 = 0 ∧ nrm3 a b c 1 = 0 ∧ nrm3 a b c 2 = 0 := by
        have h3 : nrm3 a b c 0 * nrm3 a b c 0 + nrm3 a b c 1 * nrm3 a b c 1 + nrm3 a b c 2 * nrm3 a b c 2 = 0 := h2.symm
        have q0 := mul_self_nonneg (nrm3 a b c 0); have q1 := mul_self_nonneg (nrm3 a b c 1); have q2 := mul_self_nonneg (nrm3 a b c 2)
        exact ⟨mul_self_eq_zero.mp (by linarith), mul_self_eq_zero.mp (by linarith), mul_self_eq_zero.mp (by linarith)⟩
      apply h
      unfold side3
      rw [n0.1, n0.2.1, n0.2.2]
      ring
    · exact h0
  obtain ⟨f1, f2, f3⟩ := tetra_faces P Q R S
  have pos : ∀ a b c d : Nat → K, side3 a b c d = side3 P Q R S → (0 ≤ planeDist sqrtF a b c (ptX pt) / f ↔ 0 ≤ side3 a b c (ptX pt)) ∧ (planeDist sqrtF a b c (ptX pt) / f ≤ 0 ↔ side3 a b c (ptX pt) ≤ 0) := by
    intro a b c d h
    have := sq a b c d (by rw [h]; exact hD)
    unfold planeDist
    constructor
    · rw [le_div_iff₀ hf, zero_mul, le_div_iff₀ this, zero_mul]
    · rw [div_le_iff₀ hf, zero_mul, div_le_iff₀ this, zero_mul]
  rw [(pos P Q R S rfl).1, (pos P S Q R f1).1, (pos Q S R P f2).1, (pos R S P Q f3).1, (pos P Q R S rfl).2, (pos P S Q R f1).2, (pos Q S R P f2).2, (pos R S P Q f3).2] at hb'
  have hsum : side3 P Q R (ptX pt) + side3 P S Q (ptX pt) + side3 Q S R (ptX pt) + side3 R S P (ptX pt) = side3 P Q R S := by
    simp only [side3, nrm3]; norm_num; ring
  have hcomb : ∀ k, k < 3 → side3 P Q R S * ptX pt k = side3 Q S R (ptX pt) * P k + side3 R S P (ptX pt) * Q k + side3 P S Q (ptX pt) * R k + side3 P Q R (ptX pt) * S k := by
    intro k hk
    simp only [side3, nrm3]
    rcases (by omega : k = 0 ∨ k = 1 ∨ k = 2) with rfl | rfl | rfl <;> (norm_num; ring)
  have hw : ∃ u v w t : K, -(0 : K) ≤ u ∧ -(0 : K) ≤ v ∧ -(0 : K) ≤ w ∧ -(0 : K) ≤ t ∧ u + v + w + t = 1 ∧ ∀ k, k < 3 → ptX pt k = u * P k + v * Q k + w * R k + t * S k := by
    refine ⟨side3 Q S R (ptX pt) / side3 P Q R S, side3 R S P (ptX pt) / side3 P Q R S, side3 P S Q (ptX pt) / side3 P Q R S, side3 P Q R (ptX pt) / side3 P Q R S, ?_⟩
    have last : side3 Q S R (ptX pt) / side3 P Q R S + side3 R S P (ptX pt) / side3 P Q R S + side3 P S Q (ptX pt) / side3 P Q R S + side3 P Q R (ptX pt) / side3 P Q R S = 1 ∧
        ∀ k, k < 3 → ptX pt k = side3 Q S R (ptX pt) / side3 P Q R S * P k + side3 R S P (ptX pt) / side3 P Q R S * Q k + side3 P S Q (ptX pt) / side3 P Q R S * R k + side3 P Q R (ptX pt) / side3 P Q R S * S k := by
      constructor
      · field_simp
        linear_combination hsum
      · intro k hk
        have := hcomb k hk
        field_simp
        linear_combination this
    rw [neg_zero]
    rcases hb' with ⟨h1, h2, h3, h4⟩ | ⟨h1, h2, h3, h4⟩
    · have hp' : 0 ≤ side3 P Q R S := by linarith
      exact ⟨div_nonneg h3 hp', div_nonneg h4 hp', div_nonneg h2 hp', div_nonneg h1 hp', last⟩
    · have hp' : side3 P Q R S ≤ 0 := by linarith
      exact ⟨div_nonneg_of_nonpos h3 hp', div_nonneg_of_nonpos h4 hp', div_nonneg_of_nonpos h2 hp', div_nonneg_of_nonpos h1 hp', last⟩
  rw [hnodes, inNodes4]
  subst hP hQ hR hS
  exact hw

/-- C101: on a mesh of convex cells of the space, `getCellsContainingPoints` never fails.  Whatever the tolerance, the cells returned for a point are all different and hold every cell in which the point is, border included.  When the tolerance is null, the point is in every tetrahedron which is returned. -/
theorem C101_meshes_of_the_space {coords : List K} {big eps : K} (he : 0 ≤ eps) {conn connI : List Int} {cells : List Cell} {sqrtF : K → K} (hs : IsSqrt sqrtF) (polyIn : List K → K → Cell → M Bool)
    (h : IsMesh conn connI cells) (hc : ∀ c ∈ cells, ConvexSpace coords c) (hb : ∀ x ∈ coords, -big ≤ x ∧ x ≤ big)
    (pts : List (List K)) (hp : ∀ pt ∈ pts, pt.length = 3) :
    ∃ found : List (List Nat), getCellsContainingPoints 3 3 coords conn connI sqrtF big polyIn eps pts =
        .ok (found.flatten, (List.range (pts.length + 1)).map fun i => (found.take i).flatten.length) ∧
      List.Forall₂ (fun (pt : List K) (f : List Nat) => f.Nodup ∧ (∀ e ∈ f, e < cells.length) ∧ ∀ (e : Nat) (he : e < cells.length),
        (InNodes 3 coords 0 cells[e].nodeIds pt → e ∈ f) ∧ (eps = 0 → ProperTetra coords cells[e] → e ∈ f → InNodes 3 coords 0 cells[e].nodes pt)) pts found := by
  obtain ⟨found, f1, f2⟩ := C101_cells_of_points (dim := 3) (meshDim := 3) (Or.inr (Or.inr rfl)) rfl (eps := eps) sqrtF polyIn h (by
    intro c hcm
    obtain ⟨-, hne, hn, -⟩ := hc c hcm
    obtain ⟨n, hm⟩ := List.exists_mem_of_ne_nil _ hne
    exact ⟨n, List.mem_of_mem_filter hm, hn n hm⟩) hb pts hp (by
    intro pt hpt c hcm
    exact (C101_convex_cells_of_the_space he hs polyIn (hc c hcm) hb (hp pt hpt)).1)
  refine ⟨found, f1, ?_⟩
  refine (forall2_mem f2 hp).imp ?_
  rintro pt f ⟨hpt, g1, g2⟩
  refine ⟨g1, fun e h => ((g2 e).mp h).1, fun e hel => ?_⟩
  have hcm := hc _ (List.getElem_mem hel)
  constructor
  · intro hin
    exact (g2 e).mpr ⟨hel, inNodes_nearBox he hcm.2.2.1 (fun n hm => List.mem_of_mem_filter hm) hin, (C101_convex_cells_of_the_space he hs polyIn hcm hb hpt).2 hin⟩
  · intro h0 ht hf
    subst h0
    obtain ⟨_, -, h3⟩ := (g2 e).mp hf
    exact (C101_tetrahedra hs polyIn ht hb hpt).mp h3

/-- a segment of the line -/
def SegLine (coords : List K) (c : Cell) : Prop := c.type = 1 ∧ c.nodes.length = 2 ∧ NodesOK 1 coords c.nodes

/-- C101: on a mesh of segments of the line, the cells returned for a point are those at a distance strictly smaller than the tolerance of the segment; a point strictly inside a segment is always found in it. -/
theorem C101_meshes_of_the_line {coords : List K} {big eps : K} {conn connI : List Int} {cells : List Cell} (sqrtF : K → K) (polyIn : List K → K → Cell → M Bool)
    (h : IsMesh conn connI cells) (hc : ∀ c ∈ cells, SegLine coords c) (hb : ∀ x ∈ coords, -big ≤ x ∧ x ≤ big)
    (pts : List (List K)) (hp : ∀ pt ∈ pts, pt.length = 1) :
    ∃ found : List (List Nat), getCellsContainingPoints 1 1 coords conn connI sqrtF big polyIn eps pts =
        .ok (found.flatten, (List.range (pts.length + 1)).map fun i => (found.take i).flatten.length) ∧
      List.Forall₂ (fun (pt : List K) (f : List Nat) => f.Nodup ∧ (∀ e ∈ f, e < cells.length) ∧ ∀ (e : Nat) (he : e < cells.length),
        (e ∈ f ↔ min (nodeX 1 coords (cells[e].nodes.getD 0 0) 0) (nodeX 1 coords (cells[e].nodes.getD 1 0) 0) - eps < ptX pt 0 ∧
          ptX pt 0 < max (nodeX 1 coords (cells[e].nodes.getD 0 0) 0) (nodeX 1 coords (cells[e].nodes.getD 1 0) 0) + eps)) pts found := by
  have test : ∀ c ∈ cells, ∀ pt ∈ pts, cellContains 1 sqrtF big polyIn coords pt eps c =
      .ok (decide (min (nodeX 1 coords (c.nodes.getD 0 0) 0) (nodeX 1 coords (c.nodes.getD 1 0) 0) - eps < ptX pt 0 ∧
          ptX pt 0 < max (nodeX 1 coords (c.nodes.getD 0 0) 0) (nodeX 1 coords (c.nodes.getD 1 0) 0) + eps)) := by
    intro c hcm pt hpt
    obtain ⟨ht, hl, hn⟩ := hc c hcm
    obtain ⟨a, b, hab⟩ := List.length_eq_two.mp hl
    have rdN : ∀ n ∈ c.nodes, rd coords n = .ok (nodeX 1 coords n 0) := by
      intro n hm
      obtain ⟨h0, h1⟩ := hn n hm
      rw [Nat.div_one] at h1
      have e : n = ((n.toNat : Nat) : Int) := (Int.toNat_of_nonneg h0).symm
      have := rd_getD (l := coords) (i := n.toNat) (by omega)
      rw [← e] at this
      rw [this]
      unfold nodeX
      simp
    have hpx : rd pt 0 = .ok (ptX pt 0) := by
      have := rd_getD (l := pt) (i := 0) (by rw [hp pt hpt]; omega)
      exact this
    unfold cellContains
    have hg : getCellModel c.type = .ok cm_seg2 := by rw [ht]; rfl
    rw [hg, ok_bind, if_neg (by omega), if_neg (by omega), if_neg (by omega), if_pos rfl]
    unfold contains1D
    have ra : rd c.nodes 0 = .ok a := by rw [hab]; rfl
    have rb : rd c.nodes 1 = .ok b := by rw [hab]; rfl
    rw [ra, ok_bind, rb, ok_bind, rdN a (by rw [hab]; simp), ok_bind, rdN b (by rw [hab]; simp), ok_bind, hpx, ok_bind]
    simp only []
    congr 1
    rw [decide_eq_decide]
    have ga : c.nodes.getD 0 0 = a := by rw [hab]; rfl
    have gb : c.nodes.getD 1 0 = b := by rw [hab]; rfl
    rw [ga, gb]
    generalize nodeX 1 coords a 0 = x
    generalize nodeX 1 coords b 0 = y
    rcases le_total x y with h | h
    · rw [min_eq_left h, max_eq_right h, abs_of_nonpos (by linarith)]
      constructor
      · rintro ⟨h1, h2⟩; exact ⟨by linarith, by linarith⟩
      · rintro ⟨h1, h2⟩; exact ⟨by linarith, by linarith⟩
    · rw [min_eq_right h, max_eq_left h, abs_of_nonneg (by linarith)]
      constructor
      · rintro ⟨h1, h2⟩; exact ⟨by linarith, by linarith⟩
      · rintro ⟨h1, h2⟩; exact ⟨by linarith, by linarith⟩
  obtain ⟨found, f1, f2⟩ := C101_cells_of_points (dim := 1) (meshDim := 1) (Or.inl rfl) rfl (eps := eps) sqrtF polyIn h (by
    intro c hcm
    obtain ⟨ht, hl, hn⟩ := hc c hcm
    have hl : 0 < c.nodes.length := by omega
    exact ⟨_, List.getElem_mem hl, hn _ (List.getElem_mem hl)⟩) hb pts hp (fun pt hpt c hcm => ⟨_, test c hcm pt hpt⟩)
  refine ⟨found, f1, ?_⟩
  refine (forall2_mem f2 fun pt hpt => hpt).imp ?_
  rintro pt f ⟨hpt, g1, g2⟩
  refine ⟨g1, fun e h => ((g2 e).mp h).1, fun e hel => ?_⟩
  have hcm := List.getElem_mem hel
  rw [g2 e]
  constructor
  · rintro ⟨_, -, h3⟩
    rw [test _ hcm pt hpt] at h3
    simpa using h3
  · intro h3
    refine ⟨hel, ?_, by rw [test _ hcm pt hpt, decide_eq_true h3]⟩
    obtain ⟨ht, hl, hn⟩ := hc _ hcm
    have m0 : cells[e].nodes.getD 0 0 ∈ cells[e].nodes := by rw [List.getD_eq_getElem _ _ (by omega)]; exact List.getElem_mem _
    have m1 : cells[e].nodes.getD 1 0 ∈ cells[e].nodes := by rw [List.getD_eq_getElem _ _ (by omega)]; exact List.getElem_mem _
    intro k hk
    have hk : k = 0 := by omega
    subst hk
    have hx : pt.getD 0 0 = ptX pt 0 := rfl
    rw [hx]
    constructor
    · rcases min_choice (nodeX 1 coords (cells[e].nodes.getD 0 0) 0) (nodeX 1 coords (cells[e].nodes.getD 1 0) 0) with q | q
      · exact ⟨_, m0, hn _ m0, by rw [q] at h3; linarith [h3.1]⟩
      · exact ⟨_, m1, hn _ m1, by rw [q] at h3; linarith [h3.1]⟩
    · rcases max_choice (nodeX 1 coords (cells[e].nodes.getD 0 0) 0) (nodeX 1 coords (cells[e].nodes.getD 1 0) 0) with q | q
      · exact ⟨_, m0, hn _ m0, by rw [q] at h3; linarith [h3.2]⟩
      · exact ⟨_, m1, hn _ m1, by rw [q] at h3; linarith [h3.2]⟩

/-- C101: `getCellContainingPoint` returns `-1` exactly when no cell is found for the point, and one of the cells found otherwise. -/
theorem C101_one_cell (meshDim : Int) (spaceDim : Nat) (coords : List K) (conn connI : List Int) (sqrtF : K → K) (big : K) (polyIn : List K → K → Cell → M Bool) (eps : K) (pt : List K)
    (elts idx : List Nat) (h : getCellsContainingPoints meshDim spaceDim coords conn connI sqrtF big polyIn eps [pt] = .ok (elts, idx)) :
    ∃ r, getCellContainingPoint meshDim spaceDim coords conn connI sqrtF big polyIn eps pt = .ok r ∧ (r = -1 ↔ elts = []) ∧ (elts ≠ [] → ∃ e ∈ elts, r = (e : Int)) := by
  unfold getCellContainingPoint getCellsContainingPoint
  rw [h, ok_bind, ok_bind]
  cases elts with
  | nil => exact ⟨-1, rfl, by simp, by simp⟩
  | cons e es => exact ⟨(e : Int), rfl, by simp, fun _ => ⟨e, by simp, rfl⟩⟩

end
end MC
