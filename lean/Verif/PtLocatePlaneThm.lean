import Verif.PtLocatePlane

/-!
# Location of points: the meshes of the plane
-/

namespace MC
section
variable {K : Type} [Field K] [LinearOrder K] [IsStrictOrderedRing K]

/-- a point on the same side of the edges of a triangle is in it -/
theorem tri_weights {a b c p : Nat → K} {s : K} (hA : 0 < s * side2 a b c) (h1 : 0 ≤ s * side2 a b p) (h2 : 0 ≤ s * side2 b c p) (h3 : 0 ≤ s * side2 c a p) :
    ∃ u v w : K, 0 ≤ u ∧ 0 ≤ v ∧ 0 ≤ w ∧ u + v + w = 1 ∧ ∀ k, k < 2 → p k = u * a k + v * b k + w * c k := by
  have hne := ne_of_gt hA
  have hs : s ≠ 0 := left_ne_zero_of_mul hne
  have hd : side2 a b c ≠ 0 := right_ne_zero_of_mul hne
  refine ⟨s * side2 b c p / (s * side2 a b c), s * side2 c a p / (s * side2 a b c), s * side2 a b p / (s * side2 a b c), div_nonneg h2 hA.le, div_nonneg h3 hA.le, div_nonneg h1 hA.le, ?_, ?_⟩
  · have := side2_sum a b c p
    field_simp
    linear_combination this
  · intro k hk
    have : side2 a b c * p k = side2 b c p * a k + side2 c a p * b k + side2 a b p * c k := by
      unfold side2
      rcases (by omega : k = 0 ∨ k = 1) with rfl | rfl <;> ring
    field_simp
    linear_combination this

theorem quad_weights {a b c d p : Nat → K} {s : K} (hA : 0 < s * side2 a b c) (hB : 0 < s * side2 c d a)
    (h1 : 0 ≤ s * side2 a b p) (h2 : 0 ≤ s * side2 b c p) (h3 : 0 ≤ s * side2 c d p) (h4 : 0 ≤ s * side2 d a p) :
    ∃ u v w t : K, 0 ≤ u ∧ 0 ≤ v ∧ 0 ≤ w ∧ 0 ≤ t ∧ u + v + w + t = 1 ∧ ∀ k, k < 2 → p k = u * a k + v * b k + w * c k + t * d k := by
  rcases le_total 0 (s * side2 c a p) with h | h
  · obtain ⟨u, v, w, hu, hv, hw, e, f⟩ := tri_weights hA h1 h2 h
    exact ⟨u, v, w, 0, hu, hv, hw, le_refl _, by rw [add_zero]; exact e, fun k hk => by rw [f k hk]; ring⟩
  · have h' : 0 ≤ s * side2 a c p := by
      have : side2 a c p = -side2 c a p := by unfold side2; ring
      rw [this, mul_neg]; linarith
    obtain ⟨u, v, w, hu, hv, hw, e, f⟩ := tri_weights hB h3 h4 h'
    exact ⟨w, 0, u, v, hw, le_refl _, hu, hv, by linear_combination e, fun k hk => by rw [f k hk]; ring⟩

omit [LinearOrder K] [IsStrictOrderedRing K] in
theorem side2_combo4 {a b c d p : Nat → K} {u v w t : K} (h : u + v + w + t = 1) (hp : ∀ k, k < 2 → p k = u * a k + v * b k + w * c k + t * d k) (x y : Nat → K) :
    side2 x y p = u * side2 x y a + v * side2 x y b + w * side2 x y c + t * side2 x y d := by
  have h0 := hp 0 (by omega)
  have h1 := hp 1 (by omega)
  have hu : u = 1 - v - w - t := by linear_combination h
  subst hu
  unfold side2
  rw [h0, h1]
  ring

/-- a triangle which is not flat, or a quadrangle which turns strictly to the same side at its four nodes -/
def ProperPlane (coords : List K) (c : Cell) : Prop :=
  (c.type = 3 ∧ c.nodes.length = 3 ∨ c.type = 4 ∧ c.nodes.length = 4) ∧ NodesOK 2 coords c.nodes ∧
    ∃ s : K, ∀ i, i < c.nodes.length → 0 < s * side2 (nodeX 2 coords (c.nodes.getD i 0)) (nodeX 2 coords (c.nodes.getD ((i + 1) % c.nodes.length) 0))
      (nodeX 2 coords (c.nodes.getD ((i + 2) % c.nodes.length) 0))

theorem proper4 {coords : List K} {s : K} {a b c d : Int} (h : ∀ i, i < [a, b, c, d].length → 0 < s * side2 (nodeX 2 coords ([a, b, c, d].getD i 0)) (nodeX 2 coords ([a, b, c, d].getD ((i + 1) % [a, b, c, d].length) 0))
      (nodeX 2 coords ([a, b, c, d].getD ((i + 2) % [a, b, c, d].length) 0))) :
    0 < s * side2 (nodeX 2 coords a) (nodeX 2 coords b) (nodeX 2 coords c) ∧ 0 < s * side2 (nodeX 2 coords b) (nodeX 2 coords c) (nodeX 2 coords d) ∧
    0 < s * side2 (nodeX 2 coords c) (nodeX 2 coords d) (nodeX 2 coords a) ∧ 0 < s * side2 (nodeX 2 coords d) (nodeX 2 coords a) (nodeX 2 coords b) :=
  ⟨by simpa using h 0 (by simp), by simpa using h 1 (by simp), by simpa using h 2 (by simp), by simpa using h 3 (by simp)⟩

/-- C101: a point of a triangle or of a convex quadrangle of the plane is accepted by its test, whatever the tolerance; with a null tolerance no other point is accepted. -/
theorem C101_convex_cells_of_the_plane {coords pt : List K} {eps : K} (he : 0 ≤ eps) (sqrtF : K → K) (big : K) (polyIn : List K → K → Cell → M Bool)
    {c : Cell} (hc : ProperPlane coords c) (hp : pt.length = 2) :
    (InNodes 2 coords 0 c.nodes pt → cellContains 2 sqrtF big polyIn coords pt eps c = .ok true) ∧
    (eps = 0 → cellContains 2 sqrtF big polyIn coords pt eps c = .ok true → InNodes 2 coords 0 c.nodes pt) := by
  obtain ⟨ht, hn, s, hs⟩ := hc
  obtain ⟨r, r1, r2⟩ := C101_test_in_the_plane he sqrtF big polyIn ht hn hp
  rw [r1]
  have hr : (Except.ok r : M Bool) = .ok true ↔ r = true := by simp
  rw [hr, r2]
  obtain ⟨ty, nodes⟩ := c
  simp only at *
  rcases ht with ⟨ht, hl⟩ | ⟨ht, hl⟩
  · obtain ⟨a, b, c, rfl⟩ : ∃ a b c, nodes = [a, b, c] := List.length_eq_three.mp hl
    have hA : 0 < s * side2 (nodeX 2 coords a) (nodeX 2 coords b) (nodeX 2 coords c) := by simpa using hs 0 (by simp)
    have s1 := sides3 coords pt a b c (fun x => -eps ≤ x)
    have s2 := sides3 coords pt a b c (fun x => x ≤ eps)
    rw [s1, s2, inNodes3]
    have hsum := side2_sum (nodeX 2 coords a) (nodeX 2 coords b) (nodeX 2 coords c) (ptX pt)
    constructor
    · rintro ⟨u, v, w, hu, hv, hw, h1, h2⟩
      rw [neg_zero] at hu hv hw
      obtain ⟨c1, c2, c3⟩ := side2_combo h1 h2
      rw [c1, c2, c3]
      rcases le_total 0 (side2 (nodeX 2 coords a) (nodeX 2 coords b) (nodeX 2 coords c)) with h | h
      · have := mul_nonneg hu h; have := mul_nonneg hv h; have := mul_nonneg hw h
        exact Or.inl ⟨by linarith, by linarith, by linarith⟩
      · have := mul_nonpos_of_nonneg_of_nonpos hu h; have := mul_nonpos_of_nonneg_of_nonpos hv h; have := mul_nonpos_of_nonneg_of_nonpos hw h
        exact Or.inr ⟨by linarith, by linarith, by linarith⟩
    · rintro rfl hacc
      rw [neg_zero] at hacc ⊢
      have hall : 0 ≤ s * side2 (nodeX 2 coords a) (nodeX 2 coords b) (ptX pt) ∧ 0 ≤ s * side2 (nodeX 2 coords b) (nodeX 2 coords c) (ptX pt) ∧
          0 ≤ s * side2 (nodeX 2 coords c) (nodeX 2 coords a) (ptX pt) := by
        rcases lt_trichotomy s 0 with hs0 | hs0 | hs0
        · have hneg := neg_of_mul_pos_right hA hs0.le
          have : side2 (nodeX 2 coords a) (nodeX 2 coords b) (ptX pt) ≤ 0 ∧ side2 (nodeX 2 coords b) (nodeX 2 coords c) (ptX pt) ≤ 0 ∧ side2 (nodeX 2 coords c) (nodeX 2 coords a) (ptX pt) ≤ 0 := by
            rcases hacc with ⟨h1, h2, h3⟩ | h
            · linarith
            · exact h
          exact ⟨mul_nonneg_of_nonpos_of_nonpos hs0.le this.1, mul_nonneg_of_nonpos_of_nonpos hs0.le this.2.1, mul_nonneg_of_nonpos_of_nonpos hs0.le this.2.2⟩
        · rw [hs0, zero_mul] at hA; exact absurd hA (lt_irrefl _)
        · have hpos := (pos_iff_pos_of_mul_pos hA).mp hs0
          have : 0 ≤ side2 (nodeX 2 coords a) (nodeX 2 coords b) (ptX pt) ∧ 0 ≤ side2 (nodeX 2 coords b) (nodeX 2 coords c) (ptX pt) ∧ 0 ≤ side2 (nodeX 2 coords c) (nodeX 2 coords a) (ptX pt) := by
            rcases hacc with h | ⟨h1, h2, h3⟩
            · exact h
            · linarith
          exact ⟨mul_nonneg hs0.le this.1, mul_nonneg hs0.le this.2.1, mul_nonneg hs0.le this.2.2⟩
      exact tri_weights hA hall.1 hall.2.1 hall.2.2
  · obtain ⟨a, b, c, d, rfl⟩ : ∃ a b c d, nodes = [a, b, c, d] := by
      match nodes, hl with
      | [a, b, c, d], _ => exact ⟨a, b, c, d, rfl⟩
    obtain ⟨hA, hB, hC, hD⟩ := proper4 hs
    have s1 := sides4 coords pt a b c d (fun x => -eps ≤ x)
    have s2 := sides4 coords pt a b c d (fun x => x ≤ eps)
    rw [s1, s2, inNodes4]
    have hsum : side2 (nodeX 2 coords a) (nodeX 2 coords b) (ptX pt) + side2 (nodeX 2 coords b) (nodeX 2 coords c) (ptX pt) + side2 (nodeX 2 coords c) (nodeX 2 coords d) (ptX pt) +
        side2 (nodeX 2 coords d) (nodeX 2 coords a) (ptX pt) = side2 (nodeX 2 coords a) (nodeX 2 coords b) (nodeX 2 coords c) + side2 (nodeX 2 coords c) (nodeX 2 coords d) (nodeX 2 coords a) := by
      unfold side2; ring
    generalize nodeX 2 coords a = pa at *
    generalize nodeX 2 coords b = pb at *
    generalize nodeX 2 coords c = pc at *
    generalize nodeX 2 coords d = pd at *
    constructor
    · rintro ⟨u, v, w, t, hu, hv, hw, ht, h1, h2⟩
      rw [neg_zero] at hu hv hw ht
      have z : ∀ x y : Nat → K, side2 x y x = 0 ∧ side2 x y y = 0 := fun x y => ⟨by unfold side2; ring, by unfold side2; ring⟩
      have cyc : ∀ x y z : Nat → K, side2 x y z = side2 y z x := fun x y z => by unfold side2; ring
      have e1 : side2 pa pb (ptX pt) = w * side2 pa pb pc + t * side2 pd pa pb := by
        rw [side2_combo4 h1 h2, (z pa pb).1, (z pa pb).2, cyc pd pa pb]; ring
      have e2 : side2 pb pc (ptX pt) = u * side2 pa pb pc + t * side2 pb pc pd := by
        rw [side2_combo4 h1 h2, (z pb pc).1, (z pb pc).2, cyc pa pb pc]; ring
      have e3 : side2 pc pd (ptX pt) = u * side2 pc pd pa + v * side2 pb pc pd := by
        rw [side2_combo4 h1 h2, (z pc pd).1, (z pc pd).2, cyc pb pc pd]; ring
      have e4 : side2 pd pa (ptX pt) = v * side2 pd pa pb + w * side2 pc pd pa := by
        rw [side2_combo4 h1 h2, (z pd pa).1, (z pd pa).2, cyc pc pd pa]; ring
      rw [e1, e2, e3, e4]
      rcases lt_trichotomy s 0 with hs0 | hs0 | hs0
      · have g1 := (neg_of_mul_pos_right hA hs0.le).le
        have g2 := (neg_of_mul_pos_right hB hs0.le).le
        have g3 := (neg_of_mul_pos_right hC hs0.le).le
        have g4 := (neg_of_mul_pos_right hD hs0.le).le
        have m : ∀ {x y : K}, 0 ≤ x → y ≤ 0 → x * y ≤ 0 := fun hx hy => mul_nonpos_of_nonneg_of_nonpos hx hy
        exact Or.inr ⟨by linarith [m hw g1, m ht g4], by linarith [m hu g1, m ht g2], by linarith [m hu g3, m hv g2], by linarith [m hv g4, m hw g3]⟩
      · rw [hs0, zero_mul] at hA; exact absurd hA (lt_irrefl _)
      · have g1 := ((pos_iff_pos_of_mul_pos hA).mp hs0).le
        have g2 := ((pos_iff_pos_of_mul_pos hB).mp hs0).le
        have g3 := ((pos_iff_pos_of_mul_pos hC).mp hs0).le
        have g4 := ((pos_iff_pos_of_mul_pos hD).mp hs0).le
        have m : ∀ {x y : K}, 0 ≤ x → 0 ≤ y → 0 ≤ x * y := fun hx hy => mul_nonneg hx hy
        exact Or.inl ⟨by linarith [m hw g1, m ht g4], by linarith [m hu g1, m ht g2], by linarith [m hu g3, m hv g2], by linarith [m hv g4, m hw g3]⟩
    · rintro rfl hacc
      rw [neg_zero] at hacc ⊢
      have hall : 0 ≤ s * side2 pa pb (ptX pt) ∧ 0 ≤ s * side2 pb pc (ptX pt) ∧ 0 ≤ s * side2 pc pd (ptX pt) ∧ 0 ≤ s * side2 pd pa (ptX pt) := by
        rcases lt_trichotomy s 0 with hs0 | hs0 | hs0
        · have g1 := neg_of_mul_pos_right hA hs0.le
          have g3 := neg_of_mul_pos_right hC hs0.le
          have : side2 pa pb (ptX pt) ≤ 0 ∧ side2 pb pc (ptX pt) ≤ 0 ∧ side2 pc pd (ptX pt) ≤ 0 ∧ side2 pd pa (ptX pt) ≤ 0 := by
            rcases hacc with ⟨h1, h2, h3, h4⟩ | h
            · linarith
            · exact h
          have m : ∀ {x : K}, x ≤ 0 → 0 ≤ s * x := fun hx => mul_nonneg_of_nonpos_of_nonpos hs0.le hx
          exact ⟨m this.1, m this.2.1, m this.2.2.1, m this.2.2.2⟩
        · rw [hs0, zero_mul] at hA; exact absurd hA (lt_irrefl _)
        · have g1 := (pos_iff_pos_of_mul_pos hA).mp hs0
          have g3 := (pos_iff_pos_of_mul_pos hC).mp hs0
          have : 0 ≤ side2 pa pb (ptX pt) ∧ 0 ≤ side2 pb pc (ptX pt) ∧ 0 ≤ side2 pc pd (ptX pt) ∧ 0 ≤ side2 pd pa (ptX pt) := by
            rcases hacc with h | ⟨h1, h2, h3, h4⟩
            · exact h
            · linarith
          have m : ∀ {x : K}, 0 ≤ x → 0 ≤ s * x := fun hx => mul_nonneg hs0.le hx
          exact ⟨m this.1, m this.2.1, m this.2.2.1, m this.2.2.2⟩
      exact quad_weights hA hC hall.1 hall.2.1 hall.2.2.1 hall.2.2.2

theorem forall2_mem {α β : Type} {R : α → β → Prop} {P : α → Prop} {l : List α} {m : List β} (h : List.Forall₂ R l m) (hP : ∀ x ∈ l, P x) :
    List.Forall₂ (fun x y => P x ∧ R x y) l m := by
  induction h with
  | nil => exact List.Forall₂.nil
  | cons h _ ih => exact List.Forall₂.cons ⟨hP _ List.mem_cons_self, h⟩ (ih fun x hx => hP x (List.mem_cons_of_mem _ hx))

/-- a combination of numbers is between two of them -/
theorem combo_between {n : Nat} {w x : Nat → K} (h0 : ∀ i, i < n → 0 ≤ w i) (h1 : ∑ i ∈ Finset.range n, w i = 1) :
    (∃ i, i < n ∧ x i ≤ ∑ i ∈ Finset.range n, w i * x i) ∧ ∃ i, i < n ∧ ∑ i ∈ Finset.range n, w i * x i ≤ x i := by
  constructor
  · by_contra hc
    push_neg at hc
    have : ∑ i ∈ Finset.range n, w i * x i ≥ ∑ i ∈ Finset.range n, w i * (∑ i ∈ Finset.range n, w i * x i) :=
      Finset.sum_le_sum fun i hi => mul_le_mul_of_nonneg_left (hc i (Finset.mem_range.mp hi)).le (h0 i (Finset.mem_range.mp hi))
    obtain ⟨j, hj, hw⟩ : ∃ j ∈ Finset.range n, 0 < w j := by
      by_contra hn
      push_neg at hn
      have : ∑ i ∈ Finset.range n, w i ≤ 0 := Finset.sum_nonpos hn
      rw [h1] at this
      exact absurd this (not_le.mpr one_pos)
    have hlt : ∑ i ∈ Finset.range n, w i * (∑ i ∈ Finset.range n, w i * x i) < ∑ i ∈ Finset.range n, w i * x i :=
      Finset.sum_lt_sum (fun i hi => mul_le_mul_of_nonneg_left (hc i (Finset.mem_range.mp hi)).le (h0 i (Finset.mem_range.mp hi)))
        ⟨j, hj, mul_lt_mul_of_pos_left (hc j (Finset.mem_range.mp hj)) hw⟩
    rw [← Finset.sum_mul, h1, one_mul] at hlt
    exact lt_irrefl _ hlt
  · by_contra hc
    push_neg at hc
    obtain ⟨j, hj, hw⟩ : ∃ j ∈ Finset.range n, 0 < w j := by
      by_contra hn
      push_neg at hn
      have : ∑ i ∈ Finset.range n, w i ≤ 0 := Finset.sum_nonpos hn
      rw [h1] at this
      exact absurd this (not_le.mpr one_pos)
    have hlt : ∑ i ∈ Finset.range n, w i * x i < ∑ i ∈ Finset.range n, w i * (∑ i ∈ Finset.range n, w i * x i) :=
      Finset.sum_lt_sum (fun i hi => mul_le_mul_of_nonneg_left (hc i (Finset.mem_range.mp hi)).le (h0 i (Finset.mem_range.mp hi)))
        ⟨j, hj, mul_lt_mul_of_pos_left (hc j (Finset.mem_range.mp hj)) hw⟩
    rw [← Finset.sum_mul, h1, one_mul] at hlt
    exact lt_irrefl _ hlt

/-- a point of the convex hull of the nodes is in their bounding box -/
theorem inNodes_nearBox {dim : Nat} {coords : List K} {eps : K} (he : 0 ≤ eps) {ids nodes : List Int} {pt : List K} (hn : NodesOK dim coords ids) (hsub : ∀ n ∈ ids, n ∈ nodes)
    (h : InNodes dim coords 0 ids pt) : NearBox dim coords eps nodes pt := by
  obtain ⟨w, h0, h1, h2⟩ := h
  rw [neg_zero] at h0
  intro k hk
  obtain ⟨⟨i, i1, i2⟩, ⟨j, j1, j2⟩⟩ := combo_between (x := fun i => nodeX dim coords (ids.getD i 0) k) h0 h1
  have e : pt.getD k 0 = _ := h2 k hk
  rw [e]
  have hm : ∀ i, i < ids.length → ids.getD i 0 ∈ ids := by
    intro i hi
    rw [List.getD_eq_getElem _ _ hi]
    exact List.getElem_mem hi
  exact ⟨⟨_, hsub _ (hm i i1), hn _ (hm i i1), by linarith⟩, ⟨_, hsub _ (hm j j1), hn _ (hm j j1), by linarith⟩⟩

/-- C101: on a mesh of the plane made of triangles which are not flat and of strictly convex quadrangles, `getCellsContainingPoints` never fails.  Whatever the tolerance, the cells returned for a point are all different and hold every cell in which the point is, border included; when the tolerance is null there are no other cells. -/
theorem C101_meshes_of_the_plane {coords : List K} {big eps : K} (he : 0 ≤ eps) {conn connI : List Int} {cells : List Cell} (sqrtF : K → K) (polyIn : List K → K → Cell → M Bool)
    (h : IsMesh conn connI cells) (hc : ∀ c ∈ cells, ProperPlane coords c) (hb : ∀ x ∈ coords, -big ≤ x ∧ x ≤ big)
    (pts : List (List K)) (hp : ∀ pt ∈ pts, pt.length = 2) :
    ∃ found : List (List Nat), getCellsContainingPoints 2 2 coords conn connI sqrtF big polyIn eps pts =
        .ok (found.flatten, (List.range (pts.length + 1)).map fun i => (found.take i).flatten.length) ∧
      List.Forall₂ (fun (pt : List K) (f : List Nat) => f.Nodup ∧ (∀ e ∈ f, e < cells.length) ∧ ∀ (e : Nat) (he : e < cells.length),
        (InNodes 2 coords 0 cells[e].nodes pt → e ∈ f) ∧ (eps = 0 → e ∈ f → InNodes 2 coords 0 cells[e].nodes pt)) pts found := by
  obtain ⟨found, f1, f2⟩ := C101_cells_of_points (dim := 2) (meshDim := 2) (Or.inr (Or.inl rfl)) rfl (eps := eps) sqrtF polyIn h (by
    intro c hcm
    obtain ⟨ht, hn, -⟩ := hc c hcm
    have hl : 0 < c.nodes.length := by omega
    exact ⟨_, List.getElem_mem hl, hn _ (List.getElem_mem hl)⟩) hb pts hp (by
    intro pt hpt c hcm
    obtain ⟨ht, hn, -⟩ := hc c hcm
    obtain ⟨r, r1, -⟩ := C101_test_in_the_plane he sqrtF big polyIn ht hn (hp pt hpt)
    exact ⟨r, r1⟩)
  refine ⟨found, f1, ?_⟩
  have := forall2_mem f2 hp
  refine this.imp ?_
  rintro pt f ⟨hpt, g1, g2⟩
  refine ⟨g1, fun e h => ((g2 e).mp h).1, fun e hel => ?_⟩
  have hcm := hc _ (List.getElem_mem hel)
  obtain ⟨k1, k2⟩ := C101_convex_cells_of_the_plane he sqrtF big polyIn hcm hpt
  constructor
  · intro hin
    exact (g2 e).mpr ⟨hel, inNodes_nearBox he hcm.2.1 (fun _ h => h) hin, k1 hin⟩
  · intro h0 hf
    obtain ⟨_, -, h3⟩ := (g2 e).mp hf
    exact k2 h0 h3

end
end MC
