import Verif.MeasureInv
import Verif.UMeshProps
import Mathlib.Algebra.Order.Ring.Abs

/-!
# C98: polygons, surfaces and segments of the space, fields of measures
-/

namespace MC

section
variable {K : Type} [Field K]

/-! ## Polygons of the plane -/

/-- The nodes are all in the mesh -/
def ValidNodes (coords : List (List K)) (nodes : List Int) : Prop := ∀ c ∈ nodes, 0 ≤ c ∧ c < coords.length

instance (coords : List (List K)) (nodes : List Int) : Decidable (ValidNodes coords nodes) :=
  inferInstanceAs (Decidable (∀ c ∈ nodes, 0 ≤ c ∧ c < (coords.length : Int)))

theorem nodePts_all (coords : List (List K)) (nodes : List Int) :
    nodePts coords nodes nodes.length = if ValidNodes coords nodes then .ok (nodes.map (ptNode coords)) else undef := by
  rw [nodePts_char]
  simp only [le_refl, List.take_length, true_and]
  rfl

theorem polyg_eq (arcs : Arcs K) (s : K → K) (sd : Nat) (hsd : sd = 2 ∨ sd = 3) (coords : List (List K)) (nodes : List Int) :
    cellMeasure arcs s sd coords 5 nodes =
      if ValidNodes coords nodes then .ok (areaPolyg s sd (nodes.map (ptNode coords))) else undef := by
  rw [meas_polyg _ _ sd hsd, nodePts_all]
  split <;> rfl

variable [CharZero K]

/-- **C98.** The area of a polygon of the plane is the sum of `x_i y_(i+1) - x_(i+1) y_i`, halved and with the sign changed
(positive when the nodes are in clockwise order), whatever the shape of the polygon. -/
theorem C98_area_of_a_polygon (arcs : Arcs K) (s : K → K) (coords : List (List K)) (nodes : List Int)
    (hv : ∀ n ∈ nodes, 0 ≤ n ∧ n < coords.length) :
    cellMeasure arcs s 2 coords 5 nodes =
      .ok (-((List.range nodes.length).map fun i =>
        let a := coords.getD (nodes.getD i 0).toNat []
        let b := coords.getD (nodes.getD ((i + 1) % nodes.length) 0).toNat []
        a.getD 0 0 * b.getD 1 0 - b.getD 0 0 * a.getD 1 0).sum / 2) := by
  rw [polyg_eq _ _ _ (Or.inl rfl), if_pos (show ValidNodes coords nodes from hv), areaPolyg2_eq, cycPairs_map, List.map_map]
  have h := range_cyc (fun a b : Int => cross2 (ptNode coords a) (ptNode coords b)) 0 nodes
  congr 4
  exact h.symm

/-- **C98.** The area of a polygon of the plane does not depend on the node it begins with. -/
theorem C98_area_from_any_node (arcs : Arcs K) (s : K → K) (coords : List (List K)) (nodes : List Int) (k : Nat) :
    cellMeasure arcs s 2 coords 5 (nodes.rotate k) = cellMeasure arcs s 2 coords 5 nodes := by
  rw [polyg_eq _ _ _ (Or.inl rfl), polyg_eq _ _ _ (Or.inl rfl)]
  have : ValidNodes coords (nodes.rotate k) ↔ ValidNodes coords nodes := by simp [ValidNodes]
  simp only [this]
  rw [areaPolyg2_eq, areaPolyg2_eq, List.map_rotate, sum_map_perm _ (cycPairs_rotate k _)]

theorem cycPairs_cut {α : Type} (a b : α) (l1 l2 : List α) :
    cycPairs (a :: l1 ++ b :: l2) = (a :: l1).zip (l1 ++ [b]) ++ (b :: l2).zip (l2 ++ [a]) := by
  unfold cycPairs
  have : (a :: l1 ++ b :: l2).tail ++ (a :: l1 ++ b :: l2).take 1 = (l1 ++ [b]) ++ (l2 ++ [a]) := by simp
  rw [this, List.zip_append (by simp)]

theorem cycPairs_snoc {α : Type} (a b : α) (l : List α) :
    cycPairs (a :: l ++ [b]) = (a :: l).zip (l ++ [b]) ++ [(b, a)] := by
  have := cycPairs_cut a b l []
  simpa using this

/-- **C98.** Areas add: when a polygon of the plane is cut in two along the segment which joins two of its nodes, the sum of the
two areas is the area of the polygon. -/
theorem C98_areas_add (arcs : Arcs K) (s : K → K) (coords : List (List K)) (a b : Int) (l1 l2 : List Int) :
    cellMeasure arcs s 2 coords 5 (a :: l1 ++ b :: l2) = (do
      let x ← cellMeasure arcs s 2 coords 5 (a :: l1 ++ [b])
      let y ← cellMeasure arcs s 2 coords 5 (b :: l2 ++ [a])
      .ok (x + y)) := by
  simp only [polyg_eq arcs s 2 (Or.inl rfl)]
  by_cases h : ValidNodes coords (a :: l1 ++ b :: l2)
  · have h1 : ValidNodes coords (a :: l1 ++ [b]) := by
      intro c hc
      exact h c (by simp at hc ⊢; tauto)
    have h2 : ValidNodes coords (b :: l2 ++ [a]) := by
      intro c hc
      exact h c (by simp at hc ⊢; tauto)
    rw [if_pos h, if_pos h1, if_pos h2]
    simp only [ok_bind, areaPolyg2_eq, cycPairs_map, cycPairs_cut, cycPairs_snoc, List.map_append, List.sum_append,
      List.map_cons, List.map_nil, List.sum_cons, List.sum_nil]
    congr 1
    simp only [cross2, List.nil_append, List.zip_cons_cons, List.zip_nil_left, List.map_cons, List.map_nil, List.sum_cons,
      List.sum_nil]
    ring
  · rw [if_neg h]
    by_cases h1 : ValidNodes coords (a :: l1 ++ [b])
    · have h2 : ¬ ValidNodes coords (b :: l2 ++ [a]) := by
        intro h2
        refine h fun c hc => ?_
        rcases List.mem_append.mp hc with hc | hc
        · exact h1 c (by simp at hc ⊢; tauto)
        · exact h2 c (by simp at hc ⊢; tauto)
      rw [if_pos h1, if_neg h2]
      rfl
    · rw [if_neg h1]
      rfl

/-- **C98.** In the plane a triangle and a quadrangle have the area of the polygon on the same nodes. -/
theorem C98_triangles_and_quadrangles_are_polygons (arcs : Arcs K) (s : K → K) (coords : List (List K)) (t : Int)
    (nodes : List Int) (ht : (t = 3 ∧ nodes.length = 3) ∨ (t = 4 ∧ nodes.length = 4)) :
    cellMeasure arcs s 2 coords t nodes = cellMeasure arcs s 2 coords 5 nodes := by
  rw [polyg_eq _ _ _ (Or.inl rfl)]
  rcases ht with ⟨rfl, hl⟩ | ⟨rfl, hl⟩
  · rw [meas_tria _ _ 2 (Or.inl rfl), ← hl, nodePts_all]
    split
    · rw [ok_bind, areaPolyg2_eq]
      obtain ⟨a, b, c, rfl⟩ := List.length_eq_three.mp hl
      simp only [cycPairs, List.map_cons, List.map_nil, List.tail_cons, List.take_succ_cons, List.take_zero, List.cons_append,
        List.nil_append, List.zip_cons_cons, List.zip_nil_left, List.sum_cons, List.sum_nil, ptRk, List.getD_cons_zero,
        List.getD_cons_succ, areaTria, if_true, areaTria2, cross2]
      congr 1
      ring
    · rfl
  · rw [meas_quad _ _ 2 (Or.inl rfl), ← hl, nodePts_all]
    split
    · rw [ok_bind, areaPolyg2_eq]
      rcases nodes with _ | ⟨a, _ | ⟨b, _ | ⟨c, _ | ⟨d, _ | ⟨e, l⟩⟩⟩⟩⟩ <;> simp at hl
      simp only [cycPairs, List.map_cons, List.map_nil, List.tail_cons, List.take_succ_cons, List.take_zero, List.cons_append,
        List.nil_append, List.zip_cons_cons, List.zip_nil_left, List.sum_cons, List.sum_nil, ptRk, List.getD_cons_zero,
        List.getD_cons_succ, areaQuad, if_true, areaQuad2, cross2]
      congr 1
      ring
    · rfl

end

section
variable {K : Type} [Field K] [LinearOrder K] [IsStrictOrderedRing K]

/-! ## Similarities -/

/-- `s` is a square root. -/
def IsSqrtF (s : K → K) : Prop := ∀ x, 0 ≤ x → 0 ≤ s x ∧ s x * s x = x

theorem IsSqrtF.unique {s : K → K} (hs : IsSqrtF s) {x y : K} (hy : 0 ≤ y) (h : y * y = x) : s x = y := by
  have hx : 0 ≤ x := h ▸ mul_nonneg hy hy
  have h1 := hs x hx
  have : s x * s x = y * y := by rw [h1.2, h]
  nlinarith [mul_self_eq_mul_self_iff.mp this, h1.1]

theorem IsSqrtF.scale {s : K → K} (hs : IsSqrtF s) {c x : K} (hc : 0 ≤ c) (hx : 0 ≤ x) : s (c * c * x) = c * s x := by
  have h1 := hs x hx
  refine hs.unique (mul_nonneg hc h1.1) ?_
  linear_combination c * c * h1.2

/-- `A` multiplies every length by `k`. -/
def IsSimil (sd : Nat) (A : Nat → Nat → K) (k : K) : Prop :=
  ∀ i j, i < sd → j < sd → ((List.range sd).map fun d => A d i * A d j).sum = if i = j then k * k else 0

def dotG3 (u v : Nat → K) : K := u 0 * v 0 + u 1 * v 1 + u 2 * v 2

theorem triaNorm2_gram (a b c : Nat → K) : triaNorm2 a b c =
    dotG3 (fun i => b i - a i) (fun i => b i - a i) * dotG3 (fun i => c i - a i) (fun i => c i - a i) -
      dotG3 (fun i => b i - a i) (fun i => c i - a i) * dotG3 (fun i => b i - a i) (fun i => c i - a i) := by
  simp only [triaNorm2, dotG3]; ring

theorem triaNorm2_nonneg (a b c : Nat → K) : 0 ≤ triaNorm2 a b c := by
  unfold triaNorm2
  exact add_nonneg (add_nonneg (mul_self_nonneg _) (mul_self_nonneg _)) (mul_self_nonneg _)

theorem dotG3_simil {A : Nat → Nat → K} {k : K} (hA : IsSimil 3 A k) (b p q r t : Nat → K) :
    dotG3 (fun i => affPt 3 A b q i - affPt 3 A b p i) (fun i => affPt 3 A b t i - affPt 3 A b r i) =
      k * k * dotG3 (fun i => q i - p i) (fun i => t i - r i) := by
  have h00 := hA 0 0 (by omega) (by omega)
  have h01 := hA 0 1 (by omega) (by omega)
  have h02 := hA 0 2 (by omega) (by omega)
  have h11 := hA 1 1 (by omega) (by omega)
  have h12 := hA 1 2 (by omega) (by omega)
  have h22 := hA 2 2 (by omega) (by omega)
  simp [List.range_succ] at h00 h01 h02 h11 h12 h22
  simp only [dotG3, affPt3 _ _ _ _ (show 0 < 3 by omega), affPt3 _ _ _ _ (show 1 < 3 by omega),
    affPt3 _ _ _ _ (show 2 < 3 by omega)]
  linear_combination (q 0 - p 0) * (t 0 - r 0) * h00 + ((q 0 - p 0) * (t 1 - r 1) + (q 1 - p 1) * (t 0 - r 0)) * h01 +
    ((q 0 - p 0) * (t 2 - r 2) + (q 2 - p 2) * (t 0 - r 0)) * h02 + (q 1 - p 1) * (t 1 - r 1) * h11 +
    ((q 1 - p 1) * (t 2 - r 2) + (q 2 - p 2) * (t 1 - r 1)) * h12 + (q 2 - p 2) * (t 2 - r 2) * h22

theorem sqrt_simil {s : K → K} (hs : IsSqrtF s) {A : Nat → Nat → K} {k : K} (hA : IsSimil 3 A k) (b p q r : Nat → K) :
    s (triaNorm2 (affPt 3 A b p) (affPt 3 A b q) (affPt 3 A b r)) = k * k * s (triaNorm2 p q r) := by
  rw [← hs.scale (mul_self_nonneg k) (triaNorm2_nonneg p q r)]
  congr 1
  rw [triaNorm2_gram, dotG3_simil hA, dotG3_simil hA, dotG3_simil hA, triaNorm2_gram]
  ring

omit [LinearOrder K] [IsStrictOrderedRing K] in
theorem baryDyn_aff [CharZero K] (sd : Nat) (A : Nat → Nat → K) (b : Nat → K) (ps : List (Nat → K)) (hne : ps ≠ []) :
    baryDyn (ps.map (affPt sd A b)) = affPt sd A b (baryDyn ps) := by
  have hl : (ps.length : K) ≠ 0 := by
    have := List.length_pos_iff.mpr hne
    exact_mod_cast this.ne'
  funext d
  unfold baryDyn affPt
  by_cases hd : d < sd
  · simp only [hd, if_true, List.map_map, List.length_map, Function.comp_def]
    have e : (List.map (fun p : Nat → K => ((List.range sd).map fun c => A d c * p c).sum + b d) ps).sum =
        ((List.range sd).map fun c => A d c * (ps.map fun p => p c).sum).sum + ps.length * b d := by
      clear hne hl
      induction ps with
      | nil => simp
      | cons p ps ih =>
        simp only [List.map_cons, List.sum_cons, ih, List.length_cons]
        rw [← sub_eq_zero]
        have : ((List.range sd).map fun c => A d c * (p c + (ps.map fun p => p c).sum)).sum =
            ((List.range sd).map fun c => A d c * p c).sum + ((List.range sd).map fun c => A d c * (ps.map fun p => p c).sum).sum := by
          rw [← sum_map_add_list]
          congr 1
          refine List.map_congr_left fun c _ => ?_
          ring
        rw [this]
        push_cast
        ring
    rw [e]
    have e2 : ((List.range sd).map fun c => A d c * ((ps.map fun p => p c).sum / (ps.length : K))).sum =
        (1 / (ps.length : K)) * ((List.range sd).map fun c => A d c * (ps.map fun p => p c).sum).sum := by
      rw [← sum_map_mul_list]
      congr 1
      refine List.map_congr_left fun c _ => ?_
      ring
    rw [e2]
    field_simp
  · simp [hd, Function.comp_def]

theorem areaPolyg_simil {s : K → K} (hs : IsSqrtF s) {A : Nat → Nat → K} {k : K} (hA : IsSimil 3 A k) (b : Nat → K)
    (ps : List (Nat → K)) : areaPolyg s 3 (ps.map (affPt 3 A b)) = k * k * areaPolyg s 3 ps := by
  by_cases hne : ps = []
  · subst hne
    simp [areaPolyg]
  · rw [areaPolyg_cyc, areaPolyg_cyc, cycPairs_map, List.map_map, ← sum_map_mul_list, baryDyn_aff 3 A b ps hne]
    congr 1
    refine List.map_congr_left fun x _ => ?_
    simp only [Function.comp_apply, Prod.map_fst, Prod.map_snd, areaTria, show ¬ (3 = 2) by decide, if_false]
    rw [sqrt_simil hs hA]
    ring

/-- **C98.** Surfaces of the space: when the nodes are moved by a map which multiplies every length by `k` (a translation, a
rotation or a symmetry for `k = 1`), areas are multiplied by the square of `k`. -/
theorem C98_areas_in_space_follow_similarities (arcs : Arcs K) (s : K → K) (hs : IsSqrtF s) (A : Nat → Nat → K) (b : Nat → K)
    (k : K) (hA : IsSimil 3 A k) (coords : List (List K)) (t : Int) (nodes : List Int)
    (ht : t ∈ ([3, 4, 5, 6, 7, 8, 9, 32] : List Int)) :
    cellMeasure arcs s 3 (coords.map (affL 3 A b)) t nodes = (cellMeasure arcs s 3 coords t nodes).map (k * k * ·) := by
  simp only [List.mem_cons, List.not_mem_nil, or_false] at ht
  have hcase : t = 3 ∨ t = 4 ∨ t = 5 ∨ (t = 6 ∨ t = 7 ∨ t = 8 ∨ t = 9 ∨ t = 32) := by omega
  rcases hcase with rfl | rfl | rfl | h
  · rw [meas_tria _ _ 3 (Or.inr rfl), meas_tria _ _ 3 (Or.inr rfl)]
    refine branch_map _ (affPt 3 A b) (tupPt_affL 3 A b) coords nodes 3
      (fun ps => areaTria s 3 (ptRk ps 0) (ptRk ps 1) (ptRk ps 2)) _ fun ps hp => ?_
    rw [ptRk_map _ _ _ (by omega), ptRk_map _ _ _ (by omega), ptRk_map _ _ _ (by omega)]
    simp only [areaTria, show ¬ (3 = 2) by decide, if_false, sqrt_simil hs hA]
    ring
  · rw [meas_quad _ _ 3 (Or.inr rfl), meas_quad _ _ 3 (Or.inr rfl)]
    refine branch_map _ (affPt 3 A b) (tupPt_affL 3 A b) coords nodes 4
      (fun ps => areaQuad s 3 (ptRk ps 0) (ptRk ps 1) (ptRk ps 2) (ptRk ps 3)) _ fun ps hp => ?_
    rw [ptRk_map _ _ _ (by omega), ptRk_map _ _ _ (by omega), ptRk_map _ _ _ (by omega), ptRk_map _ _ _ (by omega)]
    simp only [areaQuad, show ¬ (3 = 2) by decide, if_false, sqrt_simil hs hA]
    ring
  · rw [meas_polyg _ _ 3 (Or.inr rfl), meas_polyg _ _ 3 (Or.inr rfl)]
    exact branch_map _ (affPt 3 A b) (tupPt_affL 3 A b) coords nodes nodes.length
      (fun ps => areaPolyg s 3 ps) _ fun ps _ => areaPolyg_simil hs hA b ps
  · rw [meas_qpolyg _ _ 3 (Or.inr rfl) _ _ _ h, meas_qpolyg _ _ 3 (Or.inr rfl) _ _ _ h, nodePts_map _ _ (tupPt_affL 3 A b)]
    cases nodePts coords nodes (qpolygNodes t nodes) with
    | error e => rfl
    | ok ps =>
      simp only [Except.map, ok_bind, areaQPolyg, List.length_map, show ¬ (3 = 2) by decide, if_false]
      by_cases h2 : ps.length % 2 = 0
      · rw [if_pos h2, if_pos h2, ← List.map_take, areaPolyg_simil hs hA]
      · rw [if_neg h2, if_neg h2]
        rfl

/-- **C98.** Curves of the plane and of the space: when the nodes are moved by a map which multiplies every length by `k`, the
length of segments is multiplied by `k`. -/
theorem C98_lengths_follow_similarities (arcs : Arcs K) (s : K → K) (hs : IsSqrtF s) (sd : Nat) (hsd : sd = 2 ∨ sd = 3)
    (A : Nat → Nat → K) (b : Nat → K) (k : K) (hk : 0 ≤ k) (hA : IsSimil sd A k) (coords : List (List K)) (t : Int)
    (nodes : List Int) (ht : t = 1 ∨ t = 10) :
    cellMeasure arcs s sd (coords.map (affL sd A b)) t nodes = (cellMeasure arcs s sd coords t nodes).map (k * ·) := by
  rw [meas_seg _ _ sd (Or.inr hsd) _ _ _ ht, meas_seg _ _ sd (Or.inr hsd) _ _ _ ht]
  refine branch_map _ (affPt sd A b) (tupPt_affL sd A b) coords nodes 2
    (fun ps => lgthSeg2 s sd (ptRk ps 0) (ptRk ps 1)) _ fun ps hp => ?_
  rw [ptRk_map _ _ _ (by omega), ptRk_map _ _ _ (by omega)]
  set p := ptRk ps 0
  set q := ptRk ps 1
  rcases hsd with rfl | rfl
  · simp only [lgthSeg2, show ¬ (2 = 1) by decide, if_false]
    rw [← hs.scale hk]
    · congr 1
      have h00 := hA 0 0 (by omega) (by omega)
      have h01 := hA 0 1 (by omega) (by omega)
      have h11 := hA 1 1 (by omega) (by omega)
      simp [List.range_succ] at h00 h01 h11
      simp only [List.range_succ, List.range_zero, List.nil_append, List.cons_append, List.map_cons, List.map_nil,
        List.sum_cons, List.sum_nil, affPt2 _ _ _ _ (show 0 < 2 by omega), affPt2 _ _ _ _ (show 1 < 2 by omega)]
      linear_combination (q 0 - p 0) * (q 0 - p 0) * h00 + 2 * (q 0 - p 0) * (q 1 - p 1) * h01 +
        (q 1 - p 1) * (q 1 - p 1) * h11
    · exact List.sum_nonneg (by simp; intro a _; exact mul_self_nonneg _)
  · simp only [lgthSeg2, show ¬ (3 = 1) by decide, if_false]
    rw [← hs.scale hk]
    · congr 1
      have := dotG3_simil hA b p q p q
      simp only [dotG3] at this
      simp only [List.range_succ, List.range_zero, List.nil_append, List.cons_append, List.map_cons, List.map_nil,
        List.sum_cons, List.sum_nil]
      linear_combination this
    · exact List.sum_nonneg (by simp; intro a _; exact mul_self_nonneg _)

/-! ## Surfaces put in the space -/

theorem triaNorm2_flat (a b c : List K) (z : K) (ha : a.length = 2) (hb : b.length = 2) (hc : c.length = 2) :
    triaNorm2 (tupPt (a ++ [z])) (tupPt (b ++ [z])) (tupPt (c ++ [z])) =
      (2 * areaTria2 (tupPt a) (tupPt b) (tupPt c)) * (2 * areaTria2 (tupPt a) (tupPt b) (tupPt c)) := by
  obtain ⟨a0, a1, rfl⟩ := List.length_eq_two.mp ha
  obtain ⟨b0, b1, rfl⟩ := List.length_eq_two.mp hb
  obtain ⟨c0, c1, rfl⟩ := List.length_eq_two.mp hc
  simp only [triaNorm2, areaTria2, tupPt, List.cons_append, List.nil_append, List.getD_cons_zero, List.getD_cons_succ]
  ring

theorem sqrt_flat {s : K → K} (hs : IsSqrtF s) {x y : K} (h : x = (2 * y) * (2 * y)) : s x / 2 = |y| := by
  have : s x = 2 * |y| := by
    refine hs.unique (by positivity) ?_
    rw [h]
    have := abs_mul_abs_self y
    linear_combination 4 * this
  rw [this]
  ring

/-- **C98.** A triangle of the plane has the same area, but for its sign, when the plane is put in the space. -/
theorem C98_triangle_put_in_space (arcs : Arcs K) (s : K → K) (hs : IsSqrtF s) (z : K) (coords : List (List K))
    (hc : ∀ p ∈ coords, p.length = 2) (nodes : List Int) :
    cellMeasure arcs s 3 (coords.map (· ++ [z])) 3 nodes = (cellMeasure arcs s 2 coords 3 nodes).map (|·|) := by
  rw [meas_tria _ _ 3 (Or.inr rfl), meas_tria _ _ 2 (Or.inl rfl), nodePts_char, nodePts_char, List.length_map]
  split
  · rename_i h
    rcases nodes with _ | ⟨a, _ | ⟨b, _ | ⟨c, l⟩⟩⟩ <;> simp at h
    simp only [ok_bind, Except.map, List.take_succ_cons, List.take_zero, List.map_cons, List.map_nil, ptRk, List.getD_cons_zero,
      List.getD_cons_succ, areaTria, show ¬ (3 = 2) by decide, if_false, if_true]
    have hp : ∀ n : Int, 0 ≤ n ∧ n < coords.length → ptNode (coords.map (· ++ [z])) n = tupPt (coords.getD n.toNat [] ++ [z]) ∧
        (coords.getD n.toNat []).length = 2 := by
      intro n hn
      unfold ptNode
      rw [getD_of_lt _ (by rw [List.length_map]; omega), getD_of_lt _ (by omega), List.getElem_map]
      exact ⟨rfl, hc _ (List.getElem_mem _)⟩
    rw [(hp a h.1).1, (hp b h.2.1).1, (hp c h.2.2).1]
    congr 1
    exact sqrt_flat hs (triaNorm2_flat _ _ _ z (hp a h.1).2 (hp b h.2.1).2 (hp c h.2.2).2)
  · rfl

/-! ## Fields -/

/-- The value of the field on a cell -/
def cellValue (arcs : Arcs K) (s : K → K) (sd : Nat) (coords : List (List K)) (isAbs : Bool) (c : Cell) : M K := do
  let v ← cellMeasure arcs s sd coords c.type c.nodes
  .ok (if isAbs then |v| else v)

omit [IsStrictOrderedRing K] in
theorem measureField_eq (arcs : Arcs K) (s : K → K) (sd : Nat) (coords : List (List K)) {conn connI : List Int}
    {cells : List Cell} (h : IsMesh conn connI cells) (isAbs : Bool) :
    measureField arcs s sd coords conn connI isAbs = cells.mapM (cellValue arcs s sd coords isAbs) := by
  unfold measureField
  rw [forCells_eq_foldlM h]
  have : ∀ (cells : List Cell) (out : List K), cells.foldlM (fun out c => (do
      let v ← cellMeasure arcs s sd coords c.type c.nodes
      .ok (out ++ [if isAbs then |v| else v]) : M (List K))) out =
      (cells.mapM (cellValue arcs s sd coords isAbs)).map (out ++ ·) := by
    intro cells
    induction cells with
    | nil => intro out; simp [Except.map, pure, Except.pure]
    | cons c cells ih =>
      intro out
      rw [List.foldlM_cons, List.mapM_cons]
      unfold cellValue at ih ⊢
      cases cellMeasure arcs s sd coords c.type c.nodes with
      | error e => rfl
      | ok v =>
        simp only [ok_bind]
        rw [ih]
        cases (cells.mapM fun c => (do
          let v ← cellMeasure arcs s sd coords c.type c.nodes
          .ok (if isAbs then |v| else v) : M K)) with
        | error e => rfl
        | ok r => simp [Except.map, pure, Except.pure, ok_bind]
  rw [this]
  cases cells.mapM (cellValue arcs s sd coords isAbs) <;> simp [Except.map]

omit [IsStrictOrderedRing K] in
/-- **C98.** The field of measures of a mesh has one value for each cell, which is the measure of the cell, or its absolute value
if it is asked for. -/
theorem C98_field_of_measures (arcs : Arcs K) (s : K → K) (sd : Nat) (coords : List (List K)) (conn connI : List Int)
    (cells : List Cell) (h : IsMesh conn connI cells) (isAbs : Bool) (vs : List K) :
    measureField arcs s sd coords conn connI isAbs = .ok vs ↔
      vs.length = cells.length ∧ ∀ (i : Nat) (c : Cell), cells[i]? = some c → ∃ v,
        cellMeasure arcs s sd coords c.type c.nodes = .ok v ∧ vs[i]? = some (if isAbs then |v| else v) := by
  rw [measureField_eq arcs s sd coords h]
  clear h
  induction cells generalizing vs with
  | nil =>
    constructor
    · intro h
      have : vs = [] := by simpa [pure, Except.pure, eq_comm] using h
      simp [this]
    · intro h
      have : vs = [] := by simpa using h.1
      subst this
      rfl
  | cons c cells ih =>
    rw [List.mapM_cons]
    constructor
    · intro h
      unfold cellValue at h
      cases hc : cellMeasure arcs s sd coords c.type c.nodes with
      | error e => rw [hc] at h; cases h
      | ok v =>
        rw [hc] at h
        simp only [ok_bind] at h
        cases hr : cells.mapM (cellValue arcs s sd coords isAbs) with
        | error e =>
          have hr' := hr
          unfold cellValue at hr'
          rw [hr'] at h; cases h
        | ok r =>
          have hr' := hr
          unfold cellValue at hr'
          rw [hr'] at h
          have hv : vs = (if isAbs then |v| else v) :: r := by
            simpa [pure, Except.pure, ok_bind, eq_comm] using h
          subst hv
          have := (ih r).mp hr
          refine ⟨by simp [this.1], ?_⟩
          intro i d hi
          cases i with
          | zero =>
            have : c = d := by simpa using hi
            subst this
            exact ⟨v, hc, by simp⟩
          | succ i =>
            have := this.2 i d (by simpa using hi)
            simpa using this
    · rintro ⟨hl, hv⟩
      cases vs with
      | nil => simp at hl
      | cons w vs =>
        obtain ⟨v, hv0, hw⟩ := hv 0 c (by simp)
        have hr := (ih vs).mpr ⟨by simpa using hl, fun i d hi => by simpa using hv (i + 1) d (by simpa using hi)⟩
        rw [hr]
        unfold cellValue
        rw [hv0]
        have : w = if isAbs then |v| else v := by simpa using hw
        rw [this]
        rfl

omit [IsStrictOrderedRing K] in
/-- **C98.** The measures of a part of the mesh are those of the field on the mesh, in the order of the given cells. -/
theorem C98_measures_of_a_part (arcs : Arcs K) (s : K → K) (sd : Nat) (coords : List (List K)) (conn connI : List Int)
    (cells : List Cell) (h : IsMesh conn connI cells) (isAbs : Bool) (vs : List K)
    (hf : measureField arcs s sd coords conn connI isAbs = .ok vs) (ids : List Int)
    (hi : ∀ i ∈ ids, 0 ≤ i ∧ i < cells.length) :
    partMeasureField arcs s sd coords conn connI isAbs ids = .ok (ids.map fun i => vs.getD i.toNat 0) := by
  unfold partMeasureField
  refine mapM_ok_map fun i hm => ?_
  obtain ⟨h0, h1⟩ := hi i hm
  obtain ⟨m, rfl⟩ := Int.eq_ofNat_of_zero_le h0
  have hm' : m < cells.length := by omega
  have hf' := ((C98_field_of_measures arcs s sd coords conn connI cells h isAbs vs).mp hf).2 m cells[m] (by simp [hm'])
  obtain ⟨v, hv, hvs⟩ := hf'
  have e : rdCell conn connI (m : Int) = .ok cells[m] := rdCell_ok h hm'
  rw [e, ok_bind, hv, ok_bind]
  simp [List.getD_eq_getElem?_getD, hvs]

end
end MC
