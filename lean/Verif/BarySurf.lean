import Verif.BaryMain

/-!
# C102: centers of mass of the cells of dimension 1 and 2, of meshes, and isobarycenters
-/

namespace MC

section
variable {K : Type} [Field K]

/-- Twice the area of a polygon of the plane, cut in triangles from `o` -/
def planeArea (coords : List (List K)) (nodes : List Int) (o : Nat → K) : K :=
  ((cycPairs nodes).map fun x => tri2 o (ptNode coords x.1) (ptNode coords x.2)).sum

/-- The sum of the areas of these triangles times the coordinate `k` of their centers -/
def planeMom (coords : List (List K)) (nodes : List Int) (o : Nat → K) (k : Nat) : K :=
  ((cycPairs nodes).map fun x =>
    tri2 o (ptNode coords x.1) (ptNode coords x.2) * ((o k + ptNode coords x.1 k + ptNode coords x.2 k) / 3)).sum

/-- `c` is the center of mass of the polygon of the plane: wherever it is cut from. -/
def HasCenter2 (coords : List (List K)) (nodes : List Int) (c : List K) : Prop :=
  c.length = 2 ∧ ∀ (o : Nat → K), ∀ k < 2, planeArea coords nodes o * tupPt c k = planeMom coords nodes o k

/-- The area vector of a polygon of the space, cut in triangles from `o` -/
def spaceArea (coords : List (List K)) (nodes : List Int) (o : Nat → K) (d : Nat) : K :=
  ((cycPairs nodes).map fun x => triV o (ptNode coords x.1) (ptNode coords x.2) d).sum

/-- The sum of the vectors of these triangles times the coordinate `k` of their centers -/
def spaceMom (coords : List (List K)) (nodes : List Int) (o : Nat → K) (d k : Nat) : K :=
  ((cycPairs nodes).map fun x =>
    triV o (ptNode coords x.1) (ptNode coords x.2) d * ((o k + ptNode coords x.1 k + ptNode coords x.2 k) / 3)).sum

/-- `o` is in the plane of the polygon. -/
def InPlane (coords : List (List K)) (nodes : List Int) (o : Nat → K) : Prop :=
  ∀ n ∈ nodes, spaceArea coords nodes (ptNode coords n) 0 * (o 0 - ptNode coords n 0) +
    spaceArea coords nodes (ptNode coords n) 1 * (o 1 - ptNode coords n 1) +
    spaceArea coords nodes (ptNode coords n) 2 * (o 2 - ptNode coords n 2) = 0

/-- `c` is the center of mass of the plane polygon of the space: from wherever in its plane it is cut. -/
def HasCenterS (coords : List (List K)) (nodes : List Int) (c : List K) : Prop :=
  c.length = 3 ∧ ∀ (o : Nat → K), InPlane coords nodes o → ∀ d < 3, ∀ k < 3,
    spaceArea coords nodes o d * tupPt c k = spaceMom coords nodes o d k

theorem planeArea_eq (coords : List (List K)) (nodes : List Int) (o : Nat → K) :
    planeArea coords nodes o = edgeSum (fun a b => a 0 * b 1 - a 1 * b 0) (nodes.map (ptNode coords)) := by
  rw [cross_from o, edgeSum_cyc, cycPairs_map, List.map_map]
  rfl

theorem planeMom_eq [CharZero K] (coords : List (List K)) (nodes : List Int) (o : Nat → K) (k : Nat) (hk : k < 2) :
    planeMom coords nodes o k =
      edgeSum (fun a b => (a 0 * b 1 - a 1 * b 0) * (a k + b k)) (nodes.map (ptNode coords)) / 3 := by
  rw [moment2_from o k hk, edgeSum_cyc, cycPairs_map, List.map_map, div_eq_inv_mul, ← sum_map_mul_list]
  unfold planeMom
  congr 1
  apply List.map_congr_left
  intro x _
  simp only [Function.comp_apply, Prod.map_fst, Prod.map_snd]
  ring

theorem spaceArea_eq (coords : List (List K)) (nodes : List Int) (o : Nat → K) (d : Nat) (hd : d < 3) :
    spaceArea coords nodes o d = areaVector (nodes.map (ptNode coords)) d := by
  rw [areaVector_from o _ d hd, edgeSum_cyc, cycPairs_map, List.map_map]
  rfl

end

section
variable {K : Type} [Field K] [LinearOrder K] [IsStrictOrderedRing K]

theorem bary_simplex (arcs : BaryArcs K) (s : K → K) (tiny eps : K) (sd : Nat) (hsd : sd = 1 ∨ sd = 2 ∨ sd = 3)
    (coords : List (List K)) (t : Int) (nodes : List Int) (n : Nat)
    (ht : (t = 1 ∨ t = 10) ∧ n = 2 ∨ t = 2 ∧ sd ≠ 2 ∧ n = 2 ∨ (t = 3 ∨ t = 7) ∧ n = 3 ∨ t = 14 ∧ sd = 3 ∧ n = 4) :
    cellBaryF arcs s tiny eps sd coords t nodes = (do
      let ps ← nodePts coords nodes n
      .ok (meanPts ps)) := by
  have hsd' : ¬ ¬ (sd = 1 ∨ sd = 2 ∨ sd = 3) := not_not.mpr hsd
  unfold cellBaryF
  rw [if_neg hsd']
  rcases ht with ⟨rfl | rfl, rfl⟩ | ⟨rfl, h2, rfl⟩ | ⟨rfl | rfl, rfl⟩ | ⟨rfl, h2, rfl⟩
  · rfl
  · rfl
  · rw [if_neg (by decide), if_pos rfl, if_neg h2]
  · rfl
  · rfl
  · simp [h2]

/-- **C102.** The center of a segment, of a triangle, of a tetrahedron is the mean of its vertices. -/
theorem C102_centers_of_simplices (arcs : BaryArcs K) (s : K → K) (tiny eps : K) (sd : Nat) (hsd : sd = 1 ∨ sd = 2 ∨ sd = 3)
    (coords : List (List K)) (t : Int) (nodes : List Int) (n : Nat)
    (ht : (t = 1 ∨ t = 10) ∧ n = 2 ∨ t = 2 ∧ sd ≠ 2 ∧ n = 2 ∨ (t = 3 ∨ t = 7) ∧ n = 3 ∨ t = 14 ∧ sd = 3 ∧ n = 4)
    (hl : n ≤ nodes.length) (hv : ValidNodes coords nodes) :
    cellBary arcs s tiny eps sd coords t nodes =
      .ok ((List.range sd).map fun k => ((nodes.take n).map fun m => ptNode coords m k).sum / (n : K)) := by
  unfold cellBary
  rw [bary_simplex arcs s tiny eps sd hsd coords t nodes n ht, nodePts_char, if_pos ⟨hl, fun c hc => hv c (List.mem_of_mem_take hc)⟩]
  simp only [ok_bind]
  congr 1
  apply List.map_congr_left
  intro k _
  simp only [meanPts, List.map_map, List.length_map, List.length_take, Nat.min_eq_left hl]
  rfl

/-- **C102.** The center of a quadrangle or a polygon of the plane is its center of mass. -/
theorem C102_center_of_mass_of_polygons (arcs : BaryArcs K) (s : K → K) (tiny eps : K) (coords : List (List K)) (t : Int)
    (nodes : List Int) (ht : t = 4 ∨ t = 5) (hv : ValidNodes coords nodes) (hA : planeArea coords nodes (fun _ => 0) ≠ 0) :
    ∃ c, cellBary arcs s tiny eps 2 coords t nodes = .ok c ∧ HasCenter2 coords nodes c := by
  have hpts : nodePts coords nodes nodes.length = .ok (nodes.map (ptNode coords)) := by
    rw [nodePts_all, if_pos hv]
  have hb : cellBaryF arcs s tiny eps 2 coords t nodes = .ok (baryPolyg2 (nodes.map (ptNode coords))) := by
    rcases ht with rfl | rfl <;> simp [cellBaryF, hpts, ok_bind]
  refine ⟨(List.range 2).map (baryPolyg2 (nodes.map (ptNode coords))), by unfold cellBary; rw [hb]; rfl, by simp, ?_⟩
  intro o k hk
  have e : tupPt ((List.range 2).map (baryPolyg2 (nodes.map (ptNode coords)))) k =
      baryPolyg2 (nodes.map (ptNode coords)) k := by
    have hk3 : k = 0 ∨ k = 1 := by omega
    rcases hk3 with rfl | rfl <;> rfl
  rw [e, planeArea_eq, planeMom_eq coords nodes o k hk]
  rw [planeArea_eq] at hA
  unfold baryPolyg2
  field_simp

/-- What is asked of a polygon of the space: plane, not too small, and the triangles from its first node neither -/
def SurfReg (tiny eps : K) (coords : List (List K)) (nodes : List Int) : Prop :=
  PlanePts (nodes.map (ptNode coords)) ∧ tiny * tiny < areaSq (nodes.map (ptNode coords)) ∧
    NoSmallTriangle eps (nodes.map (ptNode coords))

/-- **C102.** The center of a plane quadrangle or polygon of the space is its center of mass; so is the one of a quadratic
cell of dimension 2, with its vertices. -/
theorem C102_center_of_mass_of_polygons_in_space (arcs : BaryArcs K) {s : K → K} (hs : IsSqrtF s) {tiny eps : K}
    (ht : 0 ≤ tiny) (he : 0 ≤ eps) (coords : List (List K)) (t : Int) (nodes : List Int) (n : Nat)
    (htn : (t = 4 ∨ t = 5) ∧ n = nodes.length ∨ (t = 6 ∨ t = 8 ∨ t = 32) ∧ n = nodes.length / 2)
    (hv : ValidNodes coords nodes) (hr : SurfReg tiny eps coords (nodes.take n)) :
    ∃ c, cellBary arcs s tiny eps 3 coords t nodes = .ok c ∧ HasCenterS coords (nodes.take n) c := by
  have hl : n ≤ nodes.length := by omega
  have hpts : nodePts coords nodes n = .ok ((nodes.take n).map (ptNode coords)) := by
    rw [nodePts_char, if_pos ⟨hl, fun c hc => hv c (List.mem_of_mem_take hc)⟩]
  obtain ⟨c, h1, h2⟩ := baryPolyg3_plane hs ht he _ hr.1 hr.2.1 hr.2.2
  have hb : cellBaryF arcs s tiny eps 3 coords t nodes = .ok c := by
    rw [← ok_bind ((nodes.take n).map (ptNode coords)) (baryPolyg3 s tiny eps), ← hpts] at h1
    rcases htn with ⟨rfl | rfl, rfl⟩ | ⟨rfl | rfl | rfl, rfl⟩ <;> exact h1
  refine ⟨(List.range 3).map c, by unfold cellBary; rw [hb]; rfl, by simp, ?_⟩
  intro o ho d hd k hk
  have e : tupPt ((List.range 3).map c) k = c k := by
    have hk3 : k = 0 ∨ k = 1 ∨ k = 2 := by omega
    rcases hk3 with rfl | rfl | rfl <;> rfl
  have hne : nodes.take n ≠ [] := by
    intro h0
    have := hr.2.1
    rw [h0] at this
    simp only [List.map_nil, areaSq, areaVector, List.length_nil, List.range_zero, List.map_nil, List.sum_nil] at this
    have h3 := mul_nonneg ht ht
    simp at this
    linarith
  have hin : areaVector ((nodes.take n).map (ptNode coords)) 0 * (o 0 - p0 ((nodes.take n).map (ptNode coords)) 0) +
      areaVector ((nodes.take n).map (ptNode coords)) 1 * (o 1 - p0 ((nodes.take n).map (ptNode coords)) 1) +
      areaVector ((nodes.take n).map (ptNode coords)) 2 * (o 2 - p0 ((nodes.take n).map (ptNode coords)) 2) = 0 := by
    have := ho _ (headD_mem hne)
    rw [spaceArea_eq _ _ _ 0 (by omega), spaceArea_eq _ _ _ 1 (by omega), spaceArea_eq _ _ _ 2 (by omega)] at this
    rw [p0_map coords _ hne]
    exact this
  rw [e, spaceArea_eq _ _ _ d hd, h2 o hin d hd k hk, edgeSum_cyc, cycPairs_map, List.map_map]
  rfl

/-! ## What follows in the plane -/

theorem center2_of_ok (arcs : BaryArcs K) (s : K → K) (tiny eps : K) {coords : List (List K)} {t : Int}
    {nodes : List Int} (ht : t = 4 ∨ t = 5) (hv : ValidNodes coords nodes) (hA : planeArea coords nodes (fun _ => 0) ≠ 0)
    {c : List K} (hc : cellBary arcs s tiny eps 2 coords t nodes = .ok c) : HasCenter2 coords nodes c := by
  obtain ⟨c', h1, h2⟩ := C102_center_of_mass_of_polygons arcs s tiny eps coords t nodes ht hv hA
  rw [hc] at h1
  cases h1
  exact h2

theorem list2_ext {c c' : List K} (h : c.length = 2) (h' : c'.length = 2) (he : ∀ k < 2, tupPt c k = tupPt c' k) : c = c' := by
  apply List.ext_getElem (by rw [h, h'])
  intro k h1 h2
  have := he k (by omega)
  unfold tupPt at this
  rwa [getD_of_lt _ h1, getD_of_lt _ h2] at this

theorem tri2_aff (A : Nat → Nat → K) (b o p q : Nat → K) :
    tri2 (affPt 2 A b o) (affPt 2 A b p) (affPt 2 A b q) = det2 A * tri2 o p q := by
  simp only [tri2, affPt2 _ _ _ _ (show 0 < 2 by omega), affPt2 _ _ _ _ (show 1 < 2 by omega), det2]
  ring

/-- **C102.** The centers of mass of the polygons of the plane follow the affine maps. -/
theorem C102_centers_of_polygons_follow_affine_maps (arcs : BaryArcs K) (s : K → K) (tiny eps : K) (A : Nat → Nat → K)
    (b : Nat → K) (hdet : det2 A ≠ 0) (coords : List (List K)) (t : Int) (nodes : List Int) (ht : t = 4 ∨ t = 5)
    (hv : ValidNodes coords nodes) (hA : planeArea coords nodes (fun _ => 0) ≠ 0) :
    cellBary arcs s tiny eps 2 (coords.map (affL 2 A b)) t nodes =
      (cellBary arcs s tiny eps 2 coords t nodes).map (affL 2 A b) := by
  have hv' : ValidNodes (coords.map (affL 2 A b)) nodes := fun n hn => by simpa using hv n hn
  have hvol : ∀ o, planeArea (coords.map (affL 2 A b)) nodes (affPt 2 A b o) = det2 A * planeArea coords nodes o := by
    intro o
    unfold planeArea
    rw [← sum_map_mul_list]
    congr 1
    apply List.map_congr_left
    intro x hx
    obtain ⟨m1, m2⟩ := mem_cycPairs hx
    rw [ptNode_aff 2 A b coords _ (hv _ m1), ptNode_aff 2 A b coords _ (hv _ m2), tri2_aff]
  have hmom : ∀ o, ∀ k < 2, planeMom (coords.map (affL 2 A b)) nodes (affPt 2 A b o) k =
      det2 A * (A k 0 * planeMom coords nodes o 0 + A k 1 * planeMom coords nodes o 1 + b k * planeArea coords nodes o) := by
    intro o k hk
    unfold planeMom planeArea
    simp only [← sum_map_mul_list, ← sum_map_add_list]
    congr 1
    apply List.map_congr_left
    intro x hx
    obtain ⟨m1, m2⟩ := mem_cycPairs hx
    rw [ptNode_aff 2 A b coords _ (hv _ m1), ptNode_aff 2 A b coords _ (hv _ m2), tri2_aff]
    simp only [affPt2 _ _ _ _ hk]
    ring
  have hA' : planeArea (coords.map (affL 2 A b)) nodes (fun _ => 0) ≠ 0 := by
    rw [planeArea_eq, ← planeArea_eq (coords.map (affL 2 A b)) nodes (affPt 2 A b fun _ => 0), hvol]
    exact mul_ne_zero hdet hA
  obtain ⟨c, h1, h2⟩ := C102_center_of_mass_of_polygons arcs s tiny eps coords t nodes ht hv hA
  obtain ⟨c', h1', h2'⟩ := C102_center_of_mass_of_polygons arcs s tiny eps _ t nodes ht hv' hA'
  rw [h1, h1']
  show (Except.ok c' : M (List K)) = .ok (affL 2 A b c)
  congr 1
  refine list2_ext h2'.1 (by simp [affL]) fun k hk => ?_
  have e := h2'.2 (affPt 2 A b fun _ => 0) k hk
  rw [hvol, hmom _ k hk, ← h2.2 _ 0 (by omega), ← h2.2 _ 1 (by omega)] at e
  rw [tupPt_affL, affPt2 _ _ _ _ hk]
  apply mul_left_cancel₀ (mul_ne_zero hdet hA)
  rw [e]
  ring

/-- **C102.** The center of a polygon of the plane is the same from any first node, and for the other orientation. -/
theorem C102_center_from_any_node (arcs : BaryArcs K) (s : K → K) (tiny eps : K) (coords : List (List K)) (t : Int)
    (nodes nodes' : List Int) (ht : t = 4 ∨ t = 5) (hv : ValidNodes coords nodes)
    (hA : planeArea coords nodes (fun _ => 0) ≠ 0) (j : Nat)
    (h : nodes' = nodes.rotate j ∨ nodes' = nodes.reverse ∨ nodes' = (nodes.rotate j).reverse) :
    cellBary arcs s tiny eps 2 coords t nodes' = cellBary arcs s tiny eps 2 coords t nodes := by
  have hrot : ∀ (E : Int × Int → K) (l : List Int), ((cycPairs (l.rotate j)).map E).sum = ((cycPairs l).map E).sum :=
    fun E l => sum_map_perm E (cycPairs_rotate j l)
  have hrev : ∀ (E : Int × Int → K) (l : List Int), (∀ x, E x.swap = -E x) →
      ((cycPairs l.reverse).map E).sum = -((cycPairs l).map E).sum := by
    intro E l hE
    rw [sum_map_perm E (cycPairs_reverse l), List.map_map]
    have : E ∘ Prod.swap = fun x => (-1) * E x := by
      funext x
      simp [hE]
    rw [this, sum_map_mul_list]
    ring
  have a1 : ∀ o : Nat → K, ∀ x : Int × Int, tri2 o (ptNode coords x.swap.1) (ptNode coords x.swap.2) =
      -tri2 o (ptNode coords x.1) (ptNode coords x.2) := by
    intro o x
    simp only [tri2, Prod.fst_swap, Prod.snd_swap]
    ring
  have a2 : ∀ (o : Nat → K) (k : Nat), ∀ x : Int × Int, tri2 o (ptNode coords x.swap.1) (ptNode coords x.swap.2) *
      ((o k + ptNode coords x.swap.1 k + ptNode coords x.swap.2 k) / 3) =
      -(tri2 o (ptNode coords x.1) (ptNode coords x.2) * ((o k + ptNode coords x.1 k + ptNode coords x.2 k) / 3)) := by
    intro o k x
    simp only [tri2, Prod.fst_swap, Prod.snd_swap]
    ring
  obtain ⟨e, he, hmem, hvol, hmom⟩ : ∃ e : K, (e = 1 ∨ e = -1) ∧ (∀ n ∈ nodes', n ∈ nodes) ∧
      (∀ o, planeArea coords nodes' o = e * planeArea coords nodes o) ∧
      (∀ o k, planeMom coords nodes' o k = e * planeMom coords nodes o k) := by
    rcases h with rfl | rfl | rfl
    · exact ⟨1, Or.inl rfl, fun n hn => by simpa using hn, fun o => by rw [one_mul]; exact hrot _ _,
        fun o k => by rw [one_mul]; exact hrot _ _⟩
    · refine ⟨-1, Or.inr rfl, fun n hn => by simpa using hn, fun o => ?_, fun o k => ?_⟩
      · rw [neg_one_mul]; exact hrev _ _ (a1 o)
      · rw [neg_one_mul]; exact hrev _ _ (a2 o k)
    · refine ⟨-1, Or.inr rfl, fun n hn => by simpa using hn, fun o => ?_, fun o k => ?_⟩
      · rw [neg_one_mul]; unfold planeArea; rw [hrev _ _ (a1 o), hrot]
      · rw [neg_one_mul]; unfold planeMom; rw [hrev _ _ (a2 o k), hrot]
  have he0 : e ≠ 0 := by rcases he with rfl | rfl <;> norm_num
  obtain ⟨c, h1, h2⟩ := C102_center_of_mass_of_polygons arcs s tiny eps coords t nodes ht hv hA
  obtain ⟨c', h1', h2'⟩ := C102_center_of_mass_of_polygons arcs s tiny eps coords t nodes' ht (fun n hn => hv n (hmem n hn))
    (by rw [hvol]; exact mul_ne_zero he0 hA)
  rw [h1, h1']
  congr 1
  refine list2_ext h2'.1 h2.1 fun k hk => ?_
  have e1 := h2'.2 (fun _ => 0) k hk
  rw [hvol, hmom, ← h2.2 _ k hk] at e1
  apply mul_left_cancel₀ (mul_ne_zero he0 hA)
  rw [e1]
  ring

/-- **C102.** The center of a polygon of the plane which is seen as a whole from one point is in every half-plane which contains
its nodes and this point; when the polygon is convex, it is in the polygon. -/
theorem C102_center_of_a_polygon_is_inside (arcs : BaryArcs K) (s : K → K) (tiny eps : K) (coords : List (List K)) (t : Int)
    (nodes : List Int) (ht : t = 4 ∨ t = 5) (hv : ValidNodes coords nodes)
    (hA : planeArea coords nodes (fun _ => 0) ≠ 0) (o : Nat → K) (sg : K) (hsg : sg = 1 ∨ sg = -1)
    (hst : ∀ x ∈ cycPairs nodes, 0 ≤ sg * tri2 o (ptNode coords x.1) (ptNode coords x.2))
    (al : Nat → K) (m : K) (ho : m ≤ al 0 * o 0 + al 1 * o 1)
    (hm : ∀ n ∈ nodes, m ≤ al 0 * ptNode coords n 0 + al 1 * ptNode coords n 1) (c : List K)
    (hc : cellBary arcs s tiny eps 2 coords t nodes = .ok c) : m ≤ al 0 * tupPt c 0 + al 1 * tupPt c 1 := by
  have hcen := center2_of_ok arcs s tiny eps ht hv hA hc
  have hVo : planeArea coords nodes o = planeArea coords nodes fun _ => 0 := by
    rw [planeArea_eq, planeArea_eq]
  have hsum : 0 ≤ sg * (al 0 * planeMom coords nodes o 0 + al 1 * planeMom coords nodes o 1 - m * planeArea coords nodes o) := by
    have e : sg * (al 0 * planeMom coords nodes o 0 + al 1 * planeMom coords nodes o 1 - m * planeArea coords nodes o) =
        ((cycPairs nodes).map fun x => sg * tri2 o (ptNode coords x.1) (ptNode coords x.2) *
            (((al 0 * o 0 + al 1 * o 1 - m) + (al 0 * ptNode coords x.1 0 + al 1 * ptNode coords x.1 1 - m) +
              (al 0 * ptNode coords x.2 0 + al 1 * ptNode coords x.2 1 - m)) / 3)).sum := by
      rw [sub_eq_add_neg, neg_mul_eq_neg_mul]
      unfold planeMom planeArea
      simp only [← sum_map_mul_list, ← sum_map_add_list]
      congr 1
      apply List.map_congr_left
      intro x _
      ring
    rw [e]
    apply List.sum_nonneg
    intro z hz
    obtain ⟨x, hx, rfl⟩ := List.mem_map.mp hz
    obtain ⟨m1, m2⟩ := mem_cycPairs hx
    have a2 := hm _ m1
    have a3 := hm _ m2
    apply mul_nonneg (hst x hx)
    linarith
  have hvol : 0 ≤ sg * planeArea coords nodes o := by
    unfold planeArea
    simp only [← sum_map_mul_list]
    apply List.sum_nonneg
    intro z hz
    obtain ⟨x, hx, rfl⟩ := List.mem_map.mp hz
    exact hst x hx
  have hsg0 : sg ≠ 0 := by rcases hsg with rfl | rfl <;> norm_num
  have hvp : 0 < sg * planeArea coords nodes o := lt_of_le_of_ne hvol (Ne.symm (mul_ne_zero hsg0 (hVo ▸ hA)))
  rw [← hcen.2 o 0 (by omega), ← hcen.2 o 1 (by omega)] at hsum
  have e : sg * (al 0 * (planeArea coords nodes o * tupPt c 0) + al 1 * (planeArea coords nodes o * tupPt c 1) -
      m * planeArea coords nodes o) = (sg * planeArea coords nodes o) * (al 0 * tupPt c 0 + al 1 * tupPt c 1 - m) := by ring
  rw [e] at hsum
  have := nonneg_of_mul_nonneg_right hsum hvp
  linarith

/-- **C102.** A polygon cut in two by a diagonal: the areas times the centers add. -/
theorem C102_cutting_a_polygon (arcs : BaryArcs K) (s : K → K) (tiny eps : K) (coords : List (List K)) (a b : Int)
    (l1 l2 : List Int) (hv : ValidNodes coords (a :: l1 ++ b :: l2))
    (hA : planeArea coords (a :: l1 ++ b :: l2) (fun _ => 0) ≠ 0) (hA1 : planeArea coords (a :: l1 ++ [b]) (fun _ => 0) ≠ 0)
    (hA2 : planeArea coords (b :: l2 ++ [a]) (fun _ => 0) ≠ 0) :
    ∃ c c1 c2, cellBary arcs s tiny eps 2 coords 5 (a :: l1 ++ b :: l2) = .ok c ∧
      cellBary arcs s tiny eps 2 coords 5 (a :: l1 ++ [b]) = .ok c1 ∧
      cellBary arcs s tiny eps 2 coords 5 (b :: l2 ++ [a]) = .ok c2 ∧
      ∀ o, planeArea coords (a :: l1 ++ b :: l2) o = planeArea coords (a :: l1 ++ [b]) o + planeArea coords (b :: l2 ++ [a]) o ∧
        ∀ k < 2, planeArea coords (a :: l1 ++ b :: l2) o * tupPt c k =
          planeArea coords (a :: l1 ++ [b]) o * tupPt c1 k + planeArea coords (b :: l2 ++ [a]) o * tupPt c2 k := by
  have hv1 : ValidNodes coords (a :: l1 ++ [b]) := fun n hn => hv n (by
    simp only [List.cons_append, List.mem_cons, List.mem_append, List.not_mem_nil, or_false] at hn ⊢
    tauto)
  have hv2 : ValidNodes coords (b :: l2 ++ [a]) := fun n hn => hv n (by
    simp only [List.cons_append, List.mem_cons, List.mem_append, List.not_mem_nil, or_false] at hn ⊢
    tauto)
  obtain ⟨c, e, g⟩ := C102_center_of_mass_of_polygons arcs s tiny eps coords 5 _ (Or.inr rfl) hv hA
  obtain ⟨c1, e1, g1⟩ := C102_center_of_mass_of_polygons arcs s tiny eps coords 5 _ (Or.inr rfl) hv1 hA1
  obtain ⟨c2, e2, g2⟩ := C102_center_of_mass_of_polygons arcs s tiny eps coords 5 _ (Or.inr rfl) hv2 hA2
  have hcut : ∀ E : Int × Int → K, E (b, a) = -E (a, b) →
      ((cycPairs (a :: l1 ++ b :: l2)).map E).sum =
        ((cycPairs (a :: l1 ++ [b])).map E).sum + ((cycPairs (b :: l2 ++ [a])).map E).sum := by
    intro E hE
    rw [cycPairs_cut a b l1 l2, cycPairs_snoc a b l1, cycPairs_snoc b a l2]
    simp only [List.map_append, List.sum_append, List.map_cons, List.map_nil, List.sum_cons, List.sum_nil, hE]
    ring
  refine ⟨c, c1, c2, e, e1, e2, fun o => ⟨?_, fun k hk => ?_⟩⟩
  · exact hcut _ (by simp only [tri2]; ring)
  · rw [g.2 o k hk, g1.2 o k hk, g2.2 o k hk]
    exact hcut _ (by simp only [tri2]; ring)

end

end MC
