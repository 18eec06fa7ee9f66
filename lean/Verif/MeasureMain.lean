import Verif.MeasureThm

/-!
# C98: lengths, areas and volumes under affine maps and similarities
-/

namespace MC

section
variable {K : Type} [Field K]

/-! ## The branches of the choice on the type -/

theorem meas_tetra (arcs : Arcs K) (s : K → K) (coords : List (List K)) (t : Int) (nodes : List Int) (h : t = 14 ∨ t = 20) :
    cellMeasure arcs s 3 coords t nodes = (do
      let ps ← nodePts coords nodes 4
      .ok (volTetra (ptRk ps 0) (ptRk ps 1) (ptRk ps 2) (ptRk ps 3))) := by
  rcases h with rfl | rfl <;> simp [cellMeasure]

theorem meas_pyra (arcs : Arcs K) (s : K → K) (coords : List (List K)) (t : Int) (nodes : List Int) (h : t = 15 ∨ t = 23) :
    cellMeasure arcs s 3 coords t nodes = (do
      let ps ← nodePts coords nodes 5
      .ok (volPyra (ptRk ps 0) (ptRk ps 1) (ptRk ps 2) (ptRk ps 3) (ptRk ps 4))) := by
  rcases h with rfl | rfl <;> simp [cellMeasure]

theorem meas_penta (arcs : Arcs K) (s : K → K) (coords : List (List K)) (t : Int) (nodes : List Int)
    (h : t = 16 ∨ t = 25 ∨ t = 28) :
    cellMeasure arcs s 3 coords t nodes = (do
      let ps ← nodePts coords nodes 6
      .ok (volPenta (ptRk ps 0) (ptRk ps 1) (ptRk ps 2) (ptRk ps 3) (ptRk ps 4) (ptRk ps 5))) := by
  rcases h with rfl | rfl | rfl <;> simp [cellMeasure]

theorem meas_hexa (arcs : Arcs K) (s : K → K) (coords : List (List K)) (t : Int) (nodes : List Int)
    (h : t = 18 ∨ t = 30 ∨ t = 27) :
    cellMeasure arcs s 3 coords t nodes = (do
      let ps ← nodePts coords nodes 8
      .ok (volHexa (ptRk ps 0) (ptRk ps 1) (ptRk ps 2) (ptRk ps 3) (ptRk ps 4) (ptRk ps 5) (ptRk ps 6) (ptRk ps 7))) := by
  rcases h with rfl | rfl | rfl <;> simp [cellMeasure]

theorem meas_hexgp (arcs : Arcs K) (s : K → K) (coords : List (List K)) (nodes : List Int) :
    cellMeasure arcs s 3 coords 22 nodes = (do
      let c ← hexgp12Conn nodes
      volPolyh coords c) := by
  simp [cellMeasure]

theorem meas_polyh (arcs : Arcs K) (s : K → K) (coords : List (List K)) (nodes : List Int) :
    cellMeasure arcs s 3 coords 31 nodes = volPolyh coords nodes := by
  simp [cellMeasure]

theorem meas_tria (arcs : Arcs K) (s : K → K) (sd : Nat) (hsd : sd = 2 ∨ sd = 3) (coords : List (List K)) (nodes : List Int) :
    cellMeasure arcs s sd coords 3 nodes = (do
      let ps ← nodePts coords nodes 3
      .ok (areaTria s sd (ptRk ps 0) (ptRk ps 1) (ptRk ps 2))) := by
  rcases hsd with rfl | rfl <;> simp [cellMeasure]

theorem meas_quad (arcs : Arcs K) (s : K → K) (sd : Nat) (hsd : sd = 2 ∨ sd = 3) (coords : List (List K)) (nodes : List Int) :
    cellMeasure arcs s sd coords 4 nodes = (do
      let ps ← nodePts coords nodes 4
      .ok (areaQuad s sd (ptRk ps 0) (ptRk ps 1) (ptRk ps 2) (ptRk ps 3))) := by
  rcases hsd with rfl | rfl <;> simp [cellMeasure]

theorem meas_polyg (arcs : Arcs K) (s : K → K) (sd : Nat) (hsd : sd = 2 ∨ sd = 3) (coords : List (List K)) (nodes : List Int) :
    cellMeasure arcs s sd coords 5 nodes = (do
      let ps ← nodePts coords nodes nodes.length
      .ok (areaPolyg s sd ps)) := by
  rcases hsd with rfl | rfl <;> simp [cellMeasure]

/-- The number of nodes of a quadratic cell of dimension 2 -/
def qpolygNodes (t : Int) (nodes : List Int) : Nat := if t = 6 ∨ t = 7 then 6 else if t = 8 ∨ t = 9 then 8 else nodes.length

theorem meas_qpolyg (arcs : Arcs K) (s : K → K) (sd : Nat) (hsd : sd = 2 ∨ sd = 3) (coords : List (List K)) (t : Int)
    (nodes : List Int) (ht : t = 6 ∨ t = 7 ∨ t = 8 ∨ t = 9 ∨ t = 32) :
    cellMeasure arcs s sd coords t nodes = (do
      let ps ← nodePts coords nodes (qpolygNodes t nodes)
      areaQPolyg arcs s sd ps) := by
  rcases hsd with rfl | rfl <;> rcases ht with rfl | rfl | rfl | rfl | rfl <;> simp [cellMeasure, qpolygNodes]

theorem meas_seg (arcs : Arcs K) (s : K → K) (sd : Nat) (hsd : sd = 1 ∨ sd = 2 ∨ sd = 3) (coords : List (List K)) (t : Int)
    (nodes : List Int) (ht : t = 1 ∨ t = 10) :
    cellMeasure arcs s sd coords t nodes = (do
      let ps ← nodePts coords nodes 2
      .ok (lgthSeg2 s sd (ptRk ps 0) (ptRk ps 1))) := by
  rcases hsd with rfl | rfl | rfl <;> rcases ht with rfl | rfl <;> simp [cellMeasure]

theorem meas_seg3 (arcs : Arcs K) (s : K → K) (sd : Nat) (hsd : sd = 1 ∨ sd = 3) (coords : List (List K))
    (nodes : List Int) :
    cellMeasure arcs s sd coords 2 nodes = (do
      let ps ← nodePts coords nodes 3
      .ok (lgthSeg2 s sd (ptRk ps 0) (ptRk ps 1))) := by
  rcases hsd with rfl | rfl <;> simp [cellMeasure]

/-! ## Affine maps -/

/-- Cells whose value is a function of the points of their first nodes, when the function is multiplied by `c`. -/
theorem branch_map (F : List K → List K) (G : (Nat → K) → (Nat → K)) (hFG : ∀ p, tupPt (F p) = G (tupPt p))
    (coords : List (List K)) (nodes : List Int) (n : Nat) (g : List (Nat → K) → K) (c : K)
    (hg : ∀ ps, ps.length = n → g (ps.map G) = c * g ps) :
    (do
      let ps ← nodePts (coords.map F) nodes n
      .ok (g ps) : M K) = ((do
      let ps ← nodePts coords nodes n
      .ok (g ps) : M K)).map (c * ·) := by
  rw [nodePts_map F G hFG]
  cases h : nodePts coords nodes n with
  | error e => rfl
  | ok ps =>
    simp only [Except.map, ok_bind]
    rw [hg ps (nodePts_length h)]

theorem hexgp12Conn_ok (nodes : List Int) :
    hexgp12Conn nodes = if 12 ≤ nodes.length then
      .ok (joinFaces (cm_hexgp12.sons.map fun s => s.2.map fun (k : Nat) => nodes.getD k 0)) else undef := by
  unfold hexgp12Conn
  rw [mapM_all (fun r : Int => if r = -1 then .ok (-1) else rd nodes r) (fun r => if r = -1 then -1 else nodes.getD r.toNat 0)
    (fun r => r = -1 ∨ r.toNat < nodes.length)]
  · by_cases h : 12 ≤ nodes.length
    · rw [if_pos h, if_pos]
      · rfl
      · intro r hr
        have : ∀ r ∈ hexgp12Faces, r = -1 ∨ r.toNat < 12 := by decide
        rcases this r hr with h | h
        · exact Or.inl h
        · exact Or.inr (by omega)
    · rw [if_neg h, if_neg]
      intro h'
      have := h' 11 (by decide)
      rcases this with h1 | h1
      · exact absurd h1 (by decide)
      · have : (11 : Int).toNat = 11 := rfl
        omega
  · intro r hr
    have : ∀ r ∈ hexgp12Faces, r = -1 ∨ 0 ≤ r := by decide
    by_cases h : r = -1
    · simp [h]
    · have h0 : 0 ≤ r := (this r hr).resolve_left h
      obtain ⟨m, rfl⟩ := Int.eq_ofNat_of_zero_le h0
      by_cases hm : m < nodes.length
      · simp [h, rd, hm, List.getD_eq_getElem?_getD]
      · simp [h, rd, hm, undef]

theorem hexgp12_closed : ClosedFaces (cm_hexgp12.sons.map fun s => s.2) := by
  unfold ClosedFaces
  decide

theorem hexgp12_good (nodes : List Int) (h : 12 ≤ nodes.length) (hn : ∀ n ∈ nodes, n ≠ -1) :
    GoodFaces (cm_hexgp12.sons.map fun s => s.2.map fun (k : Nat) => nodes.getD k 0) := by
  intro f hf
  simp only [List.mem_map] at hf
  obtain ⟨s, hs, rfl⟩ := hf
  have : ∀ s ∈ cm_hexgp12.sons, s.2 ≠ [] ∧ ∀ k ∈ s.2, k < 12 := by decide
  refine ⟨by simpa using (this s hs).1, ?_⟩
  intro n hm
  simp only [List.mem_map] at hm
  obtain ⟨k, hk, rfl⟩ := hm
  have hk := (this s hs).2 k hk
  rw [getD_of_lt _ (by omega)]
  exact hn _ (List.getElem_mem _)

variable [CharZero K]

theorem polyh_aff (A : Nat → Nat → K) (b : Nat → K) (coords : List (List K)) (fs : List (List Int)) (h : GoodFaces fs)
    (hne : fs ≠ []) (hc : ClosedFaces fs) :
    volPolyh (coords.map (affL 3 A b)) (joinFaces fs) = (volPolyh coords (joinFaces fs)).map (det3 A * ·) := by
  rw [volPolyh_join _ fs h hne, volPolyh_join _ fs h hne, List.length_map]
  split
  · rename_i hv
    simp only [Except.map]
    rw [← polyVol_aff A b _ _ (hc.map (ptNode coords))]
    · rw [List.map_map]
      congr 2
      refine List.map_congr_left fun f hf => ?_
      simp only [Function.comp_apply, List.map_map]
      refine List.map_congr_left fun n hn => ?_
      have := hv f hf n hn
      simp only [ptNode, Function.comp_apply]
      rw [← tupPt_affL]
      congr 1
      rw [getD_of_lt _ (by rw [List.length_map]; omega), getD_of_lt _ (by omega), List.getElem_map]
    · intro f hf
      simp only [List.mem_map] at hf
      obtain ⟨g, hg, rfl⟩ := hf
      simpa using (h g hg).1
  · rfl

/-- **C98.** When the nodes of a mesh of the space are moved by an affine map `p ↦ A p + b`, the volume of every cell is
multiplied by the determinant of `A`: translations and rotations keep it, symmetries change its sign, scalings by `k`
multiply it by the cube of `k`.  For polyhedra the faces have to form a closed surface. -/
theorem C98_volumes_follow_affine_maps (arcs : Arcs K) (s : K → K) (A : Nat → Nat → K) (b : Nat → K)
    (coords : List (List K)) (t : Int) (nodes : List Int)
    (ht : t ∈ ([14, 20, 15, 23, 16, 25, 28, 18, 30, 27] : List Int) ∨ (t = 22 ∧ ∀ n ∈ nodes, n ≠ -1) ∨
      (t = 31 ∧ ∃ fs, nodes = joinFaces fs ∧ fs ≠ [] ∧ GoodFaces fs ∧ ClosedFaces fs)) :
    cellMeasure arcs s 3 (coords.map (affL 3 A b)) t nodes = (cellMeasure arcs s 3 coords t nodes).map (det3 A * ·) := by
  rcases ht with ht | ⟨rfl, hn⟩ | ⟨rfl, fs, rfl, hne, hg, hc⟩
  · have hcase : (t = 14 ∨ t = 20) ∨ (t = 15 ∨ t = 23) ∨ (t = 16 ∨ t = 25 ∨ t = 28) ∨ (t = 18 ∨ t = 30 ∨ t = 27) := by
      simp only [List.mem_cons, List.not_mem_nil, or_false] at ht
      omega
    rcases hcase with h | h | h | h
    · rw [meas_tetra _ _ _ _ _ h, meas_tetra _ _ _ _ _ h]
      refine branch_map _ (affPt 3 A b) (tupPt_affL 3 A b) coords nodes 4 _ _ fun ps hp => ?_
      rw [ptRk_map _ _ _ (by omega), ptRk_map _ _ _ (by omega), ptRk_map _ _ _ (by omega), ptRk_map _ _ _ (by omega),
        volTetra_aff]
    · rw [meas_pyra _ _ _ _ _ h, meas_pyra _ _ _ _ _ h]
      refine branch_map _ (affPt 3 A b) (tupPt_affL 3 A b) coords nodes 5
        (fun ps => volPyra (ptRk ps 0) (ptRk ps 1) (ptRk ps 2) (ptRk ps 3) (ptRk ps 4)) _ fun ps hp => ?_
      simp only [volPyra_eq]
      rw [ptRk_map _ _ _ (by omega), ptRk_map _ _ _ (by omega), ptRk_map _ _ _ (by omega), ptRk_map _ _ _ (by omega),
        ptRk_map _ _ _ (by omega), volTetra_aff, volTetra_aff]
      ring
    · rw [meas_penta _ _ _ _ _ h, meas_penta _ _ _ _ _ h]
      refine branch_map _ (affPt 3 A b) (tupPt_affL 3 A b) coords nodes 6
        (fun ps => volPenta (ptRk ps 0) (ptRk ps 1) (ptRk ps 2) (ptRk ps 3) (ptRk ps 4) (ptRk ps 5)) _ fun ps hp => ?_
      simp only [volPenta_eq]
      rw [ptRk_map _ _ _ (by omega), ptRk_map _ _ _ (by omega), ptRk_map _ _ _ (by omega), ptRk_map _ _ _ (by omega),
        ptRk_map _ _ _ (by omega), ptRk_map _ _ _ (by omega)]
      simp only [volTetra_aff]
      ring
    · rw [meas_hexa _ _ _ _ _ h, meas_hexa _ _ _ _ _ h]
      refine branch_map _ (affPt 3 A b) (tupPt_affL 3 A b) coords nodes 8
        (fun ps => volHexa (ptRk ps 0) (ptRk ps 1) (ptRk ps 2) (ptRk ps 3) (ptRk ps 4) (ptRk ps 5) (ptRk ps 6) (ptRk ps 7))
        _ fun ps hp => ?_
      simp only [volHexa_eq]
      rw [ptRk_map _ _ _ (by omega), ptRk_map _ _ _ (by omega), ptRk_map _ _ _ (by omega), ptRk_map _ _ _ (by omega),
        ptRk_map _ _ _ (by omega), ptRk_map _ _ _ (by omega), ptRk_map _ _ _ (by omega), ptRk_map _ _ _ (by omega)]
      simp only [volTetra_aff]
      ring
  · rw [meas_hexgp, meas_hexgp, hexgp12Conn_ok]
    by_cases h : 12 ≤ nodes.length
    · rw [if_pos h, ok_bind, ok_bind]
      refine polyh_aff A b coords _ (hexgp12_good nodes h hn) (by simp [cm_hexgp12]) ?_
      have := hexgp12_closed.map fun (k : Nat) => nodes.getD k 0
      rw [List.map_map] at this
      exact this
    · rw [if_neg h]
      rfl
  · rw [meas_polyh, meas_polyh]
    exact polyh_aff A b coords fs hg hne hc

/-- **C98.** When the nodes of a mesh of the plane are moved by an affine map, the area of every triangle, quadrangle and
polygon is multiplied by its determinant. -/
theorem C98_areas_follow_affine_maps (arcs : Arcs K) (s : K → K) (A : Nat → Nat → K) (b : Nat → K)
    (coords : List (List K)) (t : Int) (nodes : List Int) (ht : t = 3 ∨ t = 4 ∨ t = 5) :
    cellMeasure arcs s 2 (coords.map (affL 2 A b)) t nodes = (cellMeasure arcs s 2 coords t nodes).map (det2 A * ·) := by
  rcases ht with rfl | rfl | rfl
  · rw [meas_tria _ _ 2 (Or.inl rfl), meas_tria _ _ 2 (Or.inl rfl)]
    refine branch_map _ (affPt 2 A b) (tupPt_affL 2 A b) coords nodes 3
      (fun ps => areaTria s 2 (ptRk ps 0) (ptRk ps 1) (ptRk ps 2)) _ fun ps hp => ?_
    rw [ptRk_map _ _ _ (by omega), ptRk_map _ _ _ (by omega), ptRk_map _ _ _ (by omega)]
    simp only [areaTria, if_true, areaTria2, affPt2 _ _ _ _ (show 0 < 2 by omega), affPt2 _ _ _ _ (show 1 < 2 by omega), det2]
    ring
  · rw [meas_quad _ _ 2 (Or.inl rfl), meas_quad _ _ 2 (Or.inl rfl)]
    refine branch_map _ (affPt 2 A b) (tupPt_affL 2 A b) coords nodes 4
      (fun ps => areaQuad s 2 (ptRk ps 0) (ptRk ps 1) (ptRk ps 2) (ptRk ps 3)) _ fun ps hp => ?_
    rw [ptRk_map _ _ _ (by omega), ptRk_map _ _ _ (by omega), ptRk_map _ _ _ (by omega), ptRk_map _ _ _ (by omega)]
    simp only [areaQuad, if_true, areaQuad2, affPt2 _ _ _ _ (show 0 < 2 by omega), affPt2 _ _ _ _ (show 1 < 2 by omega), det2]
    ring
  · rw [meas_polyg _ _ 2 (Or.inl rfl), meas_polyg _ _ 2 (Or.inl rfl)]
    refine branch_map _ (affPt 2 A b) (tupPt_affL 2 A b) coords nodes nodes.length
      (fun ps => areaPolyg s 2 ps) _ fun ps hp => ?_
    rw [areaPolyg2_eq, areaPolyg2_eq, cycPairs_map, List.map_map]
    have h : ((fun x : (Nat → K) × (Nat → K) => cross2 x.1 x.2) ∘ Prod.map (affPt 2 A b) (affPt 2 A b)) = fun x =>
        det2 A * cross2 x.1 x.2 + (cross2 (affPt 2 A (fun _ => 0) x.1) b - cross2 (affPt 2 A (fun _ => 0) x.2) b) := by
      funext x
      simp only [Function.comp_apply, Prod.map_fst, Prod.map_snd, cross2, affPt2 _ _ _ _ (show 0 < 2 by omega),
        affPt2 _ _ _ _ (show 1 < 2 by omega), det2]
      ring
    rw [h, sum_cyc_diff (fun p => cross2 (affPt 2 A (fun _ => 0) p) b) (fun x => det2 A * cross2 x.1 x.2), sum_map_mul_list]
    ring

omit [CharZero K] in
/-- **C98.** When the nodes of a mesh of a line are moved by an affine map, the length of every segment is multiplied by its
coefficient. -/
theorem C98_lengths_follow_affine_maps (arcs : Arcs K) (s : K → K) (A : Nat → Nat → K) (b : Nat → K)
    (coords : List (List K)) (t : Int) (nodes : List Int) (ht : t = 1 ∨ t = 2 ∨ t = 10) :
    cellMeasure arcs s 1 (coords.map (affL 1 A b)) t nodes = (cellMeasure arcs s 1 coords t nodes).map (A 0 0 * ·) := by
  have key : ∀ n, 2 ≤ n → (do
      let ps ← nodePts (coords.map (affL 1 A b)) nodes n
      .ok (lgthSeg2 s 1 (ptRk ps 0) (ptRk ps 1)) : M K) = ((do
      let ps ← nodePts coords nodes n
      .ok (lgthSeg2 s 1 (ptRk ps 0) (ptRk ps 1)) : M K)).map (A 0 0 * ·) := by
    intro n hn
    refine branch_map _ (affPt 1 A b) (tupPt_affL 1 A b) coords nodes n
      (fun ps => lgthSeg2 s 1 (ptRk ps 0) (ptRk ps 1)) _ fun ps hp => ?_
    rw [ptRk_map _ _ _ (by omega), ptRk_map _ _ _ (by omega)]
    simp [lgthSeg2, affPt]
    ring
  rcases ht with rfl | rfl | rfl
  · rw [meas_seg _ _ 1 (Or.inl rfl) _ _ _ (Or.inl rfl), meas_seg _ _ 1 (Or.inl rfl) _ _ _ (Or.inl rfl)]
    exact key 2 (by omega)
  · rw [meas_seg3 _ _ 1 (Or.inl rfl), meas_seg3 _ _ 1 (Or.inl rfl)]
    exact key 3 (by omega)
  · rw [meas_seg _ _ 1 (Or.inl rfl) _ _ _ (Or.inr rfl), meas_seg _ _ 1 (Or.inl rfl) _ _ _ (Or.inr rfl)]
    exact key 2 (by omega)

end
end MC
