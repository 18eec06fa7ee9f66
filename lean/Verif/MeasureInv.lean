import Verif.MeasureMain
import Verif.CellModelProps

/-!
# C98: inversion of the orientation
-/

namespace MC

section
variable {K : Type} [Field K]

theorem branch_perm (coords : List (List K)) (nodes nodes' : List Int) (n : Nat) (hl : nodes'.length = nodes.length)
    (hq : ∀ Q : Int → Prop, (∀ c ∈ nodes'.take n, Q c) ↔ (∀ c ∈ nodes.take n, Q c)) (g : List (Nat → K) → K) (c : K)
    (hg : ∀ P : Int → (Nat → K), g ((nodes'.take n).map P) = c * g ((nodes.take n).map P)) :
    (do
      let ps ← nodePts coords nodes' n
      .ok (g ps) : M K) = ((do
      let ps ← nodePts coords nodes n
      .ok (g ps) : M K)).map (c * ·) := by
  rw [nodePts_char, nodePts_char, hl]
  have := hq fun c => 0 ≤ c ∧ c < coords.length
  by_cases h : n ≤ nodes.length ∧ ∀ c ∈ nodes.take n, 0 ≤ c ∧ c < coords.length
  · rw [if_pos h, if_pos ⟨h.1, this.mpr h.2⟩]
    simp only [Except.map, ok_bind, hg]
  · rw [if_neg h, if_neg fun h' => h ⟨h'.1, this.mp h'.2⟩]
    rfl

theorem inv_seg2 (nodes nodes' : List Int) (h : invertCell 1 nodes = .ok nodes') :
    ∃ a0 a1, nodes = [a0, a1] ∧ nodes' = [a1, a0] := by
  have hn : nodes.length = 2 := by
    by_contra hc
    simp [invertCell, checkedInv, hc, throwX] at h
  rcases nodes with _ | ⟨a0, _ | ⟨a1, _ | ⟨z, nodes⟩⟩⟩ <;>
    first
    | (exfalso; simp at hn; done)
    | skip
  · refine ⟨a0, a1, rfl, ?_⟩
    simp [invertCell, checkedInv, revRange, swapNodes, rd, wr, ok_bind] at h
    exact h.symm

theorem inv_tria (nodes nodes' : List Int) (h : invertCell 3 nodes = .ok nodes') :
    ∃ a0 a1 a2, nodes = [a0, a1, a2] ∧ nodes' = [a0, a2, a1] := by
  have hn : nodes.length = 3 := by
    by_contra hc
    simp [invertCell, checkedInv, hc, throwX] at h
  rcases nodes with _ | ⟨a0, _ | ⟨a1, _ | ⟨a2, _ | ⟨z, nodes⟩⟩⟩⟩ <;>
    first
    | (exfalso; simp at hn; done)
    | skip
  · refine ⟨a0, a1, a2, rfl, ?_⟩
    simp [invertCell, checkedInv, revRange, swapNodes, rd, wr, ok_bind] at h
    exact h.symm

theorem inv_quad (nodes nodes' : List Int) (h : invertCell 4 nodes = .ok nodes') :
    ∃ a0 a1 a2 a3, nodes = [a0, a1, a2, a3] ∧ nodes' = [a0, a3, a2, a1] := by
  have hn : nodes.length = 4 := by
    by_contra hc
    simp [invertCell, checkedInv, hc, throwX] at h
  rcases nodes with _ | ⟨a0, _ | ⟨a1, _ | ⟨a2, _ | ⟨a3, _ | ⟨z, nodes⟩⟩⟩⟩⟩ <;>
    first
    | (exfalso; simp at hn; done)
    | skip
  · refine ⟨a0, a1, a2, a3, rfl, ?_⟩
    simp [invertCell, checkedInv, revRange, swapNodes, rd, wr, ok_bind] at h
    exact h.symm

theorem inv_tria6 (nodes nodes' : List Int) (h : invertCell 6 nodes = .ok nodes') :
    ∃ a0 a1 a2 a3 a4 a5, nodes = [a0, a1, a2, a3, a4, a5] ∧ nodes' = [a0, a2, a1, a5, a4, a3] := by
  have hn : nodes.length = 6 := by
    by_contra hc
    simp [invertCell, checkedInv, hc, throwX] at h
  rcases nodes with _ | ⟨a0, _ | ⟨a1, _ | ⟨a2, _ | ⟨a3, _ | ⟨a4, _ | ⟨a5, _ | ⟨z, nodes⟩⟩⟩⟩⟩⟩⟩ <;>
    first
    | (exfalso; simp at hn; done)
    | skip
  · refine ⟨a0, a1, a2, a3, a4, a5, rfl, ?_⟩
    simp [invertCell, checkedInv, revRange, swapNodes, rd, wr, ok_bind] at h
    exact h.symm

theorem inv_quad8 (nodes nodes' : List Int) (h : invertCell 8 nodes = .ok nodes') :
    ∃ a0 a1 a2 a3 a4 a5 a6 a7, nodes = [a0, a1, a2, a3, a4, a5, a6, a7] ∧ nodes' = [a0, a3, a2, a1, a7, a6, a5, a4] := by
  have hn : nodes.length = 8 := by
    by_contra hc
    simp [invertCell, checkedInv, hc, throwX] at h
  rcases nodes with _ | ⟨a0, _ | ⟨a1, _ | ⟨a2, _ | ⟨a3, _ | ⟨a4, _ | ⟨a5, _ | ⟨a6, _ | ⟨a7, _ | ⟨z, nodes⟩⟩⟩⟩⟩⟩⟩⟩⟩ <;>
    first
    | (exfalso; simp at hn; done)
    | skip
  · refine ⟨a0, a1, a2, a3, a4, a5, a6, a7, rfl, ?_⟩
    simp [invertCell, checkedInv, revRange, swapNodes, rd, wr, ok_bind] at h
    exact h.symm

theorem inv_tetra (nodes nodes' : List Int) (h : invertCell 14 nodes = .ok nodes') :
    ∃ a0 a1 a2 a3, nodes = [a0, a1, a2, a3] ∧ nodes' = [a0, a2, a1, a3] := by
  have hn : nodes.length = 4 := by
    by_contra hc
    simp [invertCell, checkedInv, hc, throwX] at h
  rcases nodes with _ | ⟨a0, _ | ⟨a1, _ | ⟨a2, _ | ⟨a3, _ | ⟨z, nodes⟩⟩⟩⟩⟩ <;>
    first
    | (exfalso; simp at hn; done)
    | skip
  · refine ⟨a0, a1, a2, a3, rfl, ?_⟩
    simp [invertCell, checkedInv, revRange, swapNodes, rd, wr, ok_bind] at h
    exact h.symm

theorem inv_pyra (nodes nodes' : List Int) (h : invertCell 15 nodes = .ok nodes') :
    ∃ a0 a1 a2 a3 a4, nodes = [a0, a1, a2, a3, a4] ∧ nodes' = [a0, a3, a2, a1, a4] := by
  have hn : nodes.length = 5 := by
    by_contra hc
    simp [invertCell, checkedInv, hc, throwX] at h
  rcases nodes with _ | ⟨a0, _ | ⟨a1, _ | ⟨a2, _ | ⟨a3, _ | ⟨a4, _ | ⟨z, nodes⟩⟩⟩⟩⟩⟩ <;>
    first
    | (exfalso; simp at hn; done)
    | skip
  · refine ⟨a0, a1, a2, a3, a4, rfl, ?_⟩
    simp [invertCell, checkedInv, revRange, swapNodes, rd, wr, ok_bind] at h
    exact h.symm

theorem inv_penta (nodes nodes' : List Int) (h : invertCell 16 nodes = .ok nodes') :
    ∃ a0 a1 a2 a3 a4 a5, nodes = [a0, a1, a2, a3, a4, a5] ∧ nodes' = [a0, a2, a1, a3, a5, a4] := by
  have hn : nodes.length = 6 := by
    by_contra hc
    simp [invertCell, checkedInv, hc, throwX] at h
  rcases nodes with _ | ⟨a0, _ | ⟨a1, _ | ⟨a2, _ | ⟨a3, _ | ⟨a4, _ | ⟨a5, _ | ⟨z, nodes⟩⟩⟩⟩⟩⟩⟩ <;>
    first
    | (exfalso; simp at hn; done)
    | skip
  · refine ⟨a0, a1, a2, a3, a4, a5, rfl, ?_⟩
    simp [invertCell, checkedInv, revRange, swapNodes, rd, wr, ok_bind] at h
    exact h.symm

theorem inv_hexa (nodes nodes' : List Int) (h : invertCell 18 nodes = .ok nodes') :
    ∃ a0 a1 a2 a3 a4 a5 a6 a7, nodes = [a0, a1, a2, a3, a4, a5, a6, a7] ∧ nodes' = [a0, a3, a2, a1, a4, a7, a6, a5] := by
  have hn : nodes.length = 8 := by
    by_contra hc
    simp [invertCell, checkedInv, hc, throwX] at h
  rcases nodes with _ | ⟨a0, _ | ⟨a1, _ | ⟨a2, _ | ⟨a3, _ | ⟨a4, _ | ⟨a5, _ | ⟨a6, _ | ⟨a7, _ | ⟨z, nodes⟩⟩⟩⟩⟩⟩⟩⟩⟩ <;>
    first
    | (exfalso; simp at hn; done)
    | skip
  · refine ⟨a0, a1, a2, a3, a4, a5, a6, a7, rfl, ?_⟩
    simp [invertCell, checkedInv, revRange, swapNodes, rd, wr, ok_bind] at h
    exact h.symm

theorem inv_tetra10 (nodes nodes' : List Int) (h : invertCell 20 nodes = .ok nodes') :
    ∃ a0 a1 a2 a3 a4 a5 a6 a7 a8 a9, nodes = [a0, a1, a2, a3, a4, a5, a6, a7, a8, a9] ∧ nodes' = [a0, a2, a1, a3, a6, a5, a4, a7, a9, a8] := by
  have hn : nodes.length = 10 := by
    by_contra hc
    simp [invertCell, checkedInv, hc, throwX] at h
  rcases nodes with _ | ⟨a0, _ | ⟨a1, _ | ⟨a2, _ | ⟨a3, _ | ⟨a4, _ | ⟨a5, _ | ⟨a6, _ | ⟨a7, _ | ⟨a8, _ | ⟨a9, _ | ⟨z, nodes⟩⟩⟩⟩⟩⟩⟩⟩⟩⟩⟩ <;>
    first
    | (exfalso; simp at hn; done)
    | skip
  · refine ⟨a0, a1, a2, a3, a4, a5, a6, a7, a8, a9, rfl, ?_⟩
    simp [invertCell, checkedInv, revRange, swapNodes, rd, wr, ok_bind] at h
    exact h.symm

theorem inv_pyra13 (nodes nodes' : List Int) (h : invertCell 23 nodes = .ok nodes') :
    ∃ a0 a1 a2 a3 a4 a5 a6 a7 a8 a9 a10 a11 a12, nodes = [a0, a1, a2, a3, a4, a5, a6, a7, a8, a9, a10, a11, a12] ∧ nodes' = [a0, a3, a2, a1, a4, a8, a7, a6, a5, a9, a12, a11, a10] := by
  have hn : nodes.length = 13 := by
    by_contra hc
    simp [invertCell, checkedInv, hc, throwX] at h
  rcases nodes with _ | ⟨a0, _ | ⟨a1, _ | ⟨a2, _ | ⟨a3, _ | ⟨a4, _ | ⟨a5, _ | ⟨a6, _ | ⟨a7, _ | ⟨a8, _ | ⟨a9, _ | ⟨a10, _ | ⟨a11, _ | ⟨a12, _ | ⟨z, nodes⟩⟩⟩⟩⟩⟩⟩⟩⟩⟩⟩⟩⟩⟩ <;>
    first
    | (exfalso; simp at hn; done)
    | skip
  · refine ⟨a0, a1, a2, a3, a4, a5, a6, a7, a8, a9, a10, a11, a12, rfl, ?_⟩
    simp [invertCell, checkedInv, revRange, swapNodes, rd, wr, ok_bind] at h
    exact h.symm

theorem inv_penta15 (nodes nodes' : List Int) (h : invertCell 25 nodes = .ok nodes') :
    ∃ a0 a1 a2 a3 a4 a5 a6 a7 a8 a9 a10 a11 a12 a13 a14, nodes = [a0, a1, a2, a3, a4, a5, a6, a7, a8, a9, a10, a11, a12, a13, a14] ∧ nodes' = [a0, a2, a1, a3, a5, a4, a8, a7, a6, a11, a10, a9, a12, a14, a13] := by
  have hn : nodes.length = 15 := by
    by_contra hc
    simp [invertCell, checkedInv, hc, throwX] at h
  rcases nodes with _ | ⟨a0, _ | ⟨a1, _ | ⟨a2, _ | ⟨a3, _ | ⟨a4, _ | ⟨a5, _ | ⟨a6, _ | ⟨a7, _ | ⟨a8, _ | ⟨a9, _ | ⟨a10, _ | ⟨a11, _ | ⟨a12, _ | ⟨a13, _ | ⟨a14, _ | ⟨z, nodes⟩⟩⟩⟩⟩⟩⟩⟩⟩⟩⟩⟩⟩⟩⟩⟩ <;>
    first
    | (exfalso; simp at hn; done)
    | skip
  · refine ⟨a0, a1, a2, a3, a4, a5, a6, a7, a8, a9, a10, a11, a12, a13, a14, rfl, ?_⟩
    simp [invertCell, checkedInv, revRange, swapNodes, rd, wr, ok_bind] at h
    exact h.symm

theorem inv_hexa20 (nodes nodes' : List Int) (h : invertCell 30 nodes = .ok nodes') :
    ∃ a0 a1 a2 a3 a4 a5 a6 a7 a8 a9 a10 a11 a12 a13 a14 a15 a16 a17 a18 a19, nodes = [a0, a1, a2, a3, a4, a5, a6, a7, a8, a9, a10, a11, a12, a13, a14, a15, a16, a17, a18, a19] ∧ nodes' = [a0, a3, a2, a1, a4, a7, a6, a5, a11, a10, a9, a8, a15, a14, a13, a12, a16, a19, a18, a17] := by
  have hn : nodes.length = 20 := by
    by_contra hc
    simp [invertCell, checkedInv, hc, throwX] at h
  rcases nodes with _ | ⟨a0, _ | ⟨a1, _ | ⟨a2, _ | ⟨a3, _ | ⟨a4, _ | ⟨a5, _ | ⟨a6, _ | ⟨a7, _ | ⟨a8, _ | ⟨a9, _ | ⟨a10, _ | ⟨a11, _ | ⟨a12, _ | ⟨a13, _ | ⟨a14, _ | ⟨a15, _ | ⟨a16, _ | ⟨a17, _ | ⟨a18, _ | ⟨a19, _ | ⟨z, nodes⟩⟩⟩⟩⟩⟩⟩⟩⟩⟩⟩⟩⟩⟩⟩⟩⟩⟩⟩⟩⟩ <;>
    first
    | (exfalso; simp at hn; done)
    | skip
  · refine ⟨a0, a1, a2, a3, a4, a5, a6, a7, a8, a9, a10, a11, a12, a13, a14, a15, a16, a17, a18, a19, rfl, ?_⟩
    simp [invertCell, checkedInv, revRange, swapNodes, rd, wr, ok_bind] at h
    exact h.symm

theorem areaPolyg_cyc (s : K → K) (sd : Nat) (ps : List (Nat → K)) :
    areaPolyg s sd ps = ((cycPairs ps).map fun x => areaTria s sd x.1 x.2 (baryDyn ps)).sum := by
  unfold areaPolyg
  have h := range_cyc (fun a b => areaTria s sd a b (baryDyn ps)) (fun _ => 0) ps
  unfold ptRk
  rw [h]

theorem baryDyn_perm {ps qs : List (Nat → K)} (h : ps.Perm qs) : baryDyn ps = baryDyn qs := by
  funext i
  unfold baryDyn
  rw [sum_map_perm (fun p => p i) h, h.length_eq]

theorem triaNorm2_swap (a b c : Nat → K) : triaNorm2 a b c = triaNorm2 b a c := by
  unfold triaNorm2; ring

theorem triaNorm2_swap' (a b c : Nat → K) : triaNorm2 a b c = triaNorm2 a c b := by
  unfold triaNorm2; ring

theorem areaPolyg_inv3 (s : K → K) (a : Nat → K) (l : List (Nat → K)) :
    areaPolyg s 3 (a :: l.reverse) = areaPolyg s 3 (a :: l) := by
  rw [areaPolyg_cyc, areaPolyg_cyc, cycPairs_inv, baryDyn_perm (List.Perm.cons a (List.reverse_perm l))]
  rw [sum_map_perm _ (List.reverse_perm _), List.map_map]
  congr 2
  funext x
  simp only [Function.comp_apply, areaTria, Prod.fst_swap, Prod.snd_swap, show ¬ (3 = 2) by decide, if_false]
  rw [triaNorm2_swap]

theorem inv_polyg (nodes nodes' : List Int) (h : invertCell 5 nodes = .ok nodes') :
    ∃ a l, nodes = a :: l ∧ nodes' = a :: l.reverse := by
  cases nodes with
  | nil => simp [invertCell, revRange, undef] at h
  | cons a l =>
    refine ⟨a, l, rfl, ?_⟩
    simp [invertCell, revRange] at h
    exact h.symm

theorem map_one_mul_ex (x : M K) : x.map ((1 : K) * ·) = x := by
  cases x <;> simp [Except.map]

theorem map_neg_ex (x : M K) : x.map ((-1 : K) * ·) = x.map (- ·) := by
  cases x <;> simp [Except.map]

macro "inv_branch" n:term ", " g:term ", " c:term ", " e:term : tactic => `(tactic| (
  refine branch_perm _ _ _ $n (by simp) (fun Q => ?_) $g $c (fun P => ?_)
  · simp only [List.take_succ_cons, List.take_zero, List.forall_mem_cons, List.not_mem_nil, false_imp_iff, implies_true,
      and_true]
    exact ⟨fun h => by simp [h], fun h => by simp [h]⟩
  · simp only [List.take_succ_cons, List.take_zero, List.map_cons, List.map_nil, ptRk, List.getD_cons_zero,
      List.getD_cons_succ]
    exact $e))

theorem lgth_inv1 (s : K → K) (a b : Nat → K) : lgthSeg2 s 1 b a = -1 * lgthSeg2 s 1 a b := by
  simp [lgthSeg2]

theorem areaTria_inv2 (s : K → K) (a b c : Nat → K) : areaTria s 2 a c b = -1 * areaTria s 2 a b c := by
  simp only [areaTria, if_true, areaTria2]
  ring

theorem areaQuad_inv2 (s : K → K) (a b c d : Nat → K) : areaQuad s 2 a d c b = -1 * areaQuad s 2 a b c d := by
  simp only [areaQuad, if_true, areaQuad2]
  ring

theorem areaTria_inv3 (s : K → K) (a b c : Nat → K) : areaTria s 3 a c b = 1 * areaTria s 3 a b c := by
  simp only [areaTria, show ¬ (3 = 2) by decide, if_false, one_mul]
  rw [triaNorm2_swap']

theorem areaQuad_inv3 (s : K → K) (a b c d : Nat → K) : areaQuad s 3 a d c b = 1 * areaQuad s 3 a b c d := by
  simp only [areaQuad, show ¬ (3 = 2) by decide, if_false, one_mul]
  rw [triaNorm2_swap' a d b, triaNorm2_swap' c b d]

variable [CharZero K]

theorem areaPolyg_inv2 (s : K → K) (a : Nat → K) (l : List (Nat → K)) :
    areaPolyg s 2 (a :: l.reverse) = -1 * areaPolyg s 2 (a :: l) := by
  rw [areaPolyg2_eq, areaPolyg2_eq, cycPairs_inv, sum_map_perm _ (List.reverse_perm _), List.map_map]
  have : ((fun x : (Nat → K) × (Nat → K) => cross2 x.1 x.2) ∘ Prod.swap) = fun x => (-1) * cross2 x.1 x.2 := by
    funext x
    simp only [Function.comp_apply, Prod.fst_swap, Prod.snd_swap, cross2]
    ring
  rw [this, sum_map_mul_list]
  ring

theorem volTetra_inv (a b c d : Nat → K) : volTetra a c b d = -1 * volTetra a b c d := by
  unfold volTetra; ring

theorem volPyra_inv (a b c d e : Nat → K) : volPyra a d c b e = -1 * volPyra a b c d e := by
  simp only [volPyra_eq, volTetra]; ring

theorem volPenta_inv (a b c d e f : Nat → K) : volPenta a c b d f e = -1 * volPenta a b c d e f := by
  simp only [volPenta_eq, volTetra]; ring

theorem volHexa_inv (a b c d e f g h : Nat → K) : volHexa a d c b e h g f = -1 * volHexa a b c d e f g h := by
  simp only [volHexa_eq, volTetra]; ring

/-- **C98.** The orientation of a cell whose dimension is that of the space is given by the sign of its measure: inverting
the cell changes the sign. -/
theorem C98_inversion_changes_the_sign (arcs : Arcs K) (s : K → K) (sd : Nat) (coords : List (List K)) (t : Int)
    (nodes nodes' : List Int)
    (ht : (sd = 1 ∧ t = 1) ∨ (sd = 2 ∧ t ∈ ([3, 4, 5] : List Int)) ∨
      (sd = 3 ∧ t ∈ ([14, 15, 16, 18, 20, 23, 25, 30] : List Int)))
    (h : invertCell t nodes = .ok nodes') :
    cellMeasure arcs s sd coords t nodes' = (cellMeasure arcs s sd coords t nodes).map (- ·) := by
  rw [← map_neg_ex]
  simp only [List.mem_cons, List.not_mem_nil, or_false] at ht
  rcases ht with ⟨rfl, rfl⟩ | ⟨rfl, rfl | rfl | rfl⟩ | ⟨rfl, rfl | rfl | rfl | rfl | rfl | rfl | rfl | rfl⟩
  · obtain ⟨_, _, rfl, rfl⟩ := inv_seg2 _ _ h
    rw [meas_seg _ _ 1 (Or.inl rfl) _ _ _ (Or.inl rfl), meas_seg _ _ 1 (Or.inl rfl) _ _ _ (Or.inl rfl)]
    inv_branch 2, (fun ps => lgthSeg2 s 1 (ptRk ps 0) (ptRk ps 1)), (-1), (lgth_inv1 _ _ _)
  · obtain ⟨_, _, _, rfl, rfl⟩ := inv_tria _ _ h
    rw [meas_tria _ _ 2 (Or.inl rfl), meas_tria _ _ 2 (Or.inl rfl)]
    inv_branch 3, (fun ps => areaTria s 2 (ptRk ps 0) (ptRk ps 1) (ptRk ps 2)), (-1), (areaTria_inv2 _ _ _ _)
  · obtain ⟨_, _, _, _, rfl, rfl⟩ := inv_quad _ _ h
    rw [meas_quad _ _ 2 (Or.inl rfl), meas_quad _ _ 2 (Or.inl rfl)]
    inv_branch 4, (fun ps => areaQuad s 2 (ptRk ps 0) (ptRk ps 1) (ptRk ps 2) (ptRk ps 3)), (-1), (areaQuad_inv2 _ _ _ _ _)
  · obtain ⟨a, l, rfl, rfl⟩ := inv_polyg _ _ h
    rw [meas_polyg _ _ 2 (Or.inl rfl), meas_polyg _ _ 2 (Or.inl rfl)]
    have hl : (a :: l.reverse).length = (a :: l).length := by simp
    rw [hl]
    refine branch_perm _ _ _ _ (by simp) (fun Q => ?_) (fun ps => areaPolyg s 2 ps) (-1) (fun P => ?_)
    · rw [← hl, List.take_length, hl, List.take_length]
      simp
    · rw [← hl, List.take_length, hl, List.take_length, List.map_cons, List.map_cons, List.map_reverse, areaPolyg_inv2]
  · obtain ⟨_, _, _, _, rfl, rfl⟩ := inv_tetra _ _ h
    rw [meas_tetra _ _ _ _ _ (by decide), meas_tetra _ _ _ _ _ (by decide)]
    inv_branch 4, (fun ps => volTetra (ptRk ps 0) (ptRk ps 1) (ptRk ps 2) (ptRk ps 3)), (-1), (volTetra_inv _ _ _ _)
  · obtain ⟨_, _, _, _, _, rfl, rfl⟩ := inv_pyra _ _ h
    rw [meas_pyra _ _ _ _ _ (by decide), meas_pyra _ _ _ _ _ (by decide)]
    inv_branch 5, (fun ps => volPyra (ptRk ps 0) (ptRk ps 1) (ptRk ps 2) (ptRk ps 3) (ptRk ps 4)), (-1), (volPyra_inv _ _ _ _ _)
  · obtain ⟨_, _, _, _, _, _, rfl, rfl⟩ := inv_penta _ _ h
    rw [meas_penta _ _ _ _ _ (by decide), meas_penta _ _ _ _ _ (by decide)]
    inv_branch 6, (fun ps => volPenta (ptRk ps 0) (ptRk ps 1) (ptRk ps 2) (ptRk ps 3) (ptRk ps 4) (ptRk ps 5)), (-1), (volPenta_inv _ _ _ _ _ _)
  · obtain ⟨_, _, _, _, _, _, _, _, rfl, rfl⟩ := inv_hexa _ _ h
    rw [meas_hexa _ _ _ _ _ (by decide), meas_hexa _ _ _ _ _ (by decide)]
    inv_branch 8, (fun ps => volHexa (ptRk ps 0) (ptRk ps 1) (ptRk ps 2) (ptRk ps 3) (ptRk ps 4) (ptRk ps 5) (ptRk ps 6)
      (ptRk ps 7)), (-1), (volHexa_inv _ _ _ _ _ _ _ _)
  · obtain ⟨_, _, _, _, _, _, _, _, _, _, rfl, rfl⟩ := inv_tetra10 _ _ h
    rw [meas_tetra _ _ _ _ _ (by decide), meas_tetra _ _ _ _ _ (by decide)]
    inv_branch 4, (fun ps => volTetra (ptRk ps 0) (ptRk ps 1) (ptRk ps 2) (ptRk ps 3)), (-1), (volTetra_inv _ _ _ _)
  · obtain ⟨_, _, _, _, _, _, _, _, _, _, _, _, _, rfl, rfl⟩ := inv_pyra13 _ _ h
    rw [meas_pyra _ _ _ _ _ (by decide), meas_pyra _ _ _ _ _ (by decide)]
    inv_branch 5, (fun ps => volPyra (ptRk ps 0) (ptRk ps 1) (ptRk ps 2) (ptRk ps 3) (ptRk ps 4)), (-1), (volPyra_inv _ _ _ _ _)
  · obtain ⟨_, _, _, _, _, _, _, _, _, _, _, _, _, _, _, rfl, rfl⟩ := inv_penta15 _ _ h
    rw [meas_penta _ _ _ _ _ (by decide), meas_penta _ _ _ _ _ (by decide)]
    inv_branch 6, (fun ps => volPenta (ptRk ps 0) (ptRk ps 1) (ptRk ps 2) (ptRk ps 3) (ptRk ps 4) (ptRk ps 5)), (-1), (volPenta_inv _ _ _ _ _ _)
  · obtain ⟨_, _, _, _, _, _, _, _, _, _, _, _, _, _, _, _, _, _, _, _, rfl, rfl⟩ := inv_hexa20 _ _ h
    rw [meas_hexa _ _ _ _ _ (by decide), meas_hexa _ _ _ _ _ (by decide)]
    inv_branch 8, (fun ps => volHexa (ptRk ps 0) (ptRk ps 1) (ptRk ps 2) (ptRk ps 3) (ptRk ps 4) (ptRk ps 5) (ptRk ps 6)
      (ptRk ps 7)), (-1), (volHexa_inv _ _ _ _ _ _ _ _)

omit [CharZero K] in
/-- **C98.** The measure of a triangle, quadrangle or polygon of the space does not depend on its orientation. -/
theorem C98_inversion_keeps_areas_in_space (arcs : Arcs K) (s : K → K) (coords : List (List K)) (t : Int)
    (nodes nodes' : List Int) (ht : t = 3 ∨ t = 4 ∨ t = 5) (h : invertCell t nodes = .ok nodes') :
    cellMeasure arcs s 3 coords t nodes' = cellMeasure arcs s 3 coords t nodes := by
  rw [← map_one_mul_ex (cellMeasure arcs s 3 coords t nodes)]
  rcases ht with rfl | rfl | rfl
  · obtain ⟨_, _, _, rfl, rfl⟩ := inv_tria _ _ h
    rw [meas_tria _ _ 3 (Or.inr rfl), meas_tria _ _ 3 (Or.inr rfl)]
    inv_branch 3, (fun ps => areaTria s 3 (ptRk ps 0) (ptRk ps 1) (ptRk ps 2)), 1, (areaTria_inv3 _ _ _ _)
  · obtain ⟨_, _, _, _, rfl, rfl⟩ := inv_quad _ _ h
    rw [meas_quad _ _ 3 (Or.inr rfl), meas_quad _ _ 3 (Or.inr rfl)]
    inv_branch 4, (fun ps => areaQuad s 3 (ptRk ps 0) (ptRk ps 1) (ptRk ps 2) (ptRk ps 3)), 1, (areaQuad_inv3 _ _ _ _ _)
  · obtain ⟨a, l, rfl, rfl⟩ := inv_polyg _ _ h
    rw [meas_polyg _ _ 3 (Or.inr rfl), meas_polyg _ _ 3 (Or.inr rfl)]
    have hl : (a :: l.reverse).length = (a :: l).length := by simp
    rw [hl]
    refine branch_perm _ _ _ _ (by simp) (fun Q => ?_) (fun ps => areaPolyg s 3 ps) 1 (fun P => ?_)
    · rw [← hl, List.take_length, hl, List.take_length]
      simp
    · rw [← hl, List.take_length, hl, List.take_length, List.map_cons, List.map_cons, List.map_reverse, areaPolyg_inv3,
        one_mul]

end
end MC
