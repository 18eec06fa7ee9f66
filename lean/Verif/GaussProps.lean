import Verif.GaussChkA
import Verif.GaussChkB
import Verif.GaussChkC

/-!
# Values of the shape functions at any point

Statements on one reference cell which follow from the checks on the tables.
-/

namespace MC

theorem eval_sumE {K : Type} [Field K] (v : Nat → K) (l : List PExp) :
    (sumE l).eval v = (l.map (PExp.eval v)).sum := by
  induction l with
  | nil => simp [sumE, PExp.eval]
  | cons a l ih => simpa [sumE, PExp.eval] using ih

section
variable {K : Type} [Field K] [LinearOrder K] [IsStrictOrderedRing K]

theorem nearApex_false (p : List K) (h : nearApex p = false) : ptOf p 2 ≠ 1 := by
  intro e
  simp only [nearApex, e, sub_self, abs_zero, decide_eq_false_iff_not, not_lt] at h
  have : (0 : K) < 1 / 1000000000000 := by positivity
  exact absurd h (not_le.mpr this)

theorem RefElt.values_of_far (e : RefElt) (p : List K) (h : e.pole = true → nearApex p = false) :
    e.values p = e.fn.map (PExp.eval (ptOf p)) := by
  unfold RefElt.values
  cases ha : e.apex with
  | none => rfl
  | some a => simp [h (by simp [RefElt.pole, ha])]

theorem RefElt.derivs_of_far (e : RefElt) (p : List K) (h : e.pole = true → nearApex p = false) :
    e.derivs p = e.dev.map (fun l => l.map (PExp.eval (ptOf p))) := by
  unfold RefElt.derivs
  cases ha : e.apex with
  | none => rfl
  | some a => simp [h (by simp [RefElt.pole, ha])]

theorem RefElt.values_of_near (e : RefElt) (p : List K) (h1 : e.pole = true) (h2 : nearApex p = true) :
    ∃ a, e.apex = some a ∧ e.values p = castL a.1 := by
  unfold RefElt.values
  cases ha : e.apex with
  | none => simp [RefElt.pole, ha] at h1
  | some a => exact ⟨a, rfl, by simp [h2]⟩

theorem RefElt.values_length (e : RefElt) (h : e.wf = true) (p : List K) : (e.values p).length = e.fn.length := by
  unfold RefElt.values
  simp only [RefElt.wf, Bool.and_eq_true] at h
  cases ha : e.apex with
  | none => simp
  | some a =>
    have h := h.2
    simp only [ha, Bool.and_eq_true, decide_eq_true_eq] at h
    dsimp only
    split
    · simpa [castL] using h.1.1
    · simp

theorem sum_castL (l : List Rat) : (castL (K := K) l).sum = ((l.sum : Rat) : K) := by
  induction l with
  | nil => simp [castL]
  | cons b l ih =>
    have : (castL (K := K) (b :: l)) = (b : K) :: castL l := rfl
    rw [this, List.sum_cons, List.sum_cons, ih, Rat.cast_add]

/-- The values of the shape functions sum to 1 at every point. -/
theorem RefElt.sum_values (e : RefElt) (h : e.unity = true) (p : List K) : (e.values p).sum = 1 := by
  simp only [RefElt.unity, Bool.and_eq_true] at h
  obtain ⟨h1, h2⟩ := h
  by_cases hn : e.pole = true → nearApex p = false
  · rw [e.values_of_far p hn, ← eval_sumE,
      PExp.eqv_sound (ptOf p) e.pole _ _ h1 (fun hp => nearApex_false p (hn hp))]
    simp [PExp.eval]
  · simp only [Classical.not_imp, Bool.not_eq_false] at hn
    obtain ⟨a, ha, hv⟩ := e.values_of_near p hn.1 hn.2
    rw [ha] at h2
    simp only [decide_eq_true_eq] at h2
    rw [hv]
    rw [sum_castL, h2, Rat.cast_one]

theorem eval_combE (e : RefElt) (k : Nat) (v : Nat → K) :
    (e.combE k).eval v = combineAt k (e.fn.map (PExp.eval v)) (e.ref.map castL) := by
  unfold RefElt.combE combineAt
  rw [eval_sumE]
  congr 1
  generalize e.ref = R
  generalize e.fn = F
  induction F generalizing R with
  | nil => simp
  | cons f F ih =>
    cases R with
    | nil => simp
    | cons r R =>
      simp only [List.zipWith_cons_cons, List.map_cons, PExp.eval, ih]
      congr 2
      simp only [ptOf, castL, List.getD_eq_getElem?_getD, List.getElem?_map]
      cases r[k]? <;> simp

/-- The reference nodes, combined with the values of the shape functions at a point, give this point. -/
theorem RefElt.combine_ref (e : RefElt) (h : e.repro = true) (p : List K) (hn : e.pole = true → nearApex p = false)
    (k : Nat) (hk : k < e.dim) :
    combineAt k (e.values p) (e.ref.map castL) = ptOf p k := by
  rw [e.values_of_far p hn, ← eval_combE]
  simp only [RefElt.repro, List.all_eq_true, List.mem_range] at h
  rw [PExp.eqv_sound (ptOf p) e.pole _ _ (h k hk) (fun hp => nearApex_false p (hn hp))]
  rfl

theorem ptOf_cast (r : List Rat) : ptOf (castL (K := K) r) = fun k => ((ptOf r k : Rat) : K) := by
  funext k
  simp only [ptOf, castL, List.getD_eq_getElem?_getD, List.getElem?_map]
  cases r[k]? <;> simp

theorem nearApex_cast (r : List Rat) : nearApex (castL (K := K) r) = nearApex r := by
  unfold nearApex
  rw [ptOf_cast]
  congr 1
  have : (|((ptOf r 2 : Rat) : K) - 1| < 1 / 1000000000000) ↔
      (((|ptOf r 2 - 1| : Rat) : K) < ((1 / 1000000000000 : Rat) : K)) := by
    push_cast
    rfl
  rw [eq_iff_iff, this, Rat.cast_lt]

theorem RefElt.values_cast (e : RefElt) (r : List Rat) :
    e.values (castL (K := K) r) = castL (e.values r) := by
  have hfn : e.fn.map (PExp.eval (ptOf (castL (K := K) r))) = castL (e.fn.map (PExp.eval (ptOf r))) := by
    rw [ptOf_cast]
    simp only [castL, List.map_map]
    exact List.map_congr_left fun f _ => PExp.eval_cast _ f
  unfold RefElt.values
  cases e.apex with
  | none => exact hfn
  | some a =>
    dsimp only
    rw [nearApex_cast]
    split
    · simp [castL]
    · exact hfn

/-- At a reference node, the shape function of this node is 1 and the other ones are 0. -/
theorem RefElt.values_node (e : RefElt) (h : e.kron = true) (j : Nat) (r : List Rat) (hj : e.ref[j]? = some r) :
    e.values (castL (K := K) r) = (List.range e.fn.length).map fun i => if i = j then 1 else 0 := by
  simp only [RefElt.kron, List.all_eq_true] at h
  have := h (r, j) (List.mk_mem_zipIdx_iff_getElem?.mpr hj)
  simp only [decide_eq_true_eq] at this
  rw [e.values_cast, this, castL, List.map_map]
  refine List.map_congr_left fun i _ => ?_
  simp only [Function.comp]
  split <;> simp

end

/-- The derivatives of the table are the partial derivatives of the shape functions. -/
theorem RefElt.hasDerivAt (e : RefElt) (h : e.devs = true) (p : List ℝ) (hn : e.pole = true → nearApex p = false)
    (i k : Nat) (f : PExp) (d : List PExp) (x : PExp) (hf : e.fn[i]? = some f) (hd : e.dev[i]? = some d)
    (hx : d[k]? = some x) :
    HasDerivAt (fun t => f.eval (Function.update (ptOf p) k t)) (x.eval (ptOf p)) (ptOf p k) := by
  simp only [RefElt.devs, List.all_eq_true] at h
  have hm : (f, d) ∈ List.zip e.fn e.dev := by
    rw [List.mem_iff_getElem?]
    exact ⟨i, by simp [List.getElem?_zip_eq_some, hf, hd]⟩
  have := h (f, d) hm
  simp only at this
  have h2 := this (x, k) (List.mk_mem_zipIdx_iff_getElem?.mpr hx)
  exact PExp.devOK_sound e.pole f k x h2 (ptOf p) (fun hp => nearApex_false p (hn hp))

end MC
