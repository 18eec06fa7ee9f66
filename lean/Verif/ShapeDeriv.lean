import Verif.ShapeExp
import Mathlib.Analysis.Calculus.Deriv.Add
import Mathlib.Analysis.Calculus.Deriv.Inv
import Mathlib.Analysis.Calculus.Deriv.Pow

/-!
# Partial derivatives of the expressions of `ShapeExp`

`PExp.devOK_sound`: when the check `PExp.devOK` succeeds, the second expression is the partial derivative of the first
one, in the sense of real analysis.
-/

namespace MC

open Function

namespace P3

variable (v : Nat → ℝ)

theorem hasDerivAt_mono (m : Mono) (c : Rat) (k : Nat) (hk : k < 3) (p : P3)
    (ih : HasDerivAt (fun t => ev (update v k t) p) (ev v (deriv k p)) (v k)) :
    HasDerivAt (fun t => ev (update v k t) ((m, c) :: p)) (ev v (deriv k ((m, c) :: p))) (v k) := by
  have hpow : ∀ n : Nat, HasDerivAt (fun t : ℝ => t ^ n) ((n : ℝ) * v k ^ (n - 1)) (v k) := fun n => hasDerivAt_pow n (v k)
  match k, hk with
  | 0, _ =>
    have h := (((hpow m.1).mul_const (v 1 ^ m.2.1)).mul_const (v 2 ^ m.2.2)).const_mul (c : ℝ) |>.add ih
    simp only [deriv, ev_addTerm, Mono.ev, Rat.cast_mul, Rat.cast_natCast]
    refine (h.congr_deriv (by ring)).congr_of_eventuallyEq (Filter.Eventually.of_forall fun t => ?_)
    simp [ev, Mono.ev]
  | 1, _ =>
    have h := (((hpow m.2.1).const_mul (v 0 ^ m.1)).mul_const (v 2 ^ m.2.2)).const_mul (c : ℝ) |>.add ih
    simp only [deriv, ev_addTerm, Mono.ev, Rat.cast_mul, Rat.cast_natCast]
    refine (h.congr_deriv (by ring)).congr_of_eventuallyEq (Filter.Eventually.of_forall fun t => ?_)
    simp [ev, Mono.ev]
  | 2, _ =>
    have h := ((hpow m.2.2).const_mul (v 0 ^ m.1 * v 1 ^ m.2.1)).const_mul (c : ℝ) |>.add ih
    simp only [deriv, ev_addTerm, Mono.ev, Rat.cast_mul, Rat.cast_natCast]
    refine (h.congr_deriv (by ring)).congr_of_eventuallyEq (Filter.Eventually.of_forall fun t => ?_)
    simp [ev, Mono.ev]

theorem hasDerivAt (p : P3) (k : Nat) (hk : k < 3) :
    HasDerivAt (fun t => ev (update v k t) p) (ev v (deriv k p)) (v k) := by
  induction p with
  | nil => simpa [ev, deriv] using hasDerivAt_const (v k) (0 : ℝ)
  | cons t p ih => exact hasDerivAt_mono v t.1 t.2 k hk p ih

end P3

namespace RF

variable (v : Nat → ℝ)

theorem hasDerivAt (r : RF) (k : Nat) (hk : k < 3) (hz : r.pow = 0 ∨ v 2 ≠ 1) :
    HasDerivAt (fun t => r.ev (update v k t)) ((r.deriv k).ev v) (v k) := by
  have hp := P3.hasDerivAt v r.num k hk
  unfold deriv
  split
  · next h =>
    simp only [RF.ev]
    have e : ∀ t, (1 - update v k t 2) ^ r.pow = (1 - v 2) ^ r.pow := by
      intro t
      rcases h with h | h
      · rw [update_of_ne (by omega)]
      · rw [h]; simp
    simp only [e]
    exact hp.div_const _
  · next h =>
    have hk2 : k = 2 := by omega
    subst hk2
    have hz' : v 2 ≠ 1 := hz.resolve_left (by omega)
    have hz0 : (1 - v 2) ≠ 0 := fun e => hz' (by linarith)
    simp only [RF.ev, update_self]
    obtain ⟨n, hn⟩ : ∃ n, r.pow = n + 1 := ⟨r.pow - 1, by omega⟩
    have hd : HasDerivAt (fun t : ℝ => (1 - t) ^ r.pow) ((r.pow : ℝ) * (1 - v 2) ^ (r.pow - 1) * (-1)) (v 2) := by
      exact (((hasDerivAt_id (v 2)).const_sub 1).pow r.pow).congr_of_eventuallyEq
        (Filter.Eventually.of_forall fun t => rfl)
    refine (hp.div hd (pow_ne_zero _ hz0)).congr_deriv ?_
    simp only [P3.ev_add, P3.ev_mul, P3.ev_omz, P3.ev_smul, Mono.ev, update_eq_self, pow_zero, mul_one, Rat.cast_natCast]
    rw [hn]
    simp only [Nat.add_sub_cancel]
    field_simp
    ring

end RF

namespace PExp

/-- `d` is the partial derivative of `e` with respect to `gc[k]`, wherever they have no pole. -/
def devOK (pole : Bool) (e : PExp) (k : Nat) (d : PExp) : Bool :=
  match e.toRF, d.toRF with
  | some r, some s =>
    (RF.add (r.deriv k) (RF.neg s)).num = [] && decide (k < 3) && (pole || (r.pow = 0 && s.pow = 0))
  | _, _ => false

theorem deriv_pow_zero (r : RF) (k : Nat) (h : r.pow = 0) : (r.deriv k).pow = 0 := by
  unfold RF.deriv
  split
  · exact h
  · next h' => omega

theorem devOK_sound (pole : Bool) (e : PExp) (k : Nat) (d : PExp) (h : devOK pole e k d = true) (v : Nat → ℝ)
    (hz : pole = true → v 2 ≠ 1) : HasDerivAt (fun t => e.eval (update v k t)) (d.eval v) (v k) := by
  unfold devOK at h
  split at h
  · next r s hr hs =>
    simp only [Bool.and_eq_true, decide_eq_true_eq, Bool.or_eq_true] at h
    obtain ⟨⟨h1, hk⟩, h2⟩ := h
    have hp : r.pow = 0 ∨ v 2 ≠ 1 := h2.elim (fun h => .inr (hz h)) (fun h => .inl h.1)
    have hq : s.pow = 0 ∨ v 2 ≠ 1 := h2.elim (fun h => .inr (hz h)) (fun h => .inl h.2)
    have hm : max (r.deriv k).pow s.neg.pow = 0 ∨ v 2 ≠ 1 := by
      rcases h2 with h | h
      · exact .inr (hz h)
      · have := deriv_pow_zero r k h.1
        have hn : s.neg.pow = s.pow := rfl
        left; omega
    have hev : (r.deriv k).ev v = s.ev v := by
      have := RF.ev_add v (r.deriv k) s.neg hm
      rw [RF.ev_neg] at this
      unfold RF.ev at this
      rw [h1] at this
      simp only [P3.ev, zero_div] at this
      unfold RF.ev
      linarith
    rw [toRF_sound v d s hs hq, ← hev]
    refine (RF.hasDerivAt v r k hk hp).congr_of_eventuallyEq ?_
    rcases hp with hp | hp
    · exact Filter.Eventually.of_forall fun t => toRF_sound _ e r hr (.inl hp)
    · by_cases hk2 : k = 2
      · subst hk2
        filter_upwards [isOpen_ne.mem_nhds hp] with t ht
        exact toRF_sound _ e r hr (.inr (by simpa using ht))
      · refine Filter.Eventually.of_forall fun t => toRF_sound _ e r hr (.inr ?_)
        rwa [update_of_ne (fun e => hk2 e.symm)]
  · cases h

end PExp

end MC
