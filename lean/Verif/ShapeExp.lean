import Verif.Base
import Mathlib.Algebra.BigOperators.Group.List.Lemmas
import Mathlib.Algebra.Field.Basic
import Mathlib.Data.Rat.Cast.CharZero
import Mathlib.Tactic.Ring
import Mathlib.Tactic.FieldSimp
import Mathlib.Tactic.LinearCombination

/-!
# Arithmetic expressions of the shape functions, and a decision procedure on them

`InterpKernelGaussCoords.cxx` defines about 350 shape functions and 1000 partial derivatives by arithmetic expressions in
the coordinates `gc[0]`, `gc[1]`, `gc[2]` of a point of the reference cell.  They are modelled by their syntax tree `PExp`,
whose value `PExp.eval` is taken in any field of characteristic 0 (`double` is idealised, see DESIGN.md).

`PExp.toRF` puts an expression in the form `P / (1 - gc[2])^n`, where `P` is a polynomial: the only denominators of the
file are constants and multiples of `1 - gc[2]`.  It is not part of the modelled code: it serves to prove identities.
-/

namespace MC

/-- An arithmetic expression in the coordinates `gc[0]`, `gc[1]`, `gc[2]`, as written in InterpKernelGaussCoords.cxx. -/
inductive PExp where
  /-- a constant -/
  | num (q : Rat)
  /-- `gc[k]` -/
  | gc (k : Nat)
  | neg (a : PExp)
  | add (a b : PExp)
  | sub (a b : PExp)
  | mul (a b : PExp)
  | div (a b : PExp)
deriving DecidableEq, Repr

namespace PExp

instance : Neg PExp := ⟨.neg⟩
instance : Add PExp := ⟨.add⟩
instance : Sub PExp := ⟨.sub⟩
instance : Mul PExp := ⟨.mul⟩
instance : Div PExp := ⟨.div⟩
instance (n : Nat) : OfNat PExp n := ⟨.num (OfNat.ofNat n)⟩
instance : OfScientific PExp := ⟨fun m s e => .num (OfScientific.ofScientific m s e)⟩

/-- Value of an expression at the point `v`. -/
def eval {K : Type} [Field K] (v : Nat → K) : PExp → K
  | .num q => (q : K)
  | .gc k => v k
  | .neg a => - eval v a
  | .add a b => eval v a + eval v b
  | .sub a b => eval v a - eval v b
  | .mul a b => eval v a * eval v b
  | .div a b => eval v a / eval v b

end PExp

/-- exponents of `gc[0]`, `gc[1]`, `gc[2]` -/
abbrev Mono := Nat × Nat × Nat

/-- a polynomial: list of monomials and coefficients -/
abbrev P3 := List (Mono × Rat)

/-- value of a monomial -/
def Mono.ev {K : Type} [Field K] (m : Mono) (v : Nat → K) : K := v 0 ^ m.1 * v 1 ^ m.2.1 * v 2 ^ m.2.2

namespace P3

/-- value of a polynomial -/
def ev {K : Type} [Field K] (v : Nat → K) : P3 → K
  | [] => 0
  | (m, c) :: p => (c : K) * m.ev v + ev v p

/-- `p + c m` -/
def addTerm (m : Mono) (c : Rat) : P3 → P3
  | [] => if c = 0 then [] else [(m, c)]
  | (m', c') :: p =>
    if m = m' then (if c' + c = 0 then p else (m', c' + c) :: p) else (m', c') :: addTerm m c p

/-- `p + q` -/
def add (p : P3) : P3 → P3
  | [] => p
  | (m, c) :: q => addTerm m c (add p q)

/-- `c m p` -/
def smul (m : Mono) (c : Rat) : P3 → P3
  | [] => []
  | (m', c') :: p => ((m.1 + m'.1, m.2.1 + m'.2.1, m.2.2 + m'.2.2), c * c') :: smul m c p

/-- `p q` -/
def mul (p : P3) : P3 → P3
  | [] => []
  | (m, c) :: q => add (mul p q) (smul m c p)

/-- the constant polynomial `c` -/
def const (c : Rat) : P3 := if c = 0 then [] else [((0, 0, 0), c)]

/-- `1 - gc[2]` -/
def omz : P3 := [((0, 0, 0), 1), ((0, 0, 1), -1)]

/-- `(1 - gc[2])^n` -/
def omzPow : Nat → P3
  | 0 => const 1
  | n + 1 => mul (omzPow n) omz

/-- partial derivative of a polynomial with respect to `gc[k]` -/
def deriv (k : Nat) : P3 → P3
  | [] => []
  | (m, c) :: p =>
    match k with
    | 0 => addTerm (m.1 - 1, m.2.1, m.2.2) (c * m.1) (deriv k p)
    | 1 => addTerm (m.1, m.2.1 - 1, m.2.2) (c * m.2.1) (deriv k p)
    | _ => addTerm (m.1, m.2.1, m.2.2 - 1) (c * m.2.2) (deriv k p)

variable {K : Type} [Field K] [CharZero K] (v : Nat → K)

theorem ev_addTerm (m : Mono) (c : Rat) (p : P3) : ev v (addTerm m c p) = ev v p + (c : K) * m.ev v := by
  induction p with
  | nil =>
    unfold addTerm
    split
    · next h => simp [ev, h]
    · simp [ev]
  | cons t p ih =>
    obtain ⟨m', c'⟩ := t
    unfold addTerm
    split
    · next h =>
      subst h
      split
      · next h =>
        have h2 : (c' : K) + (c : K) = 0 := by rw [← Rat.cast_add, h, Rat.cast_zero]
        simp only [ev]
        linear_combination (-(m.ev v)) * h2
      · simp only [ev, Rat.cast_add]; ring
    · simp only [ev, ih]; ring

theorem ev_add (p q : P3) : ev v (add p q) = ev v p + ev v q := by
  induction q with
  | nil => simp [add, ev]
  | cons t q ih => obtain ⟨m, c⟩ := t; simp only [add, ev_addTerm, ih, ev]; ring

theorem ev_smul (m : Mono) (c : Rat) (p : P3) : ev v (smul m c p) = (c : K) * m.ev v * ev v p := by
  induction p with
  | nil => simp [smul, ev]
  | cons t p ih =>
    obtain ⟨m', c'⟩ := t
    simp only [smul, ev, ih, Mono.ev, Rat.cast_mul, pow_add]; ring

theorem ev_mul (p q : P3) : ev v (mul p q) = ev v p * ev v q := by
  induction q with
  | nil => simp [mul, ev]
  | cons t q ih => obtain ⟨m, c⟩ := t; simp only [mul, ev_add, ev_smul, ih, ev]; ring

theorem ev_const (c : Rat) : ev v (const c) = (c : K) := by
  unfold const; split
  · next h => simp [ev, h]
  · simp [ev, Mono.ev]

theorem ev_omz : ev v omz = 1 - v 2 := by simp [omz, ev, Mono.ev]; ring

theorem ev_omzPow (n : Nat) : ev v (omzPow n) = (1 - v 2) ^ n := by
  induction n with
  | zero => simp [omzPow, ev_const]
  | succ n ih => rw [omzPow, ev_mul, ih, ev_omz, pow_succ]

end P3

/-- the rational function `num / (1 - gc[2])^pow` -/
structure RF where
  num : P3
  pow : Nat
deriving DecidableEq, Repr

namespace RF

variable {K : Type} [Field K] (v : Nat → K)

/-- value of a rational function -/
def ev (r : RF) : K := P3.ev v r.num / (1 - v 2) ^ r.pow

def neg (a : RF) : RF := ⟨P3.smul (0, 0, 0) (-1) a.num, a.pow⟩

def add (a b : RF) : RF :=
  let n := max a.pow b.pow
  ⟨P3.add (P3.mul a.num (P3.omzPow (n - a.pow))) (P3.mul b.num (P3.omzPow (n - b.pow))), n⟩

def mul (a b : RF) : RF := ⟨P3.mul a.num b.num, a.pow + b.pow⟩

/-- `b = c (1 - gc[2])^j` with `c ≠ 0` and `j ≤ 1` -/
def divisor (b : RF) : Option (Rat × Nat) :=
  if b.pow = 0 then
    let c := ((b.num.find? fun t => t.1 = (0, 0, 0)).map (·.2)).getD 0
    if c = 0 then none
    else if P3.add b.num (P3.const (-c)) = [] then some (c, 0)
    else if P3.add b.num (P3.smul (0, 0, 0) (-c) P3.omz) = [] then some (c, 1)
    else none
  else none

/-- partial derivative with respect to `gc[k]` -/
def deriv (k : Nat) (r : RF) : RF :=
  if k < 2 ∨ r.pow = 0 then ⟨P3.deriv k r.num, r.pow⟩
  else ⟨P3.add (P3.mul (P3.deriv k r.num) P3.omz) (P3.smul (0, 0, 0) r.pow r.num), r.pow + 1⟩

variable [CharZero K]

theorem ev_neg (a : RF) : (neg a).ev v = - a.ev v := by
  simp [neg, ev, P3.ev_smul, Mono.ev, neg_div]

theorem ev_mul (a b : RF) : (mul a b).ev v = a.ev v * b.ev v := by
  simp [mul, ev, P3.ev_mul, pow_add, div_mul_div_comm]

theorem ev_add (a b : RF) (h : max a.pow b.pow = 0 ∨ v 2 ≠ 1) : (add a b).ev v = a.ev v + b.ev v := by
  rcases h with h | h
  · have h1 : a.pow = 0 := by omega
    have h2 : b.pow = 0 := by omega
    simp [add, ev, P3.ev_add, P3.ev_mul, h1, h2, P3.ev_omzPow]
  · have hz : (1 - v 2) ≠ 0 := fun e => h (by linear_combination -e)
    simp only [add, ev, P3.ev_add, P3.ev_mul, P3.ev_omzPow]
    have e1 : (1 - v 2) ^ max a.pow b.pow = (1 - v 2) ^ (max a.pow b.pow - a.pow) * (1 - v 2) ^ a.pow := by
      rw [← pow_add]; congr 1; omega
    have e2 : (1 - v 2) ^ max a.pow b.pow = (1 - v 2) ^ (max a.pow b.pow - b.pow) * (1 - v 2) ^ b.pow := by
      rw [← pow_add]; congr 1; omega
    rw [add_div]
    congr 1
    · rw [e1]; have := pow_ne_zero (max a.pow b.pow - a.pow) hz; field_simp
    · rw [e2]; have := pow_ne_zero (max a.pow b.pow - b.pow) hz; field_simp

theorem ev_divisor (b : RF) (c : Rat) (j : Nat) (h : b.divisor = some (c, j)) :
    b.pow = 0 ∧ c ≠ 0 ∧ b.ev v = (c : K) * (1 - v 2) ^ j := by
  unfold divisor at h
  split at h
  · next h0 =>
    simp only at h
    generalize ((b.num.find? fun t => t.1 = (0, 0, 0)).map (·.2)).getD 0 = c' at h
    split at h
    · cases h
    · next hc =>
      split at h
      · next he =>
        simp only [Option.some.injEq, Prod.mk.injEq] at h
        obtain ⟨rfl, rfl⟩ := h
        refine ⟨h0, hc, ?_⟩
        have := P3.ev_add v b.num (P3.const (-c'))
        rw [he, P3.ev_const] at this
        simp only [P3.ev, Rat.cast_neg] at this
        simp only [ev, h0, pow_zero, div_one, mul_one]
        linear_combination -this
      · split at h
        · next he =>
          simp only [Option.some.injEq, Prod.mk.injEq] at h
          obtain ⟨rfl, rfl⟩ := h
          refine ⟨h0, hc, ?_⟩
          have := P3.ev_add v b.num (P3.smul (0, 0, 0) (-c') P3.omz)
          rw [he, P3.ev_smul, P3.ev_omz] at this
          simp only [P3.ev, Rat.cast_neg, Mono.ev, pow_zero, mul_one] at this
          simp only [ev, h0, pow_zero, div_one, pow_one]
          linear_combination -this
        · cases h
  · cases h

end RF

namespace PExp

/-- The expression as a rational function; `none` when a denominator is neither a non null constant nor a multiple of
`1 - gc[2]`. -/
def toRF : PExp → Option RF
  | .num q => some ⟨P3.const q, 0⟩
  | .gc 0 => some ⟨[((1, 0, 0), 1)], 0⟩
  | .gc 1 => some ⟨[((0, 1, 0), 1)], 0⟩
  | .gc 2 => some ⟨[((0, 0, 1), 1)], 0⟩
  | .gc _ => none
  | .neg a => (toRF a).map RF.neg
  | .add a b => (toRF a).bind fun ra => (toRF b).map fun rb => RF.add ra rb
  | .sub a b => (toRF a).bind fun ra => (toRF b).map fun rb => RF.add ra (RF.neg rb)
  | .mul a b => (toRF a).bind fun ra => (toRF b).map fun rb => RF.mul ra rb
  | .div a b => (toRF a).bind fun ra => (toRF b).bind fun rb => rb.divisor.map fun (c, j) =>
      ⟨P3.smul (0, 0, 0) (1 / c) ra.num, ra.pow + j⟩

variable {K : Type} [Field K] [CharZero K] (v : Nat → K)

theorem toRF_sound (e : PExp) : ∀ (r : RF), e.toRF = some r → r.pow = 0 ∨ v 2 ≠ 1 → e.eval v = r.ev v := by
  induction e with
  | num q =>
    intro r h _
    simp only [toRF, Option.some.injEq] at h
    subst h
    simp [eval, RF.ev, P3.ev_const]
  | gc k =>
    intro r h _
    match k with
    | 0 | 1 | 2 =>
      simp only [toRF, Option.some.injEq] at h
      subst h
      simp [eval, RF.ev, P3.ev, Mono.ev]
    | k + 3 => simp [toRF] at h
  | neg a ih =>
    intro r h hp
    simp only [toRF, Option.map_eq_some_iff] at h
    obtain ⟨ra, ha, rfl⟩ := h
    rw [RF.ev_neg, eval, ih ra ha hp]
  | add a b iha ihb =>
    intro r h hp
    simp only [toRF, Option.bind_eq_some_iff, Option.map_eq_some_iff] at h
    obtain ⟨ra, ha, rb, hb, rfl⟩ := h
    have hp' : max ra.pow rb.pow = 0 ∨ v 2 ≠ 1 := hp
    rw [RF.ev_add v _ _ hp', eval, iha ra ha (hp'.imp_left (by omega)), ihb rb hb (hp'.imp_left (by omega))]
  | sub a b iha ihb =>
    intro r h hp
    simp only [toRF, Option.bind_eq_some_iff, Option.map_eq_some_iff] at h
    obtain ⟨ra, ha, rb, hb, rfl⟩ := h
    have hp' : max ra.pow rb.neg.pow = 0 ∨ v 2 ≠ 1 := hp
    have hn : rb.neg.pow = rb.pow := rfl
    rw [RF.ev_add v _ _ hp', eval, iha ra ha (hp'.imp_left (by omega)), ihb rb hb (hp'.imp_left (by omega)), RF.ev_neg]
    ring
  | mul a b iha ihb =>
    intro r h hp
    simp only [toRF, Option.bind_eq_some_iff, Option.map_eq_some_iff] at h
    obtain ⟨ra, ha, rb, hb, rfl⟩ := h
    have hp' : ra.pow + rb.pow = 0 ∨ v 2 ≠ 1 := hp
    rw [RF.ev_mul, eval, iha ra ha (hp'.imp_left (by omega)), ihb rb hb (hp'.imp_left (by omega))]
  | div a b iha ihb =>
    intro r h hp
    simp only [toRF, Option.bind_eq_some_iff, Option.map_eq_some_iff] at h
    obtain ⟨ra, ha, rb, hb, ⟨c, j⟩, hc, rfl⟩ := h
    have hp' : ra.pow + j = 0 ∨ v 2 ≠ 1 := hp
    obtain ⟨h0, hcz, hev⟩ := RF.ev_divisor v rb c j hc
    have hcK : (c : K) ≠ 0 := by exact_mod_cast hcz
    rw [eval, iha ra ha (hp'.imp_left (by omega)), ihb rb hb (.inl h0), hev]
    simp only [RF.ev, P3.ev_smul, Mono.ev, pow_zero, mul_one, pow_add, Rat.cast_div, Rat.cast_one]
    rw [div_div, mul_comm (1 / (c : K)), ← mul_div_assoc, mul_one, div_div]
    congr 1
    ring

/-- The two expressions are equal wherever they have no pole; when `pole` is `false` they have none. -/
def eqv (pole : Bool) (a b : PExp) : Bool :=
  match (PExp.sub a b).toRF with
  | some r => r.num = [] && (pole || r.pow = 0)
  | none => false

theorem eqv_sound (pole : Bool) (a b : PExp) (h : eqv pole a b = true) (hz : pole = true → v 2 ≠ 1) :
    a.eval v = b.eval v := by
  unfold eqv at h
  split at h
  · next r hr =>
    simp only [Bool.and_eq_true, decide_eq_true_eq, Bool.or_eq_true] at h
    have hp : r.pow = 0 ∨ v 2 ≠ 1 := by
      rcases h.2 with h | h
      · exact .inr (hz h)
      · exact .inl h
    have := toRF_sound v (.sub a b) r hr hp
    rw [RF.ev, h.1] at this
    simp only [eval, P3.ev, zero_div] at this
    linear_combination this
  · cases h

/-- Values at rational points are rational. -/
theorem eval_cast (q : Nat → Rat) (e : PExp) : e.eval (fun k => (q k : K)) = ((e.eval q : Rat) : K) := by
  induction e with
  | num q => simp [eval]
  | gc k => simp [eval]
  | neg a ih => simp [eval, ih]
  | add a b iha ihb => simp [eval, iha, ihb]
  | sub a b iha ihb => simp [eval, iha, ihb]
  | mul a b iha ihb => simp [eval, iha, ihb]
  | div a b iha ihb => simp [eval, iha, ihb]

end PExp

end MC
