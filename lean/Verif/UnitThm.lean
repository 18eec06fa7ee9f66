import Verif.UnitConv
import Mathlib.Tactic.Ring
import Mathlib.Tactic.FieldSimp
import Mathlib.Tactic.LinearCombination
import Mathlib.Algebra.Group.Basic
import Mathlib.Algebra.GroupWithZero.Basic

/-!
# Units of measure: theorems
-/

namespace MC

/-! ## What a text means as a unit -/

/-- What an operator gives: exponents add, subtract or are multiplied; nothing is added any more.  Only `*`, `/` and `^` are
accepted; a divisor has a factor other than 0, an exponent has no dimension and is a whole number. -/
def binUnit (op : Fn2) (x y : UDec) : Option UDec :=
  match op with
  | .mult => some ⟨x.g + y.g, x.m + y.m, x.s + y.s, x.a + y.a, x.k + y.k, 0, x.mul * y.mul⟩
  | .div => if y.mul = 0 then none else some ⟨x.g - y.g, x.m - y.m, x.s - y.s, x.a - y.a, x.k - y.k, 0, x.mul / y.mul⟩
  | .pow =>
    if (y.g = 0 ∧ y.m = 0 ∧ y.s = 0 ∧ y.a = 0 ∧ y.k = 0) ∧ y.mul.den = 1 ∧ (x.mul = 0 → 0 ≤ y.mul.num) then
      some ⟨x.g * y.mul.num, x.m * y.mul.num, x.s * y.mul.num, x.a * y.mul.num, x.k * y.mul.num, 0, x.mul ^ y.mul.num⟩
    else none
  | _ => none

/-- What a written expression means as a unit, `none` when it is no unit. -/
def Cst.unit (A : Arith ℚ) : Cst → Option UDec
  | .num l => if (A.lit l).den = 1 then some ⟨0, 0, 0, 0, 0, 0, A.lit l⟩ else none
  | .var x => match unitInfo x with
    | .ok d => some d
    | _ => none
  | .sign sg e => (e.unit A).map fun d => if sg.count '-' % 2 = 1 then { d with mul := -d.mul } else d
  | .call f e => if f = .identity then e.unit A else none
  | .call2 _ _ _ => none
  | .callIf _ _ _ => none
  | .bin op a b => (a.unit A).bind fun x => (b.unit A).bind fun y => binUnit op x y

/-! ## Whole numbers, powers -/

theorem qTrunc_eq {v : ℚ} (h : v.den = 1) : (qTrunc v : ℚ) = v := by
  unfold qTrunc
  rw [h]
  simp [Rat.den_eq_one_iff v |>.mp h]

theorem qTrunc_iff (v : ℚ) : (qTrunc v : ℚ) = v ↔ v.den = 1 :=
  ⟨fun h => by rw [← h]; rfl, qTrunc_eq⟩

theorem qTrunc_num {v : ℚ} (h : v.den = 1) : qTrunc v = v.num := by
  unfold qTrunc
  rw [h]
  simp

theorem mulTimes_eq (v : ℚ) (n : Nat) (w : ℚ) : mulTimes v n w = w * v ^ n := by
  induction n generalizing w with
  | zero => simp [mulTimes]
  | succ n ih => rw [mulTimes, ih, pow_succ']; ring

theorem powInt_eq (v : ℚ) (e : Int) (h : v = 0 → 0 ≤ e) : powInt v e = .ok (v ^ e) := by
  unfold powInt
  by_cases h0 : e = 0
  · rw [if_pos h0, h0, zpow_zero]
  rw [if_neg h0]
  by_cases h1 : e > 0
  · rw [if_pos h1, mulTimes_eq, one_mul]
    congr 1
    rw [← zpow_natCast, Int.toNat_of_nonneg (by omega)]
  · rw [if_neg h1, if_neg (fun hv => by have := h hv; omega), mulTimes_eq, one_mul, one_div, inv_pow]
    congr 1
    rw [← zpow_natCast, Int.toNat_of_nonneg (by omega), zpow_neg, inv_inv]

theorem powInt_err (v : ℚ) (e : Int) (h : ¬ (v = 0 → 0 ≤ e)) : powInt v e = undef := by
  rw [Classical.not_imp] at h
  unfold powInt
  rw [if_neg (by omega), if_neg (by omega), if_pos h.1]

theorem unitNumber_eq (v : ℚ) : unitNumber v = if v.den = 1 then .ok ⟨0, 0, 0, 0, 0, 0, v⟩ else throwX := by
  unfold unitNumber
  by_cases h : v.den = 1
  · rw [if_pos h, if_neg (by rw [qTrunc_eq h]; simp), qTrunc_eq h]
  · rw [if_neg h, if_pos]
    intro h'
    exact h ((qTrunc_iff v).mp (sub_eq_zero.mp h').symm)

/-- the result of a step and its meaning -/
def OutU {α : Type} (m : M α) (o : Option α) : Prop :=
  match o with
  | some v => m = .ok v
  | none => ∃ e, m = .error e

theorem unitFn2_out (op : Fn2) (x y : UDec) : OutU (unitFn2 op x y) (binUnit op x y) := by
  cases op <;> try exact ⟨_, rfl⟩
  · rfl
  · simp only [unitFn2, UDec.over, binUnit]
    split
    · exact ⟨_, rfl⟩
    · rfl
  · simp only [unitFn2, UDec.power, binUnit]
    by_cases h1 : y.g = 0 ∧ y.m = 0 ∧ y.s = 0 ∧ y.a = 0 ∧ y.k = 0
    · rw [if_neg (by simp [UDec.adim, h1])]
      by_cases h2 : y.mul.den = 1
      · simp only [asInt]
        rw [if_pos (qTrunc_eq h2), qTrunc_num h2]
        by_cases h3 : x.mul = 0 → 0 ≤ y.mul.num
        · rw [if_pos ⟨h1, h2, h3⟩]
          simp only [ok_bind, powInt_eq _ _ h3, OutU]
        · rw [if_neg (fun h => h3 h.2.2)]
          simp only [ok_bind, powInt_err _ _ h3]
          exact ⟨_, rfl⟩
      · rw [if_neg (fun h => h2 h.2.1)]
        simp only [asInt]
        rw [if_neg (fun h => h2 ((qTrunc_iff _).mp h))]
        exact ⟨_, rfl⟩
    · have hn : y.adim = false := by
        rw [Bool.eq_false_iff]
        intro h
        simp only [UDec.adim, Bool.and_eq_true, decide_eq_true_eq] at h
        exact h1 ⟨h.1.1.1.1, h.1.1.1.2, h.1.1.2, h.1.2, h.2⟩
      rw [if_pos hn, if_neg (fun h => h1 h.1)]
      exact ⟨_, rfl⟩

/-! ## The evaluation -/

/-- a node above a stack -/
def rawU : PExpr (Leaf ℚ) → List UDec → M (List UDec)
  | .leaf l fs, s => do
    let v ← unitLeaf l
    fs.foldlM unitFn (v :: s)
  | .node subs fs, s => do
    let st ← unitEvalL subs s
    fs.foldlM unitFn st

theorem unitEval_raw (t : PExpr (Leaf ℚ)) : unitEval t = rawU t [] >>= unitTop := by
  cases t with
  | leaf l fs =>
    simp only [unitEval, rawU]
    cases unitLeaf l <;> rfl
  | node subs fs =>
    simp only [unitEval, rawU]
    cases unitEvalL subs [] <;> rfl

theorem unitEval_out {t : PExpr (Leaf ℚ)} {o : Option UDec} (h : ∀ s, OutU (rawU t s) (o.map (· :: s))) : OutU (unitEval t) o := by
  have h := h []
  rw [unitEval_raw]
  cases o with
  | none =>
    obtain ⟨e, h⟩ := h
    rw [h]
    exact ⟨e, rfl⟩
  | some v =>
    simp only [OutU, Option.map] at h
    rw [h]
    rfl

theorem unit_leafFns (sg : List Char) (v : UDec) (s : List UDec) :
    (leafFns sg).foldlM unitFn (v :: s) = .ok ((if sg.count '-' % 2 = 1 then { v with mul := -v.mul } else v) :: s) := by
  unfold leafFns
  by_cases h : sg.count '-' % 2 = 1
  · rw [if_pos (by omega), if_pos h]; rfl
  · rw [if_neg (by omega), if_neg h]; rfl

theorem unit_signFns (sg : List Char) (v : UDec) (s : List UDec) :
    (signFns sg).foldlM unitFn (v :: s) = .ok ((if sg.count '-' % 2 = 1 then { v with mul := -v.mul } else v) :: s) := by
  induction sg generalizing v with
  | nil => rfl
  | cons c sg ih =>
    simp only [signFns, List.map_cons, List.foldlM_cons] at ih ⊢
    by_cases hc : c = '-'
    · subst hc
      rw [if_pos rfl]
      simp only [unitFn, ok_bind, List.count_cons_self]
      rw [ih]
      congr 2
      by_cases h : sg.count '-' % 2 = 1
      · rw [if_pos h, if_neg (by omega)]; simp [UDec.neg]
      · rw [if_neg h, if_pos (by omega)]; rfl
    · rw [if_neg hc]
      simp only [unitFn, ok_bind]
      rw [ih, List.count_cons_of_ne hc]

theorem rawU_signed (sg : List Char) (t : PExpr (Leaf ℚ)) (s : List UDec) (o : Option UDec)
    (hf : (∃ l, t = .leaf l []) ∨ ∃ subs, t = .node subs []) (h : OutU (rawU t s) (o.map (· :: s))) :
    OutU (rawU (t.signed sg) s) ((o.map fun d => if sg.count '-' % 2 = 1 then { d with mul := -d.mul } else d).map (· :: s)) := by
  rcases hf with ⟨l, rfl⟩ | ⟨subs, rfl⟩
  · simp only [rawU, PExpr.signed] at h ⊢
    cases hl : unitLeaf l with
    | error e =>
      rw [hl] at h
      cases o with
      | none => exact ⟨e, rfl⟩
      | some v => exact nomatch h
    | ok w =>
      rw [hl] at h
      cases o with
      | none => obtain ⟨e, h⟩ := h; exact nomatch h
      | some v =>
        simp only [OutU, Option.map, ok_bind, List.foldlM_nil, pure, Except.pure, Except.ok.injEq, List.cons.injEq, and_true] at h
        subst h
        simp only [ok_bind, unit_leafFns, OutU, Option.map]
  · simp only [rawU, PExpr.signed] at h ⊢
    cases hl : unitEvalL subs s with
    | error e =>
      rw [hl] at h
      cases o with
      | none => exact ⟨e, rfl⟩
      | some v => exact nomatch h
    | ok w =>
      rw [hl] at h
      cases o with
      | none => obtain ⟨e, h⟩ := h; exact nomatch h
      | some v =>
        simp only [OutU, Option.map, ok_bind, List.foldlM_nil, pure, Except.pure, Except.ok.injEq] at h
        subst h
        simp only [ok_bind, unit_signFns, OutU, Option.map]

theorem OutU.cases {α : Type} {m : M α} {o : Option α} (h : OutU m o) :
    (∃ v, o = some v ∧ m = .ok v) ∨ (o = none ∧ ∃ e, m = .error e) := by
  cases o with
  | none => exact Or.inr ⟨rfl, h⟩
  | some v => exact Or.inl ⟨v, rfl, h⟩

theorem unitFn_bin (op : Fn2) (x y : UDec) (s : List UDec) : OutU (unitFn (x :: y :: s) (.f2 op)) ((binUnit op x y).map (· :: s)) := by
  simp only [unitFn]
  rcases (unitFn2_out op x y).cases with ⟨v, h1, h2⟩ | ⟨h1, e, h2⟩
  · rw [h1, h2]; rfl
  · rw [h1, h2]; exact ⟨e, rfl⟩

theorem rawU_eq (A : Arith ℚ) {P : List Char → Prop} (c : Cst) (h : c.WF P) (s : List UDec) :
    OutU (rawU (c.rtree (fun l => .val (A.lit l)) .var) s) ((c.unit A).map (· :: s)) := by
  induction c generalizing s with
  | num l =>
    simp only [Cst.rtree, rawU, unitLeaf, unitNumber_eq, Cst.unit]
    split
    · rfl
    · exact ⟨_, rfl⟩
  | var x =>
    simp only [Cst.rtree, rawU, unitLeaf, Cst.unit]
    cases unitInfo x with
    | ok d => rfl
    | error e => exact ⟨_, rfl⟩
  | sign sg e ih => exact rawU_signed sg _ s _ (signable_tree _ _ h.2.2.1) (ih h.2.2.2 s)
  | call f e ih =>
    simp only [Cst.rtree, rawU, unitEvalL, Cst.unit]
    rcases (unitEval_out (ih h.2.2.2)).cases with ⟨v, h1, h2⟩ | ⟨h1, er, h2⟩
    · rw [h1, h2]
      by_cases hf : f = .identity
      · rw [if_pos hf, if_pos hf]; rfl
      · rw [if_neg hf, if_neg hf]
        have := h.1
        have := h.2.1
        cases f <;> first | contradiction | exact ⟨_, rfl⟩
    · rw [h1, h2]
      split <;> exact ⟨er, rfl⟩
  | call2 f a b iha ihb =>
    simp only [Cst.rtree, rawU, unitEvalL, Cst.unit]
    rcases (unitEval_out (ihb h.2.2.2.2)).cases with ⟨y, _, h2⟩ | ⟨_, er, h2⟩
    · rw [h2]
      rcases (unitEval_out (iha h.2.2.2.1)).cases with ⟨x, _, h4⟩ | ⟨_, er, h4⟩
      · rw [h4]
        rcases h.1 with rfl | rfl <;> exact ⟨_, rfl⟩
      · rw [h4]; exact ⟨er, rfl⟩
    · rw [h2]; exact ⟨er, rfl⟩
  | callIf a b c iha ihb ihc =>
    simp only [Cst.rtree, rawU, unitEvalL, Cst.unit]
    rcases (unitEval_out (ihc h.2.2.2.2.2)).cases with ⟨z, _, h2⟩ | ⟨_, er, h2⟩
    · rw [h2]
      rcases (unitEval_out (ihb h.2.2.2.2.1)).cases with ⟨y, _, h4⟩ | ⟨_, er, h4⟩
      · rw [h4]
        rcases (unitEval_out (iha h.2.2.2.1)).cases with ⟨x, _, h6⟩ | ⟨_, er, h6⟩
        · rw [h6]; exact ⟨_, rfl⟩
        · rw [h6]; exact ⟨er, rfl⟩
      · rw [h4]; exact ⟨er, rfl⟩
    · rw [h2]; exact ⟨er, rfl⟩
  | bin op a b iha ihb =>
    have hb := unitEval_out (ihb h.2.2.2.2.2.2.2.2)
    have ha := iha h.2.2.2.2.2.2.2.1
    have ha' := unitEval_out ha
    simp only [Cst.rtree, Cst.unit]
    split
    · rename_i hl
      obtain ⟨subs, fs, hn⟩ := rtree_node (fun l => Leaf.val (A.lit l)) Leaf.var h.2.2.2.2.2.2.2.1 (by rw [hl]; exact h.1)
      rw [hn] at ha ⊢
      simp only [PExpr.rsnoc, rawU, unitEvalL]
      rcases hb.cases with ⟨y, h1, h2⟩ | ⟨h1, er, h2⟩
      · rw [h1, h2]
        simp only [ok_bind, Option.bind_some]
        have hk : (unitEvalL subs (y :: s) >>= fun st => (fs ++ [Fn.f2 op]).foldlM unitFn st) =
            rawU (.node subs fs) (y :: s) >>= fun st => unitFn st (.f2 op) := by
          simp only [rawU]
          cases unitEvalL subs (y :: s) with
          | error e => rfl
          | ok st =>
            simp only [ok_bind, List.foldlM_append, List.foldlM_cons, List.foldlM_nil]
            cases fs.foldlM unitFn st with
            | error e => rfl
            | ok st' => simp only [ok_bind]; cases unitFn st' (.f2 op) <;> rfl
        rw [hk]
        rcases ha'.cases with ⟨x, h3, _⟩ | ⟨h3, er, _⟩
        · have := ha (y :: s)
          rw [h3] at this ⊢
          simp only [OutU, Option.map] at this
          rw [this]
          exact unitFn_bin op x y s
        · have := ha (y :: s)
          rw [h3] at this ⊢
          obtain ⟨e, this⟩ := this
          rw [this]
          exact ⟨e, rfl⟩
      · rw [h1, h2]
        cases a.unit A <;> exact ⟨er, rfl⟩
    · simp only [rawU, unitEvalL]
      rcases hb.cases with ⟨y, h1, h2⟩ | ⟨h1, er, h2⟩
      · rw [h1, h2]
        rcases ha'.cases with ⟨x, h3, h4⟩ | ⟨h3, er, h4⟩
        · rw [h3, h4]
          simp only [ok_bind, List.foldlM_cons, List.foldlM_nil, Option.bind_some]
          have := unitFn_bin op x y s
          rcases this.cases with ⟨v, h5, h6⟩ | ⟨h5, e, h6⟩
          · rw [h5, h6]; rfl
          · rw [h5, h6]; exact ⟨e, rfl⟩
        · rw [h3, h4]; exact ⟨er, rfl⟩
      · rw [h1, h2]
        cases a.unit A <;> exact ⟨er, rfl⟩

/-- A written text is interpreted as a unit exactly when it means one, and as this one. -/
theorem C107_interpret {A : Arith ℚ} {c : Cst} {text : List Char} (h : Written A c text) (d : UDec) :
    evaluateUnit A text = .ok d ↔ c.unit A = some d := by
  unfold evaluateUnit
  rw [h.parse]
  simp only [ok_bind]
  rcases (unitEval_out (rawU_eq A c h.wf)).cases with ⟨v, h1, h2⟩ | ⟨h1, e, h2⟩
  · rw [h1, h2]; simp
  · rw [h1, h2]; simp

end MC
