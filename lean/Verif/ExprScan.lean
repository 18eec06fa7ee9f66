import Verif.ExprSpec
import Mathlib.Tactic.Tauto

/-!
# The scanning loops of the parser on well written texts
-/

namespace MC
variable {V : Type}

theorem List.foldlM_app {α σ : Type} (f : σ → α → M σ) (l r : List α) (s : σ) :
    (l ++ r).foldlM f s = (l.foldlM f s >>= fun s' => r.foldlM f s') := by
  induction l generalizing s with
  | nil => rfl
  | cons a l ih =>
    simp only [List.cons_append, List.foldlM_cons]
    cases h : f s a with
    | ok s' => simp only [ok_bind]; exact ih s'
    | error e => rfl

/-! ## Characters -/

theorem fig_name {c : Char} (h : isFig c = true) : isNameChar c = true := by
  cases hn : isNameChar c with
  | true => rfl
  | false =>
    exfalso
    simp only [isNameChar, isOp9, isOp7, isWS, Bool.and_eq_false_iff, Bool.not_eq_false', Bool.or_eq_true, decide_eq_true_eq,
      bne_eq_false_iff_eq] at hn
    rcases hn with ((((((((((rfl | rfl) | rfl) | rfl) | rfl) | rfl) | rfl) | rfl) | rfl) | rfl) | (rfl | rfl)) <;> revert h <;> decide

theorem name_ne {c : Char} (h : isNameChar c = true) :
    c ≠ '+' ∧ c ≠ '-' ∧ c ≠ '*' ∧ c ≠ '/' ∧ c ≠ '^' ∧ c ≠ '>' ∧ c ≠ '<' ∧ c ≠ '(' ∧ c ≠ ')' ∧ c ≠ ',' := by
  refine ⟨?_, ?_, ?_, ?_, ?_, ?_, ?_, ?_, ?_, ?_⟩ <;> (rintro rfl; revert h; decide)

theorem name_op9 {c : Char} (h : isNameChar c = true) : isOp9 c = false := by
  unfold isNameChar at h
  simp only [Bool.and_eq_true, Bool.not_eq_true'] at h
  exact h.1.1

theorem name_op7 {c : Char} (h : isNameChar c = true) : isOp7 c = false := by
  have := name_op9 h
  unfold isOp9 at this
  simp only [Bool.or_eq_false_iff] at this
  exact this.1.1

theorem name_sign {c : Char} (h : isNameChar c = true) : isSign c = false := by
  have := name_ne h
  simp [isSign, this.1, this.2.1]

theorem sign_cases {c : Char} (h : isSign c = true) : c = '+' ∨ c = '-' := by
  simpa [isSign] using h

theorem repr1_name (f : Fn1) (h1 : f ≠ .positive) (h2 : f ≠ .negate) : ∀ c ∈ f.repr, isNameChar c = true := by
  cases f <;> first | exact absurd rfl h1 | exact absurd rfl h2 | decide

theorem repr2_name (f : Fn2) (h : f = .max ∨ f = .min) : ∀ c ∈ f.repr, isNameChar c = true := by
  rcases h with rfl | rfl <;> decide

/-- the operators which are written between operands -/
theorem bin_repr {op : Fn2} (h : 2 ≤ op.lvl) :
    (op = .pow ∧ op.repr = ['^'] ∧ op.lvl = 2) ∨ (op = .mult ∧ op.repr = ['*'] ∧ op.lvl = 3) ∨
    (op = .div ∧ op.repr = ['/'] ∧ op.lvl = 3) ∨ (op = .plus ∧ op.repr = ['+'] ∧ op.lvl = 4) ∨
    (op = .minus ∧ op.repr = ['-'] ∧ op.lvl = 4) ∨ (op = .gt ∧ op.repr = ['>'] ∧ op.lvl = 5) ∨
    (op = .lt ∧ op.repr = ['<'] ∧ op.lvl = 5) := by
  cases op <;> simp [Fn2.lvl, Fn2.repr] at h ⊢

/-- A written number of the parsing stage: figures only. -/
def Digits (l : List Char) : Prop := l ≠ [] ∧ ∀ c ∈ l, isFig c = true

/-! ## The texts of well written expressions -/

theorem Cst.WF.num_chars {c : List Char} (h : Digits c) : ∀ x ∈ c, isNameChar x = true := fun x hx => fig_name (h.2 x hx)

theorem IsName.chars {x : List Char} (h : IsName x) : ∀ d ∈ x, isNameChar d = true := by
  obtain ⟨c, r, rfl, _, h2⟩ := h; exact h2

theorem IsName.ne_nil {x : List Char} (h : IsName x) : x ≠ [] := by
  obtain ⟨c, r, rfl, _, _⟩ := h; simp

/-- the last character is of a name or a closing bracket -/
theorem Cst.str_last (c : Cst) (h : c.WF Digits) : ∃ pre a, c.str = pre ++ [a] ∧ (isNameChar a = true ∨ a = ')') := by
  induction c with
  | num l =>
    simp only [Cst.WF] at h
    obtain ⟨pre, a, rfl⟩ : ∃ pre a, l = pre ++ [a] := ⟨l.dropLast, l.getLast h.1, (List.dropLast_concat_getLast h.1).symm⟩
    exact ⟨pre, a, rfl, Or.inl (Cst.WF.num_chars h a (by simp))⟩
  | var x =>
    simp only [Cst.WF] at h
    have hn := h.ne_nil
    obtain ⟨pre, a, rfl⟩ : ∃ pre a, x = pre ++ [a] := ⟨x.dropLast, x.getLast hn, (List.dropLast_concat_getLast hn).symm⟩
    exact ⟨pre, a, rfl, Or.inl (h.chars a (by simp))⟩
  | sign sg e ih =>
    obtain ⟨_, _, _, he⟩ := h
    obtain ⟨pre, a, hp, ha⟩ := ih he
    exact ⟨sg ++ pre, a, by simp [Cst.str, hp], ha⟩
  | call f e ih => exact ⟨f.repr ++ '(' :: e.str, ')', by simp [Cst.str], Or.inr rfl⟩
  | call2 f a b _ _ => exact ⟨f.repr ++ '(' :: (a.str ++ ',' :: b.str), ')', by simp [Cst.str], Or.inr rfl⟩
  | callIf a b c _ _ _ => exact ⟨'i' :: 'f' :: '(' :: (a.str ++ ',' :: (b.str ++ ',' :: c.str)), ')', by simp [Cst.str], Or.inr rfl⟩
  | bin op a b _ ih =>
    obtain ⟨_, _, _, _, _, _, _, _, hb⟩ := h
    obtain ⟨pre, x, hp, hx⟩ := ih hb
    exact ⟨a.str ++ op.repr ++ pre, x, by simp [Cst.str, hp], hx⟩

theorem Cst.str_ne (c : Cst) (h : c.WF Digits) : c.str ≠ [] := by
  obtain ⟨pre, a, hp, _⟩ := c.str_last h
  rw [hp]; simp

/-- no comparison, no comparison sign in the text -/
theorem Cst.noCmp (c : Cst) (h : c.WF Digits) (hc : c.hasCmp = false) : ∀ x ∈ c.str, x ≠ '>' ∧ x ≠ '<' := by
  induction c with
  | num l => intro x hx; have := name_ne (Cst.WF.num_chars h x hx); tauto
  | var y => intro x hx; have := name_ne (IsName.chars h x hx); tauto
  | sign sg e ih =>
    obtain ⟨_, hs, _, he⟩ := h
    intro x hx
    simp only [Cst.str, List.mem_append] at hx
    rcases hx with hx | hx
    · rcases sign_cases (hs x hx) with rfl | rfl <;> decide
    · exact ih he hc x hx
  | call f e ih =>
    obtain ⟨h1, h2, _, he⟩ := h
    intro x hx
    simp only [Cst.str, List.mem_append, List.mem_cons, List.not_mem_nil, or_false] at hx
    rcases hx with hx | rfl | hx | rfl
    · have := name_ne (repr1_name f h1 h2 x hx); tauto
    · decide
    · exact ih he hc x hx
    · decide
  | call2 f a b iha ihb =>
    obtain ⟨h1, _, _, ha, hb⟩ := h
    simp only [Cst.hasCmp, Bool.or_eq_false_iff] at hc
    intro x hx
    simp only [Cst.str, List.mem_append, List.mem_cons, List.not_mem_nil, or_false] at hx
    rcases hx with hx | rfl | hx | rfl | hx | rfl
    · have := name_ne (repr2_name f h1 x hx); tauto
    · decide
    · exact iha ha hc.1 x hx
    · decide
    · exact ihb hb hc.2 x hx
    · decide
  | callIf a b c iha ihb ihc =>
    obtain ⟨_, _, _, ha, hb, hcc⟩ := h
    simp only [Cst.hasCmp, Bool.or_eq_false_iff] at hc
    intro x hx
    simp only [Cst.str, List.mem_append, List.mem_cons, List.not_mem_nil, or_false] at hx
    rcases hx with rfl | rfl | rfl | hx | rfl | hx | rfl | hx | rfl
    · decide
    · decide
    · decide
    · exact iha ha hc.1.1 x hx
    · decide
    · exact ihb hb hc.1.2 x hx
    · decide
    · exact ihc hcc hc.2 x hx
    · decide
  | bin op a b iha ihb =>
    obtain ⟨hop, _, _, _, _, _, _, ha, hb⟩ := h
    simp only [Cst.hasCmp, Bool.or_eq_false_iff] at hc
    intro x hx
    simp only [Cst.str, List.mem_append] at hx
    rcases hx with (hx | hx) | hx
    · exact iha ha hc.1.2 x hx
    · rcases bin_repr hop with ⟨h1, h2, _⟩ | ⟨h1, h2, _⟩ | ⟨h1, h2, _⟩ | ⟨h1, h2, _⟩ | ⟨h1, h2, _⟩ | ⟨h1, h2, _⟩ | ⟨h1, h2, _⟩ <;>
        subst h1 <;> simp_all [Fn2.repr]
    · exact ihb hb hc.2 x hx

theorem Cst.noComma (c : Cst) (h : c.WF Digits) (hc : c.hasComma = false) : ∀ x ∈ c.str, x ≠ ',' := by
  induction c with
  | num l => intro x hx; have := name_ne (Cst.WF.num_chars h x hx); tauto
  | var y => intro x hx; have := name_ne (IsName.chars h x hx); tauto
  | sign sg e ih =>
    obtain ⟨_, hs, _, he⟩ := h
    intro x hx
    simp only [Cst.str, List.mem_append] at hx
    rcases hx with hx | hx
    · rcases sign_cases (hs x hx) with rfl | rfl <;> decide
    · exact ih he hc x hx
  | call f e ih =>
    obtain ⟨h1, h2, _, he⟩ := h
    intro x hx
    simp only [Cst.str, List.mem_append, List.mem_cons, List.not_mem_nil, or_false] at hx
    rcases hx with hx | rfl | hx | rfl
    · have := name_ne (repr1_name f h1 h2 x hx); tauto
    · decide
    · exact ih he hc x hx
    · decide
  | call2 f a b iha ihb => simp [Cst.hasComma] at hc
  | callIf a b c iha ihb ihc => simp [Cst.hasComma] at hc
  | bin op a b iha ihb =>
    obtain ⟨hop, _, _, _, _, _, _, ha, hb⟩ := h
    simp only [Cst.hasComma, Bool.or_eq_false_iff] at hc
    intro x hx
    simp only [Cst.str, List.mem_append] at hx
    rcases hx with (hx | hx) | hx
    · exact iha ha hc.1 x hx
    · rcases bin_repr hop with ⟨h1, h2, _⟩ | ⟨h1, h2, _⟩ | ⟨h1, h2, _⟩ | ⟨h1, h2, _⟩ | ⟨h1, h2, _⟩ | ⟨h1, h2, _⟩ | ⟨h1, h2, _⟩ <;>
        (rw [h2] at hx; simp only [List.mem_singleton] at hx; subst hx; decide)
    · exact ihb hb hc.2 x hx

/-! ## Scanning -/

def Scan.app (st : Scan) (l : List Char) : Scan := { st with cur := st.cur ++ l }

@[simp] theorem Scan.app_lvl (st : Scan) (l : List Char) : (st.app l).lvl = st.lvl := rfl
@[simp] theorem Scan.app_cur (st : Scan) (l : List Char) : (st.app l).cur = st.cur ++ l := rfl
@[simp] theorem Scan.app_app (st : Scan) (l r : List Char) : (st.app l).app r = st.app (l ++ r) := by
  simp [Scan.app]

/-- the brackets -/
structure LevelStep (step : Scan → Char → M Scan) : Prop where
  opn : ∀ st, step st '(' = .ok { st.app ['('] with lvl := st.lvl + 1 }
  cls : ∀ st, step st ')' = .ok { st.app [')'] with lvl := st.lvl - 1 }

theorem fold_chars {step : Scan → Char → M Scan} {l : List Char} {m : Int}
    (h : ∀ c ∈ l, ∀ st : Scan, m ≤ st.lvl → step st c = .ok (st.app [c])) (st : Scan) (hst : m ≤ st.lvl) :
    l.foldlM step st = .ok (st.app l) := by
  induction l generalizing st with
  | nil => simp [Scan.app]; rfl
  | cons c l ih =>
    rw [List.foldlM_cons, h c (by simp) st hst, ok_bind,
      ih (fun x hx => h x (by simp [hx])) (st.app [c]) hst, Scan.app_app]
    rfl

/-- A bracketed text. -/
theorem fold_bracket {step : Scan → Char → M Scan} (hs : LevelStep step) {u v : List Char} {st : Scan}
    (hu : u.foldlM step st = .ok (st.app u))
    (hv : v.foldlM step { st.app (u ++ ['(']) with lvl := st.lvl + 1 } = .ok { st.app (u ++ '(' :: v) with lvl := st.lvl + 1 }) :
    (u ++ '(' :: (v ++ [')'])).foldlM step st = .ok (st.app (u ++ '(' :: (v ++ [')']))) := by
  rw [List.foldlM_app, hu, ok_bind, List.foldlM_cons, hs.opn, ok_bind, Scan.app_app, Scan.app_lvl, List.foldlM_app, hv, ok_bind,
    List.foldlM_cons, hs.cls, ok_bind]
  simp [Scan.app]; rfl

/-- All the characters but the brackets are kept: so is the whole text. -/
theorem fold_walk {step : Scan → Char → M Scan} (hs : LevelStep step) {m : Int} (c : Cst) (h : c.WF Digits)
    (hc : ∀ x ∈ c.str, x ≠ '(' → x ≠ ')' → ∀ st : Scan, m ≤ st.lvl → step st x = .ok (st.app [x])) (st : Scan) (hst : m ≤ st.lvl) :
    c.str.foldlM step st = .ok (st.app c.str) := by
  induction c generalizing st with
  | num l =>
    refine fold_chars (fun x hx => hc x hx ?_ ?_) st hst <;> (have := name_ne (Cst.WF.num_chars h x hx); tauto)
  | var y =>
    refine fold_chars (fun x hx => hc x hx ?_ ?_) st hst <;> (have := name_ne (IsName.chars h x hx); tauto)
  | sign sg e ih =>
    obtain ⟨_, hsg, _, he⟩ := h
    rw [Cst.str, List.foldlM_app,
      fold_chars (m := m) (fun x hx => hc x (by simp [Cst.str, hx]) (by rcases sign_cases (hsg x hx) with rfl | rfl <;> decide)
        (by rcases sign_cases (hsg x hx) with rfl | rfl <;> decide)) st hst, ok_bind,
      ih he (fun x hx => hc x (by simp [Cst.str, hx])) (st.app sg) hst, Scan.app_app]
  | call f e ih =>
    obtain ⟨h1, h2, _, he⟩ := h
    refine fold_bracket hs (fold_chars (m := m) (fun x hx => hc x (by simp [Cst.str, hx]) ?_ ?_) st hst) ?_
    · have := name_ne (repr1_name f h1 h2 x hx); tauto
    · have := name_ne (repr1_name f h1 h2 x hx); tauto
    · rw [ih he (fun x hx => hc x (by simp [Cst.str, hx])) _ (by show m ≤ st.lvl + 1; omega)]
      simp [Scan.app]
  | call2 f a b iha ihb =>
    obtain ⟨h1, _, _, ha, hb⟩ := h
    have e : Cst.str (.call2 f a b) = f.repr ++ '(' :: ((a.str ++ ',' :: b.str) ++ [')']) := by simp [Cst.str]
    rw [e]
    refine fold_bracket hs (fold_chars (m := m) (fun x hx => hc x (by simp [Cst.str, hx]) ?_ ?_) st hst) ?_
    · have := name_ne (repr2_name f h1 x hx); tauto
    · have := name_ne (repr2_name f h1 x hx); tauto
    · rw [List.foldlM_app, iha ha (fun x hx => hc x (by simp [Cst.str, hx])) _ (by show m ≤ st.lvl + 1; omega), ok_bind,
        List.foldlM_cons, hc ',' (by simp [Cst.str]) (by decide) (by decide) _ (by show m ≤ st.lvl + 1; omega), ok_bind,
        ihb hb (fun x hx => hc x (by simp [Cst.str, hx])) _ (by show m ≤ st.lvl + 1; omega)]
      simp [Scan.app]
  | callIf a b c iha ihb ihc =>
    obtain ⟨_, _, _, ha, hb, hcc⟩ := h
    have e : Cst.str (.callIf a b c) = ['i', 'f'] ++ '(' :: ((a.str ++ ',' :: (b.str ++ ',' :: c.str)) ++ [')']) := by simp [Cst.str]
    rw [e]
    refine fold_bracket hs (fold_chars (m := m) (fun x hx => hc x (by rw [e]; exact List.mem_append_left _ hx) ?_ ?_) st hst) ?_
    · simp at hx; rcases hx with rfl | rfl <;> decide
    · simp at hx; rcases hx with rfl | rfl <;> decide
    · rw [List.foldlM_app, iha ha (fun x hx => hc x (by simp [Cst.str, hx])) _ (by show m ≤ st.lvl + 1; omega), ok_bind,
        List.foldlM_cons, hc ',' (by simp [Cst.str]) (by decide) (by decide) _ (by show m ≤ st.lvl + 1; omega), ok_bind,
        List.foldlM_app, ihb hb (fun x hx => hc x (by simp [Cst.str, hx])) _ (by show m ≤ st.lvl + 1; omega), ok_bind,
        List.foldlM_cons, hc ',' (by simp [Cst.str]) (by decide) (by decide) _ (by show m ≤ st.lvl + 1; omega), ok_bind,
        ihc hcc (fun x hx => hc x (by simp [Cst.str, hx])) _ (by show m ≤ st.lvl + 1; omega)]
      simp [Scan.app]
  | bin op a b iha ihb =>
    obtain ⟨hop, _, _, _, _, _, _, ha, hb⟩ := h
    have hb2 : ∀ x ∈ op.repr, x ≠ '(' ∧ x ≠ ')' := by
      intro x hx
      rcases bin_repr hop with ⟨_, h2, _⟩ | ⟨_, h2, _⟩ | ⟨_, h2, _⟩ | ⟨_, h2, _⟩ | ⟨_, h2, _⟩ | ⟨_, h2, _⟩ | ⟨_, h2, _⟩ <;>
        (rw [h2] at hx; simp only [List.mem_singleton] at hx; subst hx; decide)
    rw [Cst.str, List.foldlM_app, List.foldlM_app, iha ha (fun x hx => hc x (by simp [Cst.str, hx])) st hst, ok_bind,
      fold_chars (m := m) (fun x hx => hc x (by simp [Cst.str, hx]) (hb2 x hx).1 (hb2 x hx).2) (st.app a.str) hst, ok_bind,
      ihb hb (fun x hx => hc x (by simp [Cst.str, hx])) ((st.app a.str).app op.repr) hst, Scan.app_app, Scan.app_app]
    simp

/-! ### The four steps -/

theorem scanOther_plain (st : Scan) (c : Char) (h1 : c ≠ '(') (h2 : c ≠ ')') : scanOther st c = st.app [c] := by
  simp [scanOther, h1, h2, Scan.app]

theorem level_cmp : LevelStep stepCmp := ⟨fun st => by simp [stepCmp, scanOther, Scan.app], fun st => by simp [stepCmp, scanOther, Scan.app]⟩
theorem level_add : LevelStep stepAdd := ⟨fun st => by simp [stepAdd, scanOther, Scan.app], fun st => by simp [stepAdd, scanOther, Scan.app]⟩
theorem level_mul : LevelStep stepMul := ⟨fun st => by simp [stepMul, scanOther, Scan.app], fun st => by simp [stepMul, scanOther, Scan.app]⟩
theorem level_pow : LevelStep stepPow := ⟨fun st => by simp [stepPow, scanOther, Scan.app], fun st => by simp [stepPow, scanOther, Scan.app]⟩

theorem stepCmp_plain {c : Char} (h : c ≠ '>' ∧ c ≠ '<') (h1 : c ≠ '(') (h2 : c ≠ ')') (st : Scan) : stepCmp st c = .ok (st.app [c]) := by
  simp [stepCmp, h.1, h.2, scanOther_plain _ _ h1 h2]

theorem stepAdd_in {c : Char} (h1 : c ≠ '(') (h2 : c ≠ ')') (st : Scan) (h : 1 ≤ st.lvl) : stepAdd st c = .ok (st.app [c]) := by
  have : st.lvl ≠ 0 := by omega
  unfold stepAdd; split
  · simp [this, Scan.app]
  · rw [scanOther_plain _ _ h1 h2]

theorem stepMul_in {c : Char} (h1 : c ≠ '(') (h2 : c ≠ ')') (st : Scan) (h : 1 ≤ st.lvl) : stepMul st c = .ok (st.app [c]) := by
  have : st.lvl ≠ 0 := by omega
  unfold stepMul; split
  · simp [this, Scan.app]
  · rw [scanOther_plain _ _ h1 h2]

theorem stepPow_in {c : Char} (h1 : c ≠ '(') (h2 : c ≠ ')') (st : Scan) (h : 1 ≤ st.lvl) : stepPow st c = .ok (st.app [c]) := by
  have : st.lvl ≠ 0 := by omega
  unfold stepPow; split
  · simp [this, Scan.app]
  · rw [scanOther_plain _ _ h1 h2]

/-- A step which keeps everything between brackets. -/
structure InsideTxt (step : Scan → Char → M Scan) : Prop extends LevelStep step where
  ins : ∀ c, c ≠ '(' → c ≠ ')' → ∀ st : Scan, 1 ≤ st.lvl → step st c = .ok (st.app [c])
  plain : ∀ c, isNameChar c = true → ∀ st : Scan, step st c = .ok (st.app [c])

theorem insideTxt_add : InsideTxt stepAdd := ⟨level_add, fun c h1 h2 st h => stepAdd_in h1 h2 st h, fun c h st => by
  have := name_ne h
  simp only [stepAdd, this, or_self, if_false]; rw [scanOther_plain _ _ (by tauto) (by tauto)]⟩
theorem inside_mul : InsideTxt stepMul := ⟨level_mul, fun c h1 h2 st h => stepMul_in h1 h2 st h, fun c h st => by
  have := name_ne h
  simp only [stepMul, this, or_self, if_false]; rw [scanOther_plain _ _ (by tauto) (by tauto)]⟩
theorem inside_pow : InsideTxt stepPow := ⟨level_pow, fun c h1 h2 st h => stepPow_in h1 h2 st h, fun c h st => by
  have := name_ne h
  simp only [stepPow, this, if_false]; rw [scanOther_plain _ _ (by tauto) (by tauto)]⟩

/-- What is between brackets. -/
theorem fold_in {step : Scan → Char → M Scan} (hs : InsideTxt step) (c : Cst) (h : c.WF Digits) (st : Scan) (hst : 1 ≤ st.lvl) :
    c.str.foldlM step st = .ok (st.app c.str) :=
  fold_walk hs.toLevelStep c h (fun x _ h1 h2 st h => hs.ins x h1 h2 st h) st hst

/-- Expressions without operator and sign outside brackets. -/
theorem fold_prim {step : Scan → Char → M Scan} (hs : InsideTxt step) (c : Cst) (h : c.WF Digits) (h0 : c.lvl = 0) (st : Scan)
    (hst : 0 ≤ st.lvl) : c.str.foldlM step st = .ok (st.app c.str) := by
  have hpl : ∀ l : List Char, (∀ x ∈ l, isNameChar x = true) → l.foldlM step st = .ok (st.app l) := fun l hl =>
    fold_chars (m := st.lvl) (fun x hx st _ => hs.plain x (hl x hx) st) st (Int.le_refl _)
  cases c with
  | num l => exact hpl _ (Cst.WF.num_chars h)
  | var y => exact hpl _ (IsName.chars h)
  | sign sg e => simp [Cst.lvl] at h0
  | call f e =>
    obtain ⟨h1, h2, _, he⟩ := h
    refine fold_bracket hs.toLevelStep (hpl _ (repr1_name f h1 h2)) ?_
    rw [fold_in hs e he _ (by show 1 ≤ st.lvl + 1; omega)]
    simp [Scan.app]
  | call2 f a b =>
    obtain ⟨h1, _, _, ha, hb⟩ := h
    have e : Cst.str (.call2 f a b) = f.repr ++ '(' :: ((a.str ++ ',' :: b.str) ++ [')']) := by simp [Cst.str]
    rw [e]
    refine fold_bracket hs.toLevelStep (hpl _ (repr2_name f h1)) ?_
    rw [List.foldlM_app, fold_in hs a ha _ (by show 1 ≤ st.lvl + 1; omega), ok_bind,
        List.foldlM_cons, hs.ins ',' (by decide) (by decide) _ (by show 1 ≤ st.lvl + 1; omega), ok_bind,
        fold_in hs b hb _ (by show 1 ≤ st.lvl + 1; omega)]
    simp [Scan.app]
  | callIf a b c =>
    obtain ⟨_, _, _, ha, hb, hcc⟩ := h
    have e : Cst.str (.callIf a b c) = ['i', 'f'] ++ '(' :: ((a.str ++ ',' :: (b.str ++ ',' :: c.str)) ++ [')']) := by simp [Cst.str]
    rw [e]
    refine fold_bracket hs.toLevelStep (hpl _ (by decide)) ?_
    rw [List.foldlM_app, fold_in hs a ha _ (by show 1 ≤ st.lvl + 1; omega), ok_bind,
        List.foldlM_cons, hs.ins ',' (by decide) (by decide) _ (by show 1 ≤ st.lvl + 1; omega), ok_bind,
        List.foldlM_app, fold_in hs b hb _ (by show 1 ≤ st.lvl + 1; omega), ok_bind,
        List.foldlM_cons, hs.ins ',' (by decide) (by decide) _ (by show 1 ≤ st.lvl + 1; omega), ok_bind,
        fold_in hs c hcc _ (by show 1 ≤ st.lvl + 1; omega)]
    simp [Scan.app]
  | bin op a b =>
    have := h.1; simp [Cst.lvl] at h0; omega

theorem signable_lvl {e : Cst} (h : e.signable = true) : e.lvl = 0 := by
  cases e <;> simp_all [Cst.signable, Cst.lvl]

/-- operands for `*`, `/` and `^` -/
theorem fold_quiet {step : Scan → Char → M Scan} (hs : InsideTxt step) {L : Nat}
    (hq : ∀ c, isSign c = true ∨ (c = '^' ∧ 2 < L) → ∀ st : Scan, step st c = .ok (st.app [c])) (hL : L ≤ 3)
    (c : Cst) (h : c.WF Digits) (h0 : c.lvl < L) (st : Scan)
    (hst : 0 ≤ st.lvl) : c.str.foldlM step st = .ok (st.app c.str) := by
  induction c generalizing st with
  | sign sg e ih =>
    obtain ⟨_, hsg, hse, he⟩ := h
    rw [Cst.str, List.foldlM_app, fold_chars (m := 0) (fun x hx st _ => hq x (Or.inl (hsg x hx)) st) st hst, ok_bind,
      fold_prim hs e he (signable_lvl hse) (st.app sg) hst, Scan.app_app]
  | bin op a b iha ihb =>
    obtain ⟨hop, hal, hbl, _, _, _, _, ha, hb⟩ := h
    simp only [Cst.lvl] at h0
    have hr : op.repr = ['^'] ∧ op.lvl = 2 := by
      rcases bin_repr hop with ⟨_, h2, h3⟩ | ⟨_, h2, h3⟩ | ⟨_, h2, h3⟩ | ⟨_, h2, h3⟩ | ⟨_, h2, h3⟩ | ⟨_, h2, h3⟩ | ⟨_, h2, h3⟩ <;>
        first | exact ⟨h2, h3⟩ | omega
    rw [Cst.str, List.foldlM_app, List.foldlM_app, iha ha (by omega) st hst, ok_bind, hr.1, List.foldlM_cons,
      hq '^' (Or.inr ⟨rfl, by omega⟩), ok_bind]
    show b.str.foldlM step ((st.app a.str).app ['^']) = _
    rw [ihb hb (by omega) _ (by exact hst)]
    simp
  | _ => exact fold_prim hs _ h rfl st hst

theorem stepAdd_op {c : Char} (h : c = '*' ∨ c = '/' ∨ c = '^') (st : Scan) : stepAdd st c = .ok (st.app [c]) := by
  rcases h with rfl | rfl | rfl <;> simp [stepAdd, scanOther, Scan.app]

/-- where a sign is not taken as an operator -/
def SignReady (st : Scan) (c : Cst) : Prop :=
  c.leadSigns = 0 ∨ (c.leadSigns = 1 ∧ (st.cur = [] ∨ ∃ pre a, st.cur = pre ++ [a] ∧ (a = '*' ∨ a = '/' ∨ a = '^')))

theorem stepAdd_sign {c : Char} (h : isSign c = true) (st : Scan)
    (hr : st.cur = [] ∨ ∃ pre a, st.cur = pre ++ [a] ∧ (a = '*' ∨ a = '/' ∨ a = '^')) : stepAdd st c = .ok (st.app [c]) := by
  have hc := sign_cases h
  unfold stepAdd
  rw [if_pos hc]
  split
  · rfl
  · rcases hr with hr | ⟨pre, a, hr, ha⟩
    · simp [hr, Scan.app]
    · rw [hr]
      have : ¬ (a ≠ '*' ∧ a ≠ '/' ∧ a ≠ '^') := by tauto
      simp only [List.getLast?_append, List.getLast?_singleton, Option.some_or, if_neg this]
      simp [Scan.app, hr]

theorem leadSigns_prim {c : Cst} (h : c.lvl = 0) (hw : c.WF Digits) : c.leadSigns = 0 := by
  cases c with
  | sign => simp [Cst.lvl] at h
  | bin op a b => have := hw.1; simp [Cst.lvl] at h; omega
  | _ => rfl

/-- operands for `+` and `-` -/
theorem fold_addOperand (c : Cst) (h : c.WF Digits) (h0 : c.lvl < 4) (st : Scan) (hr : SignReady st c)
    (hst : 0 ≤ st.lvl) : c.str.foldlM stepAdd st = .ok (st.app c.str) := by
  induction c generalizing st with
  | sign sg e ih =>
    obtain ⟨hne, hsg, hse, he⟩ := h
    have hr' : sg.length = 1 ∧ (st.cur = [] ∨ ∃ pre a, st.cur = pre ++ [a] ∧ (a = '*' ∨ a = '/' ∨ a = '^')) := by
      rcases hr with hr | hr
      · exact absurd (List.length_eq_zero_iff.1 hr) hne
      · exact hr
    obtain ⟨s, rfl⟩ := List.length_eq_one_iff.1 hr'.1
    rw [Cst.str, List.singleton_append, List.foldlM_cons, stepAdd_sign (hsg s (by simp)) st hr'.2, ok_bind,
      fold_prim insideTxt_add e he (signable_lvl hse) (st.app [s]) hst, Scan.app_app]
    rfl
  | bin op a b iha ihb =>
    obtain ⟨hop, hal, hbl, has, hbs, _, _, ha, hb⟩ := h
    simp only [Cst.lvl] at h0
    obtain ⟨o, hr1, ho⟩ : ∃ o, op.repr = [o] ∧ (o = '*' ∨ o = '/' ∨ o = '^') := by
      rcases bin_repr hop with ⟨_, h2, h3⟩ | ⟨_, h2, h3⟩ | ⟨_, h2, h3⟩ | ⟨_, h2, h3⟩ | ⟨_, h2, h3⟩ | ⟨_, h2, h3⟩ | ⟨_, h2, h3⟩ <;>
        first | (exact ⟨_, h2, by decide⟩) | omega
    have hra : SignReady st a := hr
    rw [Cst.str, List.foldlM_app, List.foldlM_app, iha ha (by omega) st hra hst, ok_bind, hr1, List.foldlM_cons,
      stepAdd_op ho, ok_bind]
    show b.str.foldlM stepAdd ((st.app a.str).app [o]) = _
    rw [ihb hb (by omega) _ ?_ (by exact hst)]
    · simp
    · rcases Nat.lt_or_ge b.leadSigns 1 with hb1 | hb1
      · exact Or.inl (by omega)
      · exact Or.inr ⟨by omega, Or.inr ⟨st.cur ++ a.str, o, by simp, ho⟩⟩
  | _ => exact fold_prim insideTxt_add _ h rfl st hst

/-! ### Chains of operators -/

/-- The operands and operators of a chain of operators of a same precedence: first operands, operators, last operand. -/
def Cst.spine (L : Nat) : Cst → List Cst × List Fn × Cst
  | .bin op a b => if op.lvl = L then ((a.spine L).1 ++ [(a.spine L).2.2], (a.spine L).2.1 ++ [.f2 op], b) else ([], [], .bin op a b)
  | c => ([], [], c)

theorem spine_of_ne {L : Nat} {c : Cst} (h : c.lvl ≠ L) : c.spine L = ([], [], c) := by
  cases c with
  | bin op a b => simp only [Cst.lvl] at h; simp [Cst.spine, h]
  | _ => rfl

theorem buildBinary_repr (op : Fn2) : buildBinary op.repr = .ok (.f2 op) := by cases op <;> rfl

/-- What is asked from a scanning step for the operators of precedence `L`. -/
structure Cutter (step : Scan → Char → M Scan) (L : Nat) : Prop where
  cut : ∀ (op : Fn2) (o : Char), op.lvl = L → op.repr = [o] → ∀ (st : Scan) (pre : List Char) (a : Char), st.lvl = 0 → st.cur = pre ++ [a] →
    (isNameChar a = true ∨ a = ')') → step st o = scanCut st o
  operand : ∀ c : Cst, c.WF Digits → c.lvl < L → c.leadSigns ≤ 1 → c.hasCmp = false → ∀ st : Scan, st.lvl = 0 → st.cur = [] →
    c.str.foldlM step st = .ok (st.app c.str)

theorem cutter_cmp : Cutter stepCmp 5 := by
  constructor
  · intro op o hl hr st pre a hlv hc ha
    have : o = '>' ∨ o = '<' := by cases op <;> simp [Fn2.lvl] at hl <;> simp [Fn2.repr] at hr <;> simp [← hr]
    simp [stepCmp, this, hc]
  · intro c h _ _ hc st hst _
    exact fold_walk (m := 0) level_cmp c h (fun x hx h1 h2 st _ => stepCmp_plain (c.noCmp h hc x hx) h1 h2 st) st (by omega)

theorem cutter_add : Cutter stepAdd 4 := by
  constructor
  · intro op o hl hr st pre a hlv hc ha
    have : o = '+' ∨ o = '-' := by cases op <;> simp [Fn2.lvl] at hl <;> simp [Fn2.repr] at hr <;> simp [← hr]
    have ha' : a ≠ '*' ∧ a ≠ '/' ∧ a ≠ '^' := by
      rcases ha with ha | rfl
      · have := name_ne ha; tauto
      · decide
    simp [stepAdd, this, hc, hlv, ha']
  · intro c h hl hs _ st hst hcur
    refine fold_addOperand c h hl st ?_ (by omega)
    rcases Nat.lt_or_ge c.leadSigns 1 with hb1 | hb1
    · exact Or.inl (by omega)
    · exact Or.inr ⟨by omega, Or.inl hcur⟩

theorem cutter_mul : Cutter stepMul 3 := by
  constructor
  · intro op o hl hr st pre a hlv hc ha
    have : o = '/' ∨ o = '*' := by cases op <;> simp [Fn2.lvl] at hl <;> simp [Fn2.repr] at hr <;> simp [← hr]
    simp [stepMul, this, hc, hlv]
  · intro c h hl hs _ st hst hcur
    refine fold_quiet inside_mul (L := 3) ?_ (by omega) c h hl st (by omega)
    rintro c (hc | ⟨rfl, _⟩) st
    · rcases sign_cases hc with rfl | rfl <;> simp [stepMul, scanOther, Scan.app]
    · simp [stepMul, scanOther, Scan.app]

theorem cutter_pow : Cutter stepPow 2 := by
  constructor
  · intro op o hl hr st pre a hlv hc ha
    have : o = '^' := by cases op <;> simp [Fn2.lvl] at hl <;> simp [Fn2.repr] at hr <;> simp [← hr]
    simp [stepPow, this, hc, hlv]
  · intro c h hl hs _ st hst hcur
    refine fold_quiet inside_pow (L := 2) ?_ (by omega) c h hl st (by omega)
    rintro c (hc | ⟨rfl, hl⟩) st
    · rcases sign_cases hc with rfl | rfl <;> simp [stepPow, scanOther, Scan.app]
    · omega

/-- The state at the end of a chain. -/
theorem fold_chain {step : Scan → Char → M Scan} {L : Nat} (hk : Cutter step L) (hL : 2 ≤ L) (hL5 : L ≤ 5) (c : Cst) (h : c.WF Digits) (hl : c.lvl ≤ L)
    (hs : c.leadSigns ≤ 1) (hc : c.lvl = 5 ∨ c.hasCmp = false) (h5 : L < 5 → c.hasCmp = false) :
    c.str.foldlM step Scan.init =
      .ok ⟨0, (c.spine L).2.2.str, (c.spine L).1.map Cst.str, (c.spine L).2.1, decide (c.lvl = L)⟩ := by
  induction c with
  | bin op a b iha _ =>
    obtain ⟨hop, hal, hbl, has, hbs, hac, hbc, ha, hb⟩ := h
    simp only [Cst.lvl] at hl
    by_cases hopL : op.lvl = L
    · have hac' : L < 5 → a.hasCmp = false := by
        intro h5'
        rcases hac with hac | hac
        · omega
        · exact hac
      have ihA := iha ha (by omega) has hac hac'
      obtain ⟨o, ho⟩ : ∃ o, op.repr = [o] := by
        rcases bin_repr hop with ⟨_, h2, _⟩ | ⟨_, h2, _⟩ | ⟨_, h2, _⟩ | ⟨_, h2, _⟩ | ⟨_, h2, _⟩ | ⟨_, h2, _⟩ | ⟨_, h2, _⟩ <;> exact ⟨_, h2⟩
      have hlast : (a.spine L).2.2.WF Digits := by
        by_cases haL : a.lvl = L
        · cases a with
          | bin op' a' b' =>
            simp only [Cst.lvl] at haL
            simp only [Cst.spine, haL, if_true]
            exact ha.2.2.2.2.2.2.2.2
          | _ => exact ha
        · rw [spine_of_ne haL]; exact ha
      obtain ⟨pre, x, hx, hx'⟩ := Cst.str_last _ hlast
      rw [Cst.str, List.foldlM_app, List.foldlM_app, ihA, ok_bind, ho, List.foldlM_cons,
        hk.cut op o hopL ho _ pre x rfl hx hx']
      unfold scanCut
      rw [← ho, buildBinary_repr]
      show b.str.foldlM step _ = _
      rw [hk.operand b hb (by omega) hbs hbc _ rfl rfl]
      simp [Scan.app, Cst.spine, hopL, Cst.lvl]
    · have hw : (Cst.bin op a b).WF Digits := ⟨hop, hal, hbl, has, hbs, hac, hbc, ha, hb⟩
      have hlt : (Cst.bin op a b).lvl < L := by simp only [Cst.lvl]; omega
      rw [hk.operand _ hw hlt hs (by rcases hc with hc | hc; simp only [Cst.lvl] at hc; exact h5 (by omega); exact hc) _ rfl rfl, spine_of_ne (by simpa [Cst.lvl] using hopL)]
      simp [Scan.app, Scan.init, Cst.lvl, hopL]
  | _ =>
    have hlt : ∀ d : Cst, d.lvl < L → d.WF Digits → d.leadSigns ≤ 1 → (d.lvl = 5 ∨ d.hasCmp = false) → (L < 5 → d.hasCmp = false) →
        d.str.foldlM step Scan.init =
        .ok ⟨0, (d.spine L).2.2.str, (d.spine L).1.map Cst.str, (d.spine L).2.1, decide (d.lvl = L)⟩ := by
      intro d hd hw hs hc h5
      rw [hk.operand d hw hd hs (by rcases hc with hc | hc; exact h5 (by omega); exact hc) _ rfl rfl, spine_of_ne (by omega)]
      have : d.lvl ≠ L := by omega
      simp [Scan.app, Scan.init, this]
    exact hlt _ (by simp only [Cst.lvl]; omega) h hs hc h5

end MC
