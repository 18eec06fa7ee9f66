import Verif.ExprScan

/-!
# The parser on well written texts: the tree has the shape of the expression
-/

namespace MC
variable {V : Type}

theorem mapM_ok' {α β : Type} {f : α → M β} {g : α → β} {l : List α} (h : ∀ x ∈ l, f x = .ok (g x)) : l.mapM f = .ok (l.map g) := by
  induction l with
  | nil => rfl
  | cons a l ih =>
    rw [List.mapM_cons, h a (by simp), ok_bind, ih (fun x hx => h x (by simp [hx])), ok_bind]
    rfl

/-! ## Brackets -/

inductive Balanced : List Char → Prop
  | chars (l : List Char) : (∀ c ∈ l, c ≠ '(' ∧ c ≠ ')') → Balanced l
  | app {u v : List Char} : Balanced u → Balanced v → Balanced (u ++ v)
  | brk {v : List Char} : Balanced v → Balanced ('(' :: (v ++ [')']))

theorem findOpenGo_chars (l r : List Char) (lvl : Nat) (h : ∀ c ∈ l, c ≠ '(' ∧ c ≠ ')') :
    findOpenGo (l ++ r) lvl = findOpenGo r lvl := by
  induction l with
  | nil => rfl
  | cons c l ih =>
    have := h c (by simp)
    simp only [List.cons_append, findOpenGo, this.1, this.2, if_false]
    exact ih (fun x hx => h x (by simp [hx]))

theorem Balanced.skip {v : List Char} (h : Balanced v) : ∀ (r : List Char) (lvl : Nat), findOpenGo (v.reverse ++ r) lvl = findOpenGo r lvl := by
  induction h with
  | chars l hl => intro r lvl; exact findOpenGo_chars _ _ _ (fun c hc => hl c (by simpa using hc))
  | app _ _ ihu ihv => intro r lvl; rw [List.reverse_append, List.append_assoc, ihv, ihu]
  | brk _ ih =>
    intro r lvl
    simp only [List.reverse_cons, List.reverse_append, List.reverse_nil, List.nil_append, List.singleton_append, List.cons_append,
      List.append_assoc, findOpenGo, if_true]
    rw [ih]
    simp [findOpenGo]

theorem bracketsGo_chars (l r : List Char) (lvl : Nat) (h : ∀ c ∈ l, c ≠ '(' ∧ c ≠ ')') :
    bracketsGo (l ++ r) lvl = bracketsGo r lvl := by
  induction l with
  | nil => rfl
  | cons c l ih =>
    have := h c (by simp)
    simp only [List.cons_append, bracketsGo, this.1, this.2, if_false]
    exact ih (fun x hx => h x (by simp [hx]))

theorem Balanced.go {v : List Char} (h : Balanced v) : ∀ (r : List Char) (lvl : Nat), bracketsGo (v ++ r) lvl = bracketsGo r lvl := by
  induction h with
  | chars l hl => intro r lvl; exact bracketsGo_chars _ _ _ hl
  | app _ _ ihu ihv => intro r lvl; rw [List.append_assoc, ihu, ihv]
  | brk _ ih =>
    intro r lvl
    simp only [List.singleton_append, List.cons_append, List.append_assoc, bracketsGo, if_true]
    rw [ih]
    simp [bracketsGo]

theorem Balanced.names {l : List Char} (h : ∀ c ∈ l, isNameChar c = true) : Balanced l :=
  .chars l (fun c hc => by have := name_ne (h c hc); tauto)

theorem Balanced.cons {c : Char} {l : List Char} (h : c ≠ '(' ∧ c ≠ ')') (hl : Balanced l) : Balanced (c :: l) :=
  .app (u := [c]) (.chars [c] (by simpa using h)) hl

theorem bin_not_bracket {op : Fn2} (h : 2 ≤ op.lvl) : ∀ x ∈ op.repr, x ≠ '(' ∧ x ≠ ')' := by
  intro x hx
  rcases bin_repr h with ⟨_, h2, _⟩ | ⟨_, h2, _⟩ | ⟨_, h2, _⟩ | ⟨_, h2, _⟩ | ⟨_, h2, _⟩ | ⟨_, h2, _⟩ | ⟨_, h2, _⟩ <;>
    (rw [h2] at hx; simp only [List.mem_singleton] at hx; subst hx; decide)

theorem bin_op7 {op : Fn2} (h : 2 ≤ op.lvl) : ∃ o, op.repr = [o] ∧ isOp7 o = true := by
  rcases bin_repr h with ⟨_, h2, _⟩ | ⟨_, h2, _⟩ | ⟨_, h2, _⟩ | ⟨_, h2, _⟩ | ⟨_, h2, _⟩ | ⟨_, h2, _⟩ | ⟨_, h2, _⟩ <;>
    exact ⟨_, h2, by decide⟩

theorem sign_not_bracket {sg : List Char} (h : ∀ c ∈ sg, isSign c = true) : ∀ c ∈ sg, c ≠ '(' ∧ c ≠ ')' := by
  intro c hc
  rcases sign_cases (h c hc) with rfl | rfl <;> decide

theorem Cst.balanced (c : Cst) (h : c.WF Digits) : Balanced c.str := by
  induction c with
  | num l => exact .names (Cst.WF.num_chars h)
  | var x => exact .names (IsName.chars h)
  | sign sg e ih =>
    obtain ⟨_, hsg, _, he⟩ := h
    exact .app (.chars _ (sign_not_bracket hsg)) (ih he)
  | call f e ih =>
    obtain ⟨h1, h2, _, he⟩ := h
    exact .app (.names (repr1_name f h1 h2)) (.brk (ih he))
  | call2 f a b iha ihb =>
    obtain ⟨h1, _, _, ha, hb⟩ := h
    have e : Cst.str (.call2 f a b) = f.repr ++ '(' :: ((a.str ++ ',' :: b.str) ++ [')']) := by simp [Cst.str]
    rw [e]
    exact .app (.names (repr2_name f h1)) (.brk (.app (iha ha) (.cons (by decide) (ihb hb))))
  | callIf a b c iha ihb ihc =>
    obtain ⟨_, _, _, ha, hb, hc⟩ := h
    have e : Cst.str (.callIf a b c) = ['i', 'f'] ++ '(' :: ((a.str ++ ',' :: (b.str ++ ',' :: c.str)) ++ [')']) := by simp [Cst.str]
    rw [e]
    exact .app (.chars _ (by decide)) (.brk (.app (iha ha) (.cons (by decide) (.app (ihb hb) (.cons (by decide) (ihc hc))))))
  | bin op a b iha ihb =>
    obtain ⟨hop, _, _, _, _, _, _, ha, hb⟩ := h
    exact .app (.app (iha ha) (.chars _ (bin_not_bracket hop))) (ihb hb)

theorem Cst.brackets (c : Cst) (h : c.WF Digits) : bracketsGo c.str 0 = .ok () := by
  have := (c.balanced h).go [] 0
  rw [List.append_nil] at this
  rw [this]; rfl

/-- when the text ends by a bracket -/
theorem Cst.lastClose (c : Cst) (h : c.WF Digits) (hl : c.str.getLast? = some ')') :
    ∃ u v, c.str = u ++ '(' :: (v ++ [')']) ∧ Balanced v := by
  induction c with
  | num l =>
    have := Cst.WF.num_chars h ')' (List.mem_of_getLast? hl)
    exact absurd this (by decide)
  | var x =>
    have := IsName.chars h ')' (List.mem_of_getLast? hl)
    exact absurd this (by decide)
  | sign sg e ih =>
    obtain ⟨_, hsg, _, he⟩ := h
    obtain ⟨pre, a, hp, _⟩ := e.str_last he
    rw [Cst.str, hp, ← List.append_assoc, List.getLast?_concat] at hl
    obtain ⟨u, v, huv, hv⟩ := ih he (by rw [hp, List.getLast?_concat]; exact hl)
    exact ⟨sg ++ u, v, by rw [Cst.str, huv]; simp, hv⟩
  | call f e ih => exact ⟨f.repr, e.str, rfl, e.balanced h.2.2.2⟩
  | call2 f a b iha ihb =>
    obtain ⟨h1, _, _, ha, hb⟩ := h
    exact ⟨f.repr, a.str ++ ',' :: b.str, by simp [Cst.str], .app (a.balanced ha) (.cons (by decide) (b.balanced hb))⟩
  | callIf a b c iha ihb ihc =>
    obtain ⟨_, _, _, ha, hb, hc⟩ := h
    exact ⟨['i', 'f'], a.str ++ ',' :: (b.str ++ ',' :: c.str), by simp [Cst.str],
      .app (a.balanced ha) (.cons (by decide) (.app (b.balanced hb) (.cons (by decide) (c.balanced hc))))⟩
  | bin op a b iha ihb =>
    obtain ⟨hop, _, _, _, _, _, _, ha, hb⟩ := h
    obtain ⟨pre, x, hp, _⟩ := b.str_last hb
    rw [Cst.str, hp, ← List.append_assoc, List.getLast?_concat] at hl
    obtain ⟨u, v, huv, hv⟩ := ihb hb (by rw [hp, List.getLast?_concat]; exact hl)
    exact ⟨a.str ++ op.repr ++ u, v, by rw [Cst.str, huv]; simp, hv⟩

theorem findOpen_eq {u v : List Char} (hv : Balanced v) : findOpen (u ++ '(' :: (v ++ [')'])) = some u.length := by
  have : (u ++ '(' :: (v ++ [')'])).dropLast.reverse = v.reverse ++ '(' :: u.reverse := by
    have e : u ++ '(' :: (v ++ [')']) = (u ++ '(' :: v) ++ [')'] := by simp
    rw [e, List.dropLast_concat]; simp
  rw [findOpen, this, hv.skip]
  simp [findOpenGo]

theorem findFromPos_first {p : Char → Bool} {u r : List Char} {c : Char} (hu : ∀ x ∈ u, p x = false) (hc : p c = true) :
    findFromPos p (u ++ c :: r) 0 = some u.length := by
  have h1 : (u ++ c :: r).any p = true := by simp [hc]
  have h2 : (u ++ c :: r).findIdx p = u.length := by
    rw [List.findIdx_append]
    have : ¬ u.findIdx p < u.length := by
      rw [List.findIdx_lt_length]; rintro ⟨x, hx, hx'⟩; simp [hu x hx] at hx'
    rw [if_neg this, List.findIdx_cons, hc]; simp
  unfold findFromPos
  rw [List.drop_zero, if_pos h1, h2, Nat.zero_add]

/-! ## Commas -/

theorem splitComma_none {l : List Char} (h : ∀ c ∈ l, c ≠ ',') : splitComma l = [l] := by
  induction l with
  | nil => rfl
  | cons c l ih =>
    rw [splitComma, if_neg (h c (by simp)), ih (fun x hx => h x (by simp [hx]))]

theorem splitComma_append {l r : List Char} (h : ∀ c ∈ l, c ≠ ',') : splitComma (l ++ ',' :: r) = l :: splitComma r := by
  induction l with
  | nil => simp [splitComma]
  | cons c l ih =>
    rw [List.cons_append, splitComma, if_neg (h c (by simp)), ih (fun x hx => h x (by simp [hx]))]

theorem count_none {l : List Char} (h : ∀ c ∈ l, c ≠ ',') : l.count ',' = 0 :=
  List.count_eq_zero.2 (fun hm => h _ hm rfl)

/-! ## The tree of an expression -/

def leafFns (sg : List Char) : List Fn := if sg.count '-' % 2 ≠ 0 then [.f1 .negate] else []
def signFns (sg : List Char) : List Fn := sg.map (fun c => if c = '-' then .f1 .negate else .f1 .positive)

def PExpr.signed {L : Type} (sg : List Char) : PExpr L → PExpr L
  | .leaf l _ => .leaf l (leafFns sg)
  | .node subs _ => .node subs (signFns sg)

def PExpr.snoc {L : Type} : PExpr L → Fn → PExpr L → PExpr L
  | .leaf l fs, _, _ => .leaf l fs
  | .node subs fs, f, t => .node (subs ++ [t]) (fs ++ [f])

/-- The tree which the parser makes: the operators of a same precedence are in a same node. -/
def Cst.tree (lit : List Char → V) : Cst → PExpr (Leaf V)
  | .num l => .leaf (.val (lit l)) []
  | .var x => .leaf (.var x) []
  | .sign sg e => (e.tree lit).signed sg
  | .call f e => .node [e.tree lit] (if f = .identity then [] else [.f1 f])
  | .call2 f a b => .node [a.tree lit, b.tree lit] [.f2 f]
  | .callIf a b c => .node [a.tree lit, b.tree lit, c.tree lit] [.ifte]
  | .bin op a b => if a.lvl = op.lvl then (a.tree lit).snoc (.f2 op) (b.tree lit) else .node [a.tree lit, b.tree lit] [.f2 op]

theorem lvl_bin (op : Fn2) (a b : Cst) : (Cst.bin op a b).lvl = op.lvl := rfl

theorem tree_spine (lit : List Char → V) {c : Cst} {op : Fn2} {a b : Cst} (h : c = .bin op a b) (hw : c.WF Digits) :
    c.tree lit = .node (((c.spine c.lvl).1 ++ [(c.spine c.lvl).2.2]).map (Cst.tree lit)) (c.spine c.lvl).2.1 := by
  induction c generalizing op a b with
  | bin op' a' b' iha _ =>
    obtain ⟨hop, hal, hbl, has, hbs, hac, hbc, ha, hb⟩ := hw
    simp only [lvl_bin, Cst.spine, if_true, Cst.tree]
    by_cases hl : a'.lvl = op'.lvl
    · rw [if_pos hl]
      cases a' with
      | bin op2 a2 b2 =>
        have := iha rfl ha
        rw [hl] at this
        rw [this]
        show PExpr.node (_ ++ [_]) (_ ++ [_]) = _
        rw [List.map_append (l₂ := [b'])]
        rfl
      | sign => simp only [Cst.lvl] at hl; omega
      | _ => simp only [Cst.lvl] at hl; omega
    · rw [if_neg hl, spine_of_ne hl]
      simp
  | _ => simp at h

theorem spine_mem {c : Cst} {op : Fn2} {a b : Cst} (h : c = .bin op a b) (hw : c.WF Digits) :
    ∀ d ∈ (c.spine c.lvl).1 ++ [(c.spine c.lvl).2.2], d.WF Digits ∧ d.str.length < c.str.length := by
  induction c generalizing op a b with
  | bin op' a' b' iha _ =>
    obtain ⟨hop, hal, hbl, has, hbs, hac, hbc, ha, hb⟩ := hw
    have hne := List.length_pos_iff.2 (a'.str_ne ha)
    have hop1 : 0 < op'.repr.length := by cases op' <;> simp [Fn2.repr]
    simp only [lvl_bin, Cst.spine, if_true]
    intro d hd
    rw [List.mem_append, List.mem_singleton] at hd
    rcases hd with hd | rfl
    · by_cases hl : a'.lvl = op'.lvl
      · cases a' with
        | bin op2 a2 b2 =>
          rw [← hl] at hd
          have := iha rfl ha d hd
          refine ⟨this.1, ?_⟩
          have h2 := this.2
          rw [Cst.str]
          simp only [List.length_append]
          omega
        | sign => simp only [Cst.lvl] at hl; omega
        | _ => simp only [Cst.lvl] at hl; omega
      · rw [spine_of_ne hl] at hd
        simp only [List.nil_append, List.mem_singleton] at hd
        subst hd
        exact ⟨ha, by rw [Cst.str]; simp only [List.length_append]; omega⟩
    · exact ⟨hb, by rw [Cst.str]; simp only [List.length_append]; omega⟩
  | _ => simp at h

/-! ## Leaves -/

theorem takeWhile_all {p : Char → Bool} {l : List Char} (h : ∀ c ∈ l, p c = true) : l.takeWhile p = l := by
  induction l with
  | nil => rfl
  | cons c l ih => rw [List.takeWhile_cons, if_pos (h c (by simp)), ih (fun x hx => h x (by simp [hx]))]

theorem dropWhile_all {p : Char → Bool} {l : List Char} (h : ∀ c ∈ l, p c = true) : l.dropWhile p = [] := by
  induction l with
  | nil => rfl
  | cons c l ih => rw [List.dropWhile_cons, if_pos (h c (by simp)), ih (fun x hx => h x (by simp [hx]))]

theorem dropWhile_stop {p : Char → Bool} {l : List Char} (h : ∀ c, l.head? = some c → p c = false) : l.dropWhile p = l := by
  cases l with
  | nil => rfl
  | cons c l => rw [List.dropWhile_cons, h c rfl]; rfl

theorem takeWhile_stop {p : Char → Bool} {l : List Char} (h : ∀ c, l.head? = some c → p c = false) : l.takeWhile p = [] := by
  cases l with
  | nil => rfl
  | cons c l => rw [List.takeWhile_cons, h c rfl]; rfl

theorem fig_not_white {c : Char} (h : isFig c = true) : c.isWhitespace = false := by
  cases hw : c.isWhitespace with
  | false => rfl
  | true =>
    exfalso
    simp only [Char.isWhitespace, Bool.or_eq_true, decide_eq_true_eq] at hw
    rcases hw with ((rfl | rfl) | rfl) | rfl <;> revert h <;> decide

theorem fig_not_sign {c : Char} (h : isFig c = true) : isSign c = false := name_sign (fig_name h)

theorem readDouble_digits {l : List Char} (h : Digits l) : readDouble l = some (true, l) := by
  obtain ⟨hne, hd⟩ := h
  cases l with
  | nil => simp at hne
  | cons c l =>
    have hc := hd c (by simp)
    have h1 : (c :: l).dropWhile Char.isWhitespace = c :: l := dropWhile_stop (by rintro _ ⟨⟩; exact fig_not_white hc)
    have h2 : (c :: l).takeWhile isSign = [] := takeWhile_stop (by rintro _ ⟨⟩; exact fig_not_sign hc)
    unfold readDouble
    simp only [h1, h2, List.take_nil, List.length_nil, List.drop_zero, takeWhile_all hd, dropWhile_all hd]
    simp [readPoint, readExp]

theorem alpha_not {c : Char} (h : c.isAlpha = true ∨ c = '_') : c.isWhitespace = false ∧ isSign c = false ∧ isFig c = false ∧ c ≠ '.' := by
  rcases h with h | rfl
  · have key : ('A' ≤ c ∧ c ≤ 'Z') ∨ ('a' ≤ c ∧ c ≤ 'z') := by
      simp only [Char.isAlpha, Char.isUpper, Char.isLower, Bool.or_eq_true, Bool.and_eq_true, decide_eq_true_eq] at h
      exact h
    refine ⟨?_, ?_, ?_, ?_⟩
    · cases hw : c.isWhitespace with
      | false => rfl
      | true =>
        exfalso
        simp only [Char.isWhitespace, Bool.or_eq_true, decide_eq_true_eq] at hw
        rcases hw with ((rfl | rfl) | rfl) | rfl <;> revert h <;> decide
    · cases hw : isSign c with
      | false => rfl
      | true => rcases sign_cases hw with rfl | rfl <;> revert h <;> decide
    · cases hw : isFig c with
      | false => rfl
      | true =>
        exfalso
        simp only [isFig, Bool.and_eq_true, decide_eq_true_eq] at hw
        obtain ⟨_, h2⟩ := hw
        rcases key with ⟨k1, _⟩ | ⟨k1, _⟩
        · exact absurd (Char.le_trans k1 h2) (by decide)
        · exact absurd (Char.le_trans k1 h2) (by decide)
    · rintro rfl; revert h; decide
  · decide

theorem readDouble_name {x : List Char} (h : IsName x) : readDouble x = none := by
  obtain ⟨c, r, rfl, hc, _⟩ := h
  obtain ⟨w, s, f, d⟩ := alpha_not hc
  have h1 : (c :: r).dropWhile Char.isWhitespace = c :: r := dropWhile_stop (by rintro _ ⟨⟩; exact w)
  have h2 : (c :: r).takeWhile isSign = [] := takeWhile_stop (by rintro _ ⟨⟩; exact s)
  have h3 : (c :: r).takeWhile isFig = [] := takeWhile_stop (by rintro _ ⟨⟩; exact f)
  have h4 : (c :: r).dropWhile isFig = c :: r := dropWhile_stop (by rintro _ ⟨⟩; exact f)
  have h5 : readPoint (c :: r) = ([], [], c :: r) := by
    unfold readPoint
    split
    · rename_i r' hr'
      simp only [List.cons.injEq] at hr'
      exact absurd hr'.1 d
    · rfl
  unfold readDouble
  simp only [h1, h2, List.take_nil, List.length_nil, List.drop_zero, h3, h4, h5]
  simp

theorem tryLeaf_word (A : Arith V) {sg x : List Char} {l : Leaf V} (hsg : ∀ c ∈ sg, isSign c = true) (hx : ∀ c ∈ x, isNameChar c = true)
    (hne : x ≠ []) (hl : buildLeaf A x = .ok l) : tryLeaf A (sg ++ x) = .ok (some (l, leafFns sg)) := by
  have h1 : x.dropWhile isSign = x := dropWhile_stop (fun c hc => name_sign (hx c (List.mem_of_head? hc)))
  have h2 : x.takeWhile isSign = [] := takeWhile_stop (fun c hc => name_sign (hx c (List.mem_of_head? hc)))
  have h3 : (sg ++ x).dropWhile isSign = x := by rw [List.dropWhile_append_of_pos hsg, h1]
  have h4 : (sg ++ x).takeWhile isSign = sg := by rw [List.takeWhile_append_of_pos hsg, h2, List.append_nil]
  have h5 : x.any isOp9 = false := by
    rw [List.any_eq_false]; intro c hc; simp [name_op9 (hx c hc)]
  unfold tryLeaf
  simp only [h3, h4, hne, if_false, h5, hl, leafFns]
  rfl

theorem tryLeaf_none (A : Arith V) {pre r : List Char} {a : Char} (ha : isSign a = false) (h9 : (a :: r).any isOp9 = true) :
    tryLeaf A (pre ++ a :: r) = .ok none := by
  obtain ⟨p', hp'⟩ : ∃ p', (pre ++ a :: r).dropWhile isSign = p' ++ a :: r := by
    clear h9
    induction pre with
    | nil => exact ⟨[], dropWhile_stop (by rintro _ ⟨⟩; exact ha)⟩
    | cons c pre ih =>
      rw [List.cons_append, List.dropWhile_cons]
      split
      · exact ih
      · exact ⟨c :: pre, rfl⟩
  unfold tryLeaf
  simp only [hp']
  rw [if_neg (by simp), if_pos (by rw [List.any_append, h9]; simp)]

/-! ## Functions -/

theorem buildFunc_1 (f : Fn1) : buildFunc f.repr 1 = .ok (.f1 f) := by cases f <;> rfl

theorem parseUnary_bracket {u v : List Char} (hu : ∀ c ∈ u, c ≠ '(') (hv : Balanced v) :
    parseUnary (u ++ '(' :: (v ++ [')'])) =
      if u.any isOp7 ∧ u.any (fun c => !isOp7 c) then .ok none
      else
        match (if u.any (fun c => !isOp7 c) then (buildFunc u (v.count ',' + 1)).map (fun f => [f])
          else u.mapM (fun c => buildFunc [c] (v.count ',' + 1)) : M (List Fn)) with
        | .ok fs => .ok (some (splitComma v, fs))
        | .error e => .error e := by
  have h1 : (u ++ '(' :: (v ++ [')'])).getLast? = some ')' := by
    rw [show u ++ '(' :: (v ++ [')']) = (u ++ '(' :: v) ++ [')'] by simp, List.getLast?_concat]
  have h2 : findFromPos (fun c => decide (c = '(')) (u ++ '(' :: (v ++ [')'])) 0 = some u.length :=
    findFromPos_first (fun x hx => by simp [hu x hx]) (by simp)
  have h3 : (u ++ '(' :: (v ++ [')'])).take u.length = u := by simp
  have h4 : (u ++ '(' :: (v ++ [')'])).dropLast.drop (u.length + 1) = v := by
    rw [show u ++ '(' :: (v ++ [')']) = (u ++ '(' :: v) ++ [')'] by simp, List.dropLast_concat,
      show u ++ '(' :: v = (u ++ ['(']) ++ v by simp, show u.length + 1 = (u ++ ['(']).length by simp, List.drop_left]
  unfold parseUnary
  simp only [h1, ne_eq, not_true_eq_false, if_false, findOpen_eq hv, h2, h3, h4]
  rfl

theorem signs_mapM {sg : List Char} (h : ∀ c ∈ sg, isSign c = true) : sg.mapM (fun c => buildFunc [c] 1) = .ok (signFns sg) := by
  refine mapM_ok' (g := fun c => if c = '-' then Fn.f1 .negate else Fn.f1 .positive) (fun c hc => ?_)
  rcases sign_cases (h c hc) with rfl | rfl <;> rfl

theorem sign_op7 {c : Char} (h : isSign c = true) : isOp7 c = true := by
  rcases sign_cases h with rfl | rfl <;> rfl

theorem any_false {p : Char → Bool} {l : List Char} (h : ∀ c ∈ l, p c = false) : l.any p = false := by
  rw [List.any_eq_false]; intro c hc; simp [h c hc]

/-- named functions -/
theorem parseUnary_named {u v : List Char} (hu : ∀ c ∈ u, isNameChar c = true) (hne : u ≠ []) (hv : Balanced v) {f : Fn}
    (hf : buildFunc u (v.count ',' + 1) = .ok f) : parseUnary (u ++ '(' :: (v ++ [')'])) = .ok (some (splitComma v, [f])) := by
  rw [parseUnary_bracket (fun c hc => (by have := name_ne (hu c hc); tauto)) hv]
  have h1 : u.any isOp7 = false := any_false (fun c hc => name_op7 (hu c hc))
  have h2 : u.any (fun c => !isOp7 c) = true := by
    obtain ⟨c, r, rfl⟩ := List.exists_cons_of_ne_nil hne
    simp [name_op7 (hu c (by simp))]
  rw [if_neg (by rw [h1]; simp), if_pos h2, hf]
  rfl

/-- signs, or nothing, before the bracket -/
theorem parseUnary_signs {u v : List Char} (hu : ∀ c ∈ u, isSign c = true) (hv : Balanced v) (hc : v.count ',' = 0) :
    parseUnary (u ++ '(' :: (v ++ [')'])) = .ok (some (splitComma v, signFns u)) := by
  rw [parseUnary_bracket (fun c hc => (sign_not_bracket hu c hc).1) hv]
  have h2 : u.any (fun c => !isOp7 c) = false := any_false (fun c hc => by simp [sign_op7 (hu c hc)])
  rw [if_neg (by rw [h2]; simp), if_neg (by rw [h2]; simp), hc, signs_mapM hu]

/-- operators outside brackets -/
theorem parseUnary_bin {op : Fn2} {a b : Cst} (h : (Cst.bin op a b).WF Digits) : parseUnary (Cst.bin op a b).str = .ok none := by
  obtain ⟨hop, _, _, _, _, _, _, ha, hb⟩ := id h
  by_cases hl : (Cst.bin op a b).str.getLast? = some ')'
  · obtain ⟨pre, x, hp, _⟩ := b.str_last hb
    obtain ⟨u, v, huv, hv⟩ := b.lastClose hb (by
      rw [Cst.str, hp, ← List.append_assoc, List.getLast?_concat] at hl
      rw [hp, List.getLast?_concat]; exact hl)
    have e : (Cst.bin op a b).str = (a.str ++ op.repr ++ u) ++ '(' :: (v ++ [')']) := by rw [Cst.str, huv]; simp
    unfold parseUnary
    rw [if_neg (by simpa using hl)]
    rw [e, findOpen_eq hv]
    simp only
    by_cases hpos : findFromPos (fun c => decide (c = '(')) (a.str ++ op.repr ++ u ++ '(' :: (v ++ [')'])) 0 = some (a.str ++ op.repr ++ u).length
    · rw [hpos]
      simp only [ne_eq, not_true_eq_false, if_false, List.take_left]
      obtain ⟨o, ho, ho7⟩ := bin_op7 hop
      obtain ⟨pre', y, hp', hy⟩ := a.str_last ha
      have hy7 : isOp7 y = false := by
        rcases hy with hy | rfl
        · exact name_op7 hy
        · decide
      rw [if_pos]
      rw [ho, hp']
      simp only [List.any_append, List.any_cons, ho7, hy7]
      simp
    · rw [if_pos (fun hh => hpos hh.symm)]
  · unfold parseUnary
    rw [if_pos hl]

/-! ## One level -/

theorem scanWith_chain {step : Scan → Char → M Scan} {L : Nat} (hk : Cutter step L) (hL : 2 ≤ L) (hL5 : L ≤ 5) (c : Cst) (h : c.WF Digits)
    (hl : c.lvl ≤ L) (hs : c.leadSigns ≤ 1) (hc : c.lvl = 5 ∨ c.hasCmp = false) (h5 : L < 5 → c.hasCmp = false) :
    scanWith step c.str =
      if c.lvl = L then .ok (some (((c.spine L).1 ++ [(c.spine L).2.2]).map Cst.str, (c.spine L).2.1)) else .ok none := by
  unfold scanWith
  rw [fold_chain hk hL hL5 c h hl hs hc h5]
  simp only [scanEnd]
  by_cases hcl : c.lvl = L
  · simp only [hcl, decide_true, if_true]
    rw [if_neg, List.map_append]
    · rfl
    · have hw : (c.spine L).2.2.WF Digits := by
        cases c with
        | bin op a b =>
          have := spine_mem rfl h (Cst.spine L (.bin op a b)).2.2 (by rw [hcl]; simp)
          exact this.1
        | sign => simp only [Cst.lvl] at hcl; omega
        | _ => simp only [Cst.lvl] at hcl; omega
      exact Cst.str_ne _ hw
  · simp [hcl]

theorem simplify_bin (A : Arith V) {op : Fn2} {a b : Cst} (h : (Cst.bin op a b).WF Digits) :
    simplify A (Cst.bin op a b).str =
      .ok (.inr ((((Cst.bin op a b).spine op.lvl).1 ++ [((Cst.bin op a b).spine op.lvl).2.2]).map Cst.str, ((Cst.bin op a b).spine op.lvl).2.1)) := by
  obtain ⟨hop, hal, hbl, has, hbs, hac, hbc, ha, hb⟩ := id h
  have hleaf : tryLeaf A (Cst.bin op a b).str = .ok none := by
    obtain ⟨pre, x, hp, hx⟩ := a.str_last ha
    obtain ⟨o, ho, ho7⟩ := bin_op7 hop
    have e : (Cst.bin op a b).str = pre ++ x :: (o :: b.str) := by rw [Cst.str, hp, ho]; simp
    rw [e]
    refine tryLeaf_none A ?_ (by simp [isOp9, ho7])
    rcases hx with hx | rfl
    · exact name_sign hx
    · decide
  have hlvl : op.lvl ≤ 5 := by cases op <;> simp [Fn2.lvl]
  have hcmp : op.lvl < 5 → (Cst.bin op a b).hasCmp = false := by
    intro hlt
    have h1 : a.hasCmp = false := by
      rcases hac with hac | hac
      · omega
      · exact hac
    have h2 : op ≠ .gt ∧ op ≠ .lt := by constructor <;> rintro rfl <;> simp [Fn2.lvl] at hlt
    simp [Cst.hasCmp, h1, hbc, h2.1, h2.2]
  have hc : (Cst.bin op a b).lvl = 5 ∨ (Cst.bin op a b).hasCmp = false := by
    by_cases h5 : op.lvl = 5
    · exact Or.inl h5
    · exact Or.inr (hcmp (by omega))
  unfold simplify
  rw [hleaf, ok_bind]
  simp only
  rw [parseUnary_bin h, ok_bind]
  simp only
  rw [scanWith_chain cutter_cmp (by omega) (by omega) _ h hlvl has hc (by omega)]
  by_cases h5 : op.lvl = 5
  · rw [if_pos (show (Cst.bin op a b).lvl = 5 from h5), h5]; rfl
  rw [if_neg (show ¬ (Cst.bin op a b).lvl = 5 from h5), ok_bind]
  simp only
  rw [scanWith_chain cutter_add (by omega) (by omega) _ h (by show op.lvl ≤ 4; omega) has hc (fun _ => hcmp (by omega))]
  by_cases h4 : op.lvl = 4
  · rw [if_pos (show (Cst.bin op a b).lvl = 4 from h4), h4]; rfl
  rw [if_neg (show ¬ (Cst.bin op a b).lvl = 4 from h4), ok_bind]
  simp only
  rw [scanWith_chain cutter_mul (by omega) (by omega) _ h (by show op.lvl ≤ 3; omega) has hc (fun _ => hcmp (by omega))]
  by_cases h3 : op.lvl = 3
  · rw [if_pos (show (Cst.bin op a b).lvl = 3 from h3), h3]; rfl
  rw [if_neg (show ¬ (Cst.bin op a b).lvl = 3 from h3), ok_bind]
  simp only
  rw [scanWith_chain cutter_pow (by omega) (by omega) _ h (by show op.lvl ≤ 2; omega) has hc (fun _ => hcmp (by omega))]
  have h2 : op.lvl = 2 := by omega
  rw [if_pos (show (Cst.bin op a b).lvl = 2 from h2), h2]; rfl

theorem simplify_leaf (A : Arith V) {s : List Char} {r : Leaf V × List Fn} (h : tryLeaf A s = .ok (some r)) : simplify A s = .ok (.inl r) := by
  unfold simplify; rw [h]; rfl

theorem simplify_func (A : Arith V) {s : List Char} {r : List (List Char) × List Fn} (h : tryLeaf A s = .ok none)
    (hu : parseUnary s = .ok (some r)) : simplify A s = .ok (.inr r) := by
  unfold simplify; rw [h, ok_bind]; simp only; rw [hu]; rfl

theorem tryLeaf_close (A : Arith V) (pre : List Char) : tryLeaf A (pre ++ [')']) = .ok none :=
  tryLeaf_none A (by decide) (by decide)

/-- The parser makes the tree of the expression. -/
theorem parseDeep_eq (A : Arith V) (n : Nat) : ∀ c : Cst, c.WF Digits → c.str.length < n → parseDeep A n c.str = .ok (c.tree A.lit) := by
  induction n with
  | zero => intro c _ h; omega
  | succ n ih =>
    intro c h hn
    have node : ∀ (subs : List Cst) (fs : List Fn), simplify A c.str = .ok (.inr (subs.map Cst.str, fs)) →
        (∀ d ∈ subs, d.WF Digits ∧ d.str.length < c.str.length) → parseDeep A (n + 1) c.str = .ok (.node (subs.map (Cst.tree A.lit)) fs) := by
      intro subs fs hs hd
      have hm : (subs.map Cst.str).mapM (parseDeep A n) = .ok (subs.map (Cst.tree A.lit)) := by
        clear hs
        induction subs with
        | nil => rfl
        | cons d subs ih2 =>
          have h1 := hd d (by simp)
          rw [List.map_cons, List.mapM_cons, ih d h1.1 (by omega), ok_bind, ih2 (fun x hx => hd x (by simp [hx])), ok_bind]
          rfl
      unfold parseDeep
      rw [hs, ok_bind]
      simp only
      rw [hm, ok_bind]
      rfl
    have leaf : ∀ (l : Leaf V) (fs : List Fn), tryLeaf A c.str = .ok (some (l, fs)) → parseDeep A (n + 1) c.str = .ok (.leaf l fs) := by
      intro l fs hl
      unfold parseDeep
      rw [simplify_leaf A hl, ok_bind]
      rfl
    cases c with
    | num l =>
      have hd : Digits l := h
      exact leaf _ _ (tryLeaf_word A (sg := []) (by simp) (Cst.WF.num_chars hd) hd.1 (l := .val (A.lit l))
        (by unfold buildLeaf; rw [readDouble_digits hd]))
    | var x =>
      have hd : IsName x := h
      exact leaf _ _ (tryLeaf_word A (sg := []) (by simp) hd.chars hd.ne_nil (l := .var x)
        (by unfold buildLeaf; rw [readDouble_name hd]))
    | sign sg e =>
      obtain ⟨hne, hsg, hse, he⟩ := h
      cases e with
      | num l =>
        have hd : Digits l := he
        exact leaf _ _ (tryLeaf_word A (x := l) hsg (Cst.WF.num_chars hd) hd.1 (l := .val (A.lit l))
          (by unfold buildLeaf; rw [readDouble_digits hd]))
      | var x =>
        have hd : IsName x := he
        exact leaf _ _ (tryLeaf_word A (x := x) hsg hd.chars hd.ne_nil (l := .var x)
          (by unfold buildLeaf; rw [readDouble_name hd]))
      | call f e =>
        have hf : f = .identity := by cases f <;> simp_all [Cst.signable]
        subst hf
        obtain ⟨_, _, hcomma, hee⟩ := he
        have es : (Cst.sign sg (.call .identity e)).str = sg ++ '(' :: (e.str ++ [')']) := by simp [Cst.str, Fn1.repr]
        have hs : simplify A (Cst.sign sg (.call .identity e)).str = .ok (.inr ([e].map Cst.str, signFns sg)) := by
          rw [es]
          refine simplify_func A ?_ ?_
          · rw [show sg ++ '(' :: (e.str ++ [')']) = (sg ++ '(' :: e.str) ++ [')'] by simp]; exact tryLeaf_close A _
          · rw [parseUnary_signs hsg (e.balanced hee) (count_none (e.noComma hee hcomma)), splitComma_none (e.noComma hee hcomma)]; rfl
        rw [node [e] _ hs]
        · rfl
        · intro d hd
          simp only [List.mem_singleton] at hd; subst hd
          exact ⟨hee, by rw [es]; simp only [List.length_append, List.length_cons]; omega⟩
      | _ => simp [Cst.signable] at hse
    | call f e =>
      obtain ⟨h1, h2, hcomma, he⟩ := h
      have es : (Cst.call f e).str = f.repr ++ '(' :: (e.str ++ [')']) := rfl
      have hs : simplify A (Cst.call f e).str = .ok (.inr ([e].map Cst.str, if f = .identity then [] else [.f1 f])) := by
        rw [es]
        refine simplify_func A ?_ ?_
        · rw [show f.repr ++ '(' :: (e.str ++ [')']) = (f.repr ++ '(' :: e.str) ++ [')'] by simp]; exact tryLeaf_close A _
        · by_cases hid : f = .identity
          · subst hid
            rw [parseUnary_signs (u := Fn1.repr .identity) (by simp [Fn1.repr]) (e.balanced he) (count_none (e.noComma he hcomma)),
              splitComma_none (e.noComma he hcomma)]; rfl
          · rw [if_neg hid, parseUnary_named (repr1_name f h1 h2) (by cases f <;> simp [Fn1.repr] at hid ⊢) (e.balanced he) (f := .f1 f)
              (by rw [count_none (e.noComma he hcomma)]; exact buildFunc_1 f), splitComma_none (e.noComma he hcomma)]; rfl
      rw [node [e] _ hs]
      · rfl
      · intro d hd
        simp only [List.mem_singleton] at hd; subst hd
        exact ⟨he, by rw [es]; simp only [List.length_append, List.length_cons]; omega⟩
    | call2 f a b =>
      obtain ⟨h1, hca, hcb, ha, hb⟩ := h
      have es : Cst.str (.call2 f a b) = f.repr ++ '(' :: ((a.str ++ ',' :: b.str) ++ [')']) := by simp [Cst.str]
      have hs : simplify A (Cst.call2 f a b).str = .ok (.inr ([a, b].map Cst.str, [.f2 f])) := by
        rw [es]
        refine simplify_func A ?_ ?_
        · rw [show f.repr ++ '(' :: ((a.str ++ ',' :: b.str) ++ [')']) = (f.repr ++ '(' :: (a.str ++ ',' :: b.str)) ++ [')'] by simp]
          exact tryLeaf_close A _
        · rw [parseUnary_named (repr2_name f h1) (by cases f <;> simp [Fn2.repr])
            (.app (a.balanced ha) (.cons (by decide) (b.balanced hb))) (f := .f2 f)
            (by rw [List.count_append, List.count_cons, count_none (a.noComma ha hca), count_none (b.noComma hb hcb)]
                rcases h1 with rfl | rfl <;> rfl),
            splitComma_append (a.noComma ha hca), splitComma_none (b.noComma hb hcb)]; rfl
      rw [node [a, b] _ hs]
      · rfl
      · intro d hd
        simp only [List.mem_cons, List.not_mem_nil, or_false] at hd
        rcases hd with rfl | rfl
        · exact ⟨ha, by rw [es]; simp only [List.length_append, List.length_cons]; omega⟩
        · exact ⟨hb, by rw [es]; simp only [List.length_append, List.length_cons]; omega⟩
    | callIf a b c =>
      obtain ⟨hca, hcb, hcc, ha, hb, hc⟩ := h
      have es : Cst.str (.callIf a b c) = ['i', 'f'] ++ '(' :: ((a.str ++ ',' :: (b.str ++ ',' :: c.str)) ++ [')']) := by simp [Cst.str]
      have hs : simplify A (Cst.callIf a b c).str = .ok (.inr ([a, b, c].map Cst.str, [.ifte])) := by
        rw [es]
        refine simplify_func A ?_ ?_
        · rw [show ['i', 'f'] ++ '(' :: ((a.str ++ ',' :: (b.str ++ ',' :: c.str)) ++ [')']) = (['i', 'f'] ++ '(' :: (a.str ++ ',' :: (b.str ++ ',' :: c.str))) ++ [')'] by simp]
          exact tryLeaf_close A _
        · rw [parseUnary_named (u := ['i', 'f']) (by decide) (by decide)
            (.app (a.balanced ha) (.cons (by decide) (.app (b.balanced hb) (.cons (by decide) (c.balanced hc))))) (f := .ifte)
            (by rw [List.count_append, List.count_cons, List.count_append, List.count_cons, count_none (a.noComma ha hca),
                  count_none (b.noComma hb hcb), count_none (c.noComma hc hcc)]
                rfl),
            splitComma_append (a.noComma ha hca), splitComma_append (b.noComma hb hcb), splitComma_none (c.noComma hc hcc)]; rfl
      rw [node [a, b, c] _ hs]
      · rfl
      · intro d hd
        simp only [List.mem_cons, List.not_mem_nil, or_false] at hd
        rcases hd with rfl | rfl | rfl
        · exact ⟨ha, by rw [es]; simp only [List.length_append, List.length_cons]; omega⟩
        · exact ⟨hb, by rw [es]; simp only [List.length_append, List.length_cons]; omega⟩
        · exact ⟨hc, by rw [es]; simp only [List.length_append, List.length_cons]; omega⟩
    | bin op a b =>
      rw [node _ _ (simplify_bin A h) (spine_mem rfl h), tree_spine A.lit rfl h]
      rfl

end MC
