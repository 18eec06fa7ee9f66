import Verif.ExprFill
import Mathlib.Tactic.Tauto

/-!
# From the tree to the value
-/

namespace MC
variable {V : Type}

/-! ## The numbers come back -/

theorem mapLeavesL_append {L L' : Type} {g : L → M L'} {l r : List (PExpr L)} {l' r' : List (PExpr L')} (hl : mapLeavesL g l = .ok l')
    (hr : mapLeavesL g r = .ok r') : mapLeavesL g (l ++ r) = .ok (l' ++ r') := by
  induction l generalizing l' with
  | nil =>
    simp only [mapLeavesL, Except.ok.injEq] at hl
    subst hl; exact hr
  | cons a l ih =>
    simp only [mapLeavesL] at hl
    split at hl
    · split at hl
      · rename_i h1 _ _ h2
        simp only [Except.ok.injEq] at hl
        subst hl
        simp only [List.cons_append, mapLeavesL, h1, ih h2]
      · simp at hl
    · simp at hl

theorem mapLeavesL_one {L L' : Type} {g : L → M L'} {e : PExpr L} {e' : PExpr L'} (h : e.mapLeaves g = .ok e') :
    mapLeavesL g [e] = .ok [e'] := by
  simp [mapLeavesL, h]

theorem mapLeavesL_cons {L L' : Type} {g : L → M L'} {e : PExpr L} {e' : PExpr L'} {l : List (PExpr L)} {l' : List (PExpr L')}
    (h : e.mapLeaves g = .ok e') (hl : mapLeavesL g l = .ok l') : mapLeavesL g (e :: l) = .ok (e' :: l') := by
  simp [mapLeavesL, h, hl]

theorem mapLeaves_node {L L' : Type} {g : L → M L'} {l : List (PExpr L)} {l' : List (PExpr L')} (fs : List Fn) (hl : mapLeavesL g l = .ok l') :
    (PExpr.node l fs).mapLeaves g = .ok (.node l' fs) := by
  simp [PExpr.mapLeaves, hl, Except.map]

theorem mapLeaves_leaf {L L' : Type} {g : L → M L'} {l : L} {l' : L'} (fs : List Fn) (hl : g l = .ok l') :
    (PExpr.leaf l fs).mapLeaves g = .ok (.leaf l' fs) := by
  simp [PExpr.mapLeaves, hl, Except.map]

theorem mapLeaves_signed {L L' : Type} {g : L → M L'} {t : PExpr L} {t' : PExpr L'} (sg : List Char) (h : t.mapLeaves g = .ok t') :
    (t.signed sg).mapLeaves g = .ok (t'.signed sg) := by
  cases t with
  | leaf l fs =>
    simp only [PExpr.mapLeaves, Except.map] at h
    cases hg : g l with
    | error e => rw [hg] at h; simp at h
    | ok l' =>
      rw [hg] at h
      simp only [Except.ok.injEq] at h
      subst h
      exact mapLeaves_leaf _ hg
  | node subs fs =>
    simp only [PExpr.mapLeaves, Except.map] at h
    cases hg : mapLeavesL g subs with
    | error e => rw [hg] at h; simp at h
    | ok l' =>
      rw [hg] at h
      simp only [Except.ok.injEq] at h
      subst h
      exact mapLeaves_node _ hg

theorem mapLeaves_snoc {L L' : Type} {g : L → M L'} {t u : PExpr L} {t' u' : PExpr L'} (f : Fn) (h : t.mapLeaves g = .ok t')
    (hu : u.mapLeaves g = .ok u') : (t.snoc f u).mapLeaves g = .ok (t'.snoc f u') := by
  cases t with
  | leaf l fs =>
    simp only [PExpr.mapLeaves, Except.map] at h
    cases hg : g l with
    | error e => rw [hg] at h; simp at h
    | ok l' =>
      rw [hg] at h
      simp only [Except.ok.injEq] at h
      subst h
      exact mapLeaves_leaf _ hg
  | node subs fs =>
    simp only [PExpr.mapLeaves, Except.map] at h
    cases hg : mapLeavesL g subs with
    | error e => rw [hg] at h; simp at h
    | ok l' =>
      rw [hg] at h
      simp only [Except.ok.injEq] at h
      subst h
      exact mapLeaves_node _ (mapLeavesL_append hg (mapLeavesL_one hu))

/-- The `k`-th number comes back in place of its rank. -/
theorem replace_tree (A : Arith V) (hA : A.Laws) (vals : List V) (c : Cst) (k : Nat)
    (hv : ∀ i, i < c.lits.length → vals[k + i]? = (c.lits.map A.lit)[i]?) :
    ((c.relabel k).tree A.lit).mapLeaves (replaceLeaf A vals) = .ok (c.tree A.lit) := by
  have left : ∀ {a b : List (List Char)}, (∀ i, i < (a ++ b).length → vals[k + i]? = ((a ++ b).map A.lit)[i]?) →
      ∀ i, i < a.length → vals[k + i]? = (a.map A.lit)[i]? := by
    intro a b h i hi
    rw [h i (by simp; omega), List.map_append, List.getElem?_append_left (by simpa using hi)]
  have right : ∀ {k : Nat} {a b : List (List Char)}, (∀ i, i < (a ++ b).length → vals[k + i]? = ((a ++ b).map A.lit)[i]?) →
      ∀ i, i < b.length → vals[k + a.length + i]? = (b.map A.lit)[i]? := by
    intro k a b h i hi
    rw [Nat.add_assoc, h (a.length + i) (by simp; omega), List.map_append, List.getElem?_append_right (by simp)]
    simp
  induction c generalizing k with
  | num l =>
    refine mapLeaves_leaf _ ?_
    have h0 : vals[k]? = some (A.lit l) := hv 0 (by simp [Cst.lits])
    have hlt : k < vals.length := by
      rcases Nat.lt_or_ge k vals.length with h | h
      · exact h
      · rw [List.getElem?_eq_none h] at h0; simp at h0
    unfold replaceLeaf
    simp only [hA.toInt_lit]
    rw [if_neg (by omega), Int.toNat_natCast, h0]
  | var x => exact mapLeaves_leaf _ rfl
  | sign sg e ih => exact mapLeaves_signed sg (ih k hv left)
  | call f e ih => exact mapLeaves_node _ (mapLeavesL_one (ih k hv left))
  | call2 f a b iha ihb =>
    have left' : ∀ {k : Nat} {a b : List (List Char)}, (∀ i, i < (a ++ b).length → vals[k + i]? = ((a ++ b).map A.lit)[i]?) →
        ∀ i, i < a.length → vals[k + i]? = (a.map A.lit)[i]? := by
      intro k a b h i hi
      rw [h i (by simp; omega), List.map_append, List.getElem?_append_left (by simpa using hi)]
    exact mapLeaves_node _ (mapLeavesL_cons (iha k (left hv) left') (mapLeavesL_one (ihb _ (right hv) left')))
  | callIf a b c iha ihb ihc =>
    have left' : ∀ {k : Nat} {a b : List (List Char)}, (∀ i, i < (a ++ b).length → vals[k + i]? = ((a ++ b).map A.lit)[i]?) →
        ∀ i, i < a.length → vals[k + i]? = (a.map A.lit)[i]? := by
      intro k a b h i hi
      rw [h i (by simp; omega), List.map_append, List.getElem?_append_left (by simpa using hi)]
    simp only [Cst.lits, List.append_assoc] at hv
    exact mapLeaves_node _ (mapLeavesL_cons (iha k (left hv) left') (mapLeavesL_cons (ihb _ (left' (right hv)) left')
      (mapLeavesL_one (ihc _ (right (right hv)) left'))))
  | bin op a b iha ihb =>
    have left' : ∀ {k : Nat} {a b : List (List Char)}, (∀ i, i < (a ++ b).length → vals[k + i]? = ((a ++ b).map A.lit)[i]?) →
        ∀ i, i < a.length → vals[k + i]? = (a.map A.lit)[i]? := by
      intro k a b h i hi
      rw [h i (by simp; omega), List.map_append, List.getElem?_append_left (by simpa using hi)]
    have ha := iha k (left hv) left'
    have hb := ihb _ (right hv) left'
    simp only [Cst.relabel, Cst.tree, relabel_lvl]
    by_cases hl : a.lvl = op.lvl
    · rw [if_pos hl, if_pos hl]; exact mapLeaves_snoc _ ha hb
    · rw [if_neg hl, if_neg hl]; exact mapLeaves_node _ (mapLeavesL_cons ha (mapLeavesL_one hb))

/-! ## The tree which is evaluated -/

def PExpr.rsnoc {L : Type} : PExpr L → Fn → PExpr L → PExpr L
  | .leaf l fs, _, _ => .leaf l fs
  | .node subs fs, f, t => .node (t :: subs) (fs ++ [f])

/-- the operands backwards -/
def Cst.rtree {L : Type} (nl vl : List Char → L) : Cst → PExpr L
  | .num l => .leaf (nl l) []
  | .var x => .leaf (vl x) []
  | .sign sg e => (e.rtree nl vl).signed sg
  | .call f e => .node [e.rtree nl vl] (if f = .identity then [] else [.f1 f])
  | .call2 f a b => .node [b.rtree nl vl, a.rtree nl vl] [.f2 f]
  | .callIf a b c => .node [c.rtree nl vl, b.rtree nl vl, a.rtree nl vl] [.ifte]
  | .bin op a b => if a.lvl = op.lvl then (a.rtree nl vl).rsnoc (.f2 op) (b.rtree nl vl) else .node [b.rtree nl vl, a.rtree nl vl] [.f2 op]

theorem reverseThisL_append {L : Type} (l r : List (PExpr L)) : reverseThisL (l ++ r) = reverseThisL l ++ reverseThisL r := by
  induction l with
  | nil => rfl
  | cons a l ih => simp [reverseThisL, ih]

theorem reverse_tree (lit : List Char → V) (c : Cst) : (c.tree lit).reverseThis = c.rtree (fun l => .val (lit l)) .var := by
  induction c with
  | num l => rfl
  | var x => rfl
  | sign sg e ih =>
    simp only [Cst.tree, Cst.rtree, ← ih]
    cases e.tree lit <;> simp [PExpr.signed, PExpr.reverseThis]
  | call f e ih => simp [Cst.tree, Cst.rtree, PExpr.reverseThis, reverseThisL, ih]
  | call2 f a b iha ihb => simp [Cst.tree, Cst.rtree, PExpr.reverseThis, reverseThisL, iha, ihb]
  | callIf a b c iha ihb ihc => simp [Cst.tree, Cst.rtree, PExpr.reverseThis, reverseThisL, iha, ihb, ihc]
  | bin op a b iha ihb =>
    simp only [Cst.tree, Cst.rtree, ← iha, ← ihb]
    split
    · cases a.tree lit <;> simp [PExpr.snoc, PExpr.rsnoc, PExpr.reverseThis, reverseThisL_append, reverseThisL]
    · simp [PExpr.reverseThis, reverseThisL]

theorem mapLeaves_rsnoc {L L' : Type} {g : L → M L'} {t u : PExpr L} {t' u' : PExpr L'} (f : Fn) (h : t.mapLeaves g = .ok t')
    (hu : u.mapLeaves g = .ok u') : (t.rsnoc f u).mapLeaves g = .ok (t'.rsnoc f u') := by
  cases t with
  | leaf l fs =>
    simp only [PExpr.mapLeaves, Except.map] at h
    cases hg : g l with
    | error e => rw [hg] at h; simp at h
    | ok l' =>
      rw [hg] at h
      simp only [Except.ok.injEq] at h
      subst h
      exact mapLeaves_leaf _ hg
  | node subs fs =>
    simp only [PExpr.mapLeaves, Except.map] at h
    cases hg : mapLeavesL g subs with
    | error e => rw [hg] at h; simp at h
    | ok l' =>
      rw [hg] at h
      simp only [Except.ok.injEq] at h
      subst h
      exact mapLeaves_node _ (mapLeavesL_cons hu hg)

theorem mapLeaves_rtree {L L' : Type} {g : L → M L'} {nl vl : List Char → L} {nl' vl' : List Char → L'} (c : Cst)
    (hn : ∀ l, g (nl l) = .ok (nl' l)) (hv : ∀ x ∈ c.vars, g (vl x) = .ok (vl' x)) :
    (c.rtree nl vl).mapLeaves g = .ok (c.rtree nl' vl') := by
  induction c with
  | num l => exact mapLeaves_leaf _ (hn l)
  | var x => exact mapLeaves_leaf _ (hv x (by simp [Cst.vars]))
  | sign sg e ih => exact mapLeaves_signed sg (ih hv)
  | call f e ih => exact mapLeaves_node _ (mapLeavesL_one (ih hv))
  | call2 f a b iha ihb =>
    exact mapLeaves_node _ (mapLeavesL_cons (ihb (fun x hx => hv x (by simp [Cst.vars, hx])))
      (mapLeavesL_one (iha (fun x hx => hv x (by simp [Cst.vars, hx])))))
  | callIf a b c iha ihb ihc =>
    exact mapLeaves_node _ (mapLeavesL_cons (ihc (fun x hx => hv x (by simp [Cst.vars, hx])))
      (mapLeavesL_cons (ihb (fun x hx => hv x (by simp [Cst.vars, hx])))
      (mapLeavesL_one (iha (fun x hx => hv x (by simp [Cst.vars, hx]))))))
  | bin op a b iha ihb =>
    have ha := iha (fun x hx => hv x (by simp [Cst.vars, hx]))
    have hb := ihb (fun x hx => hv x (by simp [Cst.vars, hx]))
    simp only [Cst.rtree]
    split
    · exact mapLeaves_rsnoc _ ha hb
    · exact mapLeaves_node _ (mapLeavesL_cons hb (mapLeavesL_one ha))

theorem rtree_node {L : Type} (nl vl : List Char → L) {P : List Char → Prop} {a : Cst} (h : a.WF P) (hl : 2 ≤ a.lvl) :
    ∃ subs fs, a.rtree nl vl = .node subs fs := by
  induction a with
  | bin op a b iha _ =>
    simp only [Cst.rtree]
    split
    · rename_i he
      obtain ⟨subs, fs, hn⟩ := iha h.2.2.2.2.2.2.2.1 (by rw [he]; exact h.1)
      rw [hn]; exact ⟨_, _, rfl⟩
    · exact ⟨_, _, rfl⟩
  | _ => simp [Cst.lvl] at hl

/-- a leaf is treated, or stops everything -/
theorem mapLeaves_rtree_exn {L L' : Type} {g : L → M L'} {nl vl : List Char → L} (c : Cst)
    (hn : ∀ l, ∃ l', g (nl l) = .ok l') (hv : ∀ x, (∃ l', g (vl x) = .ok l') ∨ g (vl x) = .error .exn) :
    (∃ t', (c.rtree nl vl).mapLeaves g = .ok t') ∨ (c.rtree nl vl).mapLeaves g = .error .exn := by
  have mono : ∀ {α β : Type} (f : α → β) (x : M α), ((∃ a, x = .ok a) ∨ x = .error .exn) → ((∃ b, x.map f = .ok b) ∨ x.map f = .error .exn) := by
    rintro α β f x (⟨a, rfl⟩ | rfl)
    · exact Or.inl ⟨f a, rfl⟩
    · exact Or.inr rfl
  have cons : ∀ (e : PExpr L) (l : List (PExpr L)), ((∃ t', e.mapLeaves g = .ok t') ∨ e.mapLeaves g = .error .exn) →
      ((∃ l', mapLeavesL g l = .ok l') ∨ mapLeavesL g l = .error .exn) → ((∃ l', mapLeavesL g (e :: l) = .ok l') ∨ mapLeavesL g (e :: l) = .error .exn) := by
    rintro e l (⟨t', h⟩ | h) (⟨l', h'⟩ | h') <;> simp [mapLeavesL, h, h']
  have nil : (∃ l', mapLeavesL g ([] : List (PExpr L)) = .ok l') ∨ mapLeavesL g ([] : List (PExpr L)) = .error .exn := Or.inl ⟨[], rfl⟩
  induction c with
  | num l => obtain ⟨l', h⟩ := hn l; exact Or.inl ⟨_, mapLeaves_leaf _ h⟩
  | var x => exact mono _ _ (hv x)
  | sign sg e ih =>
    simp only [Cst.rtree]
    cases hr : e.rtree nl vl with
    | leaf l fs =>
      rw [hr] at ih
      rcases ih with ⟨t', ht⟩ | ht
      · exact Or.inl ⟨_, mapLeaves_signed sg ht⟩
      · right
        simp only [PExpr.mapLeaves, PExpr.signed, Except.map] at ht ⊢
        cases hg : g l <;> rw [hg] at ht <;> simp at ht ⊢; exact ht
    | node subs fs =>
      rw [hr] at ih
      rcases ih with ⟨t', ht⟩ | ht
      · exact Or.inl ⟨_, mapLeaves_signed sg ht⟩
      · right
        simp only [PExpr.mapLeaves, PExpr.signed, Except.map] at ht ⊢
        cases hg : mapLeavesL g subs <;> rw [hg] at ht <;> simp at ht ⊢; exact ht
  | call f e ih => exact mono _ _ (cons _ _ ih nil)
  | call2 f a b iha ihb => exact mono _ _ (cons _ _ ihb (cons _ _ iha nil))
  | callIf a b c iha ihb ihc => exact mono _ _ (cons _ _ ihc (cons _ _ ihb (cons _ _ iha nil)))
  | bin op a b iha ihb =>
    simp only [Cst.rtree]
    split
    · cases hr : a.rtree nl vl with
      | leaf l fs => rw [hr] at iha; exact iha
      | node subs fs =>
        rw [hr] at iha
        refine mono _ _ (cons _ _ ihb ?_)
        simp only [PExpr.mapLeaves, Except.map] at iha
        cases hg : mapLeavesL g subs with
        | ok l' => exact Or.inl ⟨l', rfl⟩
        | error e =>
          rw [hg] at iha
          simp at iha
          rw [iha]; exact Or.inr rfl
    · exact mono _ _ (cons _ _ ihb (cons _ _ iha nil))

/-- the first leaf which cannot be treated stops everything -/
theorem mapLeaves_rtree_bad {L L' : Type} {g : L → M L'} {nl vl : List Char → L} {P : List Char → Prop} (c : Cst) (hw : c.WF P)
    (hn : ∀ l, ∃ l', g (nl l) = .ok l') (hv : ∀ x, (∃ l', g (vl x) = .ok l') ∨ g (vl x) = .error .exn) (hb : ∃ x ∈ c.vars, g (vl x) = .error .exn) :
    (c.rtree nl vl).mapLeaves g = .error .exn := by
  rcases mapLeaves_rtree_exn c hn hv with ⟨t', ht⟩ | h
  · exfalso
    have inv : ∀ (e : PExpr L) (l : List (PExpr L)) (l' : List (PExpr L')), mapLeavesL g (e :: l) = .ok l' →
        (∃ t, e.mapLeaves g = .ok t) ∧ ∃ r, mapLeavesL g l = .ok r := by
      intro e l l' h
      simp only [mapLeavesL] at h
      split at h
      · split at h
        · rename_i h1 _ _ h2; exact ⟨⟨_, h1⟩, ⟨_, h2⟩⟩
        · simp at h
      · simp at h
    have invN : ∀ (l : List (PExpr L)) (fs : List Fn) (t : PExpr L'), (PExpr.node l fs).mapLeaves g = .ok t → ∃ r, mapLeavesL g l = .ok r := by
      intro l fs t h
      simp only [PExpr.mapLeaves, Except.map] at h
      cases hg : mapLeavesL g l with
      | ok r => exact ⟨r, rfl⟩
      | error e => rw [hg] at h; simp at h
    obtain ⟨x, hx, hg⟩ := hb
    clear hv hn
    induction c generalizing t' with
    | num l => simp [Cst.vars] at hx
    | var y =>
      simp only [Cst.vars, List.mem_singleton] at hx
      subst hx
      simp [Cst.rtree, PExpr.mapLeaves, hg, Except.map] at ht
    | sign sg e ih =>
      simp only [Cst.rtree] at ht
      cases hr : e.rtree nl vl with
      | leaf l fs =>
        rw [hr] at ht ih
        simp only [PExpr.mapLeaves, PExpr.signed, Except.map] at ht
        cases hgl : g l with
        | ok l' => exact ih hw.2.2.2 _ (mapLeaves_leaf fs hgl) hx
        | error e => rw [hgl] at ht; simp at ht
      | node subs fs =>
        rw [hr] at ht ih
        obtain ⟨r, hr'⟩ := invN _ _ _ ht
        exact ih hw.2.2.2 _ (mapLeaves_node fs hr') hx
    | call f e ih =>
      obtain ⟨r, hr'⟩ := invN _ _ _ ht
      obtain ⟨⟨t, h1⟩, _⟩ := inv _ _ _ hr'
      exact ih hw.2.2.2 _ h1 hx
    | call2 f a b iha ihb =>
      obtain ⟨r, hr'⟩ := invN _ _ _ ht
      obtain ⟨⟨t, h1⟩, r2, h2⟩ := inv _ _ _ hr'
      obtain ⟨⟨t3, h3⟩, _⟩ := inv _ _ _ h2
      simp only [Cst.vars, List.mem_append] at hx
      rcases hx with hx | hx
      · exact iha hw.2.2.2.1 _ h3 hx
      · exact ihb hw.2.2.2.2 _ h1 hx
    | callIf a b c iha ihb ihc =>
      obtain ⟨r, hr'⟩ := invN _ _ _ ht
      obtain ⟨⟨t, h1⟩, r2, h2⟩ := inv _ _ _ hr'
      obtain ⟨⟨t3, h3⟩, r4, h4⟩ := inv _ _ _ h2
      obtain ⟨⟨t5, h5⟩, _⟩ := inv _ _ _ h4
      simp only [Cst.vars, List.mem_append] at hx
      rcases hx with (hx | hx) | hx
      · exact iha hw.2.2.2.1 _ h5 hx
      · exact ihb hw.2.2.2.2.1 _ h3 hx
      · exact ihc hw.2.2.2.2.2 _ h1 hx
    | bin op a b iha ihb =>
      simp only [Cst.vars, List.mem_append] at hx
      simp only [Cst.rtree] at ht
      split at ht
      · cases hr : a.rtree nl vl with
        | leaf l fs =>
          rename_i hl
          obtain ⟨subs, fs', hn⟩ := rtree_node nl vl hw.2.2.2.2.2.2.2.1 (by rw [hl]; exact hw.1)
          rw [hn] at hr; simp at hr
        | node subs fs =>
          rw [hr] at ht iha
          obtain ⟨r, hr'⟩ := invN _ _ _ ht
          obtain ⟨⟨t, h1⟩, r2, h2⟩ := inv _ _ _ hr'
          rcases hx with hx | hx
          · exact iha hw.2.2.2.2.2.2.2.1 _ (mapLeaves_node fs h2) hx
          · exact ihb hw.2.2.2.2.2.2.2.2 _ h1 hx
      · obtain ⟨r, hr'⟩ := invN _ _ _ ht
        obtain ⟨⟨t, h1⟩, r2, h2⟩ := inv _ _ _ hr'
        obtain ⟨⟨t3, h3⟩, _⟩ := inv _ _ _ h2
        rcases hx with hx | hx
        · exact iha hw.2.2.2.2.2.2.2.1 _ h3 hx
        · exact ihb hw.2.2.2.2.2.2.2.2 _ h1 hx
  · exact h

/-! ## Evaluation -/

theorem operate1_eq (A : Arith V) (safe : Bool) (f : Fn1) (v : V) :
    operate1 A safe f v = if safe && bad1 A f v then .error .exn else .ok (value1 A f v) := by
  cases f <;> simp [operate1, bad1, value1, absGt1, throwX]

theorem operate2_eq (A : Arith V) (safe : Bool) (f : Fn2) (a b : V) :
    operate2 A safe f a b = if safe && bad2 A f a b then .error .exn else .ok (value2 A f a b) := by
  cases f <;> simp [operate2, bad2, value2, stdMax, stdMin, throwX]

theorem operateStack_1 (A : Arith V) (safe : Bool) (f : Fn1) (v : V) (s : List V) :
    operateStack A safe (.f1 f) (v :: s) = if safe && bad1 A f v then .error .exn else .ok (value1 A f v :: s) := by
  have key : (operate1 A safe f v).map (fun w => w :: s) = if safe && bad1 A f v then .error .exn else .ok (value1 A f v :: s) := by
    rw [operate1_eq]; split <;> rfl
  rw [← key]
  cases f <;> rfl

theorem operateStack_2 (A : Arith V) (safe : Bool) (f : Fn2) (a b : V) (s : List V) :
    operateStack A safe (.f2 f) (a :: b :: s) = if safe && bad2 A f a b then .error .exn else .ok (value2 A f a b :: s) := by
  simp only [operateStack, operate2_eq]
  split <;> rfl

/-- the outcome of an evaluation -/
def outcome (s : List V) : Option V → M (List V)
  | some v => .ok (v :: s)
  | none => .error .exn

theorem foldlM_fns_append (A : Arith V) (safe : Bool) (fs gs : List Fn) (m : M (List V)) :
    (m >>= fun s => (fs ++ gs).foldlM (fun s f => operateStack A safe f s) s) =
      ((m >>= fun s => fs.foldlM (fun s f => operateStack A safe f s) s) >>= fun s => gs.foldlM (fun s f => operateStack A safe f s) s) := by
  cases m with
  | error e => rfl
  | ok s => simp [List.foldlM_append, bind, Except.bind]

theorem fold_leafFns (A : Arith V) (safe : Bool) (sg : List Char) (v : V) (s : List V) :
    (leafFns sg).foldlM (fun s f => operateStack A safe f s) (v :: s) = .ok ((if sg.count '-' % 2 = 1 then A.neg v else v) :: s) := by
  unfold leafFns
  by_cases h : sg.count '-' % 2 = 1
  · rw [if_pos (by omega), if_pos h, List.foldlM_cons, operateStack_1]
    simp [bad1, value1]
  · rw [if_neg (by omega), if_neg h]; rfl

theorem fold_signFns (A : Arith V) (hA : A.Laws) (safe : Bool) (sg : List Char) (v : V) (s : List V) :
    (signFns sg).foldlM (fun s f => operateStack A safe f s) (v :: s) = .ok ((if sg.count '-' % 2 = 1 then A.neg v else v) :: s) := by
  induction sg generalizing v with
  | nil => rfl
  | cons c sg ih =>
    simp only [signFns, List.map_cons, List.foldlM_cons] at ih ⊢
    by_cases hc : c = '-'
    · subst hc
      rw [if_pos rfl, operateStack_1]
      simp only [bad1, value1, Bool.and_false, Bool.false_eq_true, if_false, ok_bind, List.count_cons_self]
      rw [ih]
      congr 2
      by_cases h : sg.count '-' % 2 = 1
      · rw [if_pos h, if_neg (by omega), hA.neg_neg]
      · rw [if_neg h, if_pos (by omega)]
    · rw [if_neg hc, operateStack_1]
      simp only [bad1, value1, Bool.and_false, Bool.false_eq_true, if_false, ok_bind]
      rw [ih, List.count_cons_of_ne hc]

theorem evalTree_signed (A : Arith V) (hA : A.Laws) (safe : Bool) (buff : List V) (sg : List Char) (t : PExpr (RLeaf V)) (s : List V)
    (o : Option V) (hf : (∃ l, t = .leaf l []) ∨ ∃ subs, t = .node subs []) (h : evalTree A safe buff t s = outcome s o) :
    evalTree A safe buff (t.signed sg) s = outcome s (o.map fun v => if sg.count '-' % 2 = 1 then A.neg v else v) := by
  rcases hf with ⟨l, rfl⟩ | ⟨subs, rfl⟩
  · simp only [evalTree, PExpr.signed] at h ⊢
    cases hl : leafValue A buff l with
    | error e =>
      rw [hl] at h
      cases o with
      | none => simpa [bind, Except.bind, outcome] using h
      | some v => simp [bind, Except.bind, outcome] at h
    | ok w =>
      rw [hl] at h
      cases o with
      | none => simp [bind, Except.bind, outcome, pure, Except.pure] at h
      | some v =>
        simp [bind, Except.bind, outcome, pure, Except.pure] at h
        subst h
        simp only [ok_bind, fold_leafFns, outcome, Option.map]
  · simp only [evalTree, PExpr.signed] at h ⊢
    cases hl : evalTreeL A safe buff subs s with
    | error e =>
      rw [hl] at h
      cases o with
      | none => simpa [bind, Except.bind, outcome] using h
      | some v => simp [bind, Except.bind, outcome] at h
    | ok w =>
      rw [hl] at h
      cases o with
      | none => simp [bind, Except.bind, outcome, pure, Except.pure] at h
      | some v =>
        simp [bind, Except.bind, outcome, pure, Except.pure] at h
        subst h
        simp only [ok_bind, fold_signFns A hA, outcome, Option.map]

theorem signable_tree {L : Type} (nl vl : List Char → L) {e : Cst} (h : e.signable = true) :
    (∃ l, e.rtree nl vl = .leaf l []) ∨ ∃ subs, e.rtree nl vl = .node subs [] := by
  cases e with
  | num l => exact Or.inl ⟨_, rfl⟩
  | var x => exact Or.inl ⟨_, rfl⟩
  | call f e =>
    cases f <;> simp [Cst.signable] at h
    exact Or.inr ⟨_, rfl⟩
  | _ => simp [Cst.signable] at h

/-- The evaluation of the tree is the value of the expression. -/
theorem evalTree_eq (A : Arith V) (hA : A.Laws) (safe : Bool) (buff : List V) (env : List Char → V) (vl : List Char → RLeaf V)
    {P : List Char → Prop} (c : Cst) (h : c.WF P) (hv : ∀ x ∈ c.vars, leafValue A buff (vl x) = .ok (env x)) (s : List V) :
    evalTree A safe buff (c.rtree (fun l => .val (A.lit l)) vl) s = outcome s (c.ev A safe env) := by
  induction c generalizing s with
  | num l => rfl
  | var x => simp only [Cst.rtree, evalTree, hv x (by simp [Cst.vars]), Cst.ev]; rfl
  | sign sg e ih => exact evalTree_signed A hA safe buff sg _ s _ (signable_tree _ _ h.2.2.1) (ih h.2.2.2 hv s)
  | call f e ih =>
    simp only [Cst.rtree, evalTree, evalTreeL, ih h.2.2.2 hv, Cst.ev]
    cases e.ev A safe env with
    | none => rfl
    | some v =>
      simp only [outcome, ok_bind, Option.bind]
      by_cases hf : f = .identity
      · subst hf; simp [bad1, value1]; rfl
      · rw [if_neg hf, List.foldlM_cons, operateStack_1]
        split <;> rfl
  | call2 f a b iha ihb =>
    have hb := ihb h.2.2.2.2 (fun x hx => hv x (by simp [Cst.vars, hx]))
    have ha := iha h.2.2.2.1 (fun x hx => hv x (by simp [Cst.vars, hx]))
    simp only [Cst.rtree, evalTree, evalTreeL, hb, Cst.ev]
    cases b.ev A safe env with
    | none => cases a.ev A safe env <;> rfl
    | some y =>
      simp only [outcome, ok_bind, ha]
      cases a.ev A safe env with
      | none => rfl
      | some x =>
        simp only [outcome, ok_bind, Option.bind]
        rw [List.foldlM_cons, operateStack_2]
        split <;> rfl
  | callIf a b c iha ihb ihc =>
    have hc := ihc h.2.2.2.2.2 (fun x hx => hv x (by simp [Cst.vars, hx]))
    have hb := ihb h.2.2.2.2.1 (fun x hx => hv x (by simp [Cst.vars, hx]))
    have ha := iha h.2.2.2.1 (fun x hx => hv x (by simp [Cst.vars, hx]))
    simp only [Cst.rtree, evalTree, evalTreeL, hc, Cst.ev]
    cases c.ev A safe env with
    | none => cases a.ev A safe env <;> cases b.ev A safe env <;> rfl
    | some z =>
      simp only [outcome, ok_bind, hb]
      cases b.ev A safe env with
      | none => cases a.ev A safe env <;> rfl
      | some y =>
        simp only [outcome, ok_bind, ha]
        cases a.ev A safe env with
        | none => rfl
        | some x =>
          simp only [outcome, ok_bind, Option.bind]
          rw [List.foldlM_cons]
          simp only [operateStack]
          cases safe <;> cases A.eq x A.top <;> cases A.eq x (A.neg A.top) <;> rfl
  | bin op a b iha ihb =>
    have hb := ihb h.2.2.2.2.2.2.2.2 (fun x hx => hv x (by simp [Cst.vars, hx]))
    have ha := iha h.2.2.2.2.2.2.2.1 (fun x hx => hv x (by simp [Cst.vars, hx]))
    have key : ∀ t : PExpr (RLeaf V), (∀ s, evalTree A safe buff t s = (evalTree A safe buff (b.rtree (fun l => .val (A.lit l)) vl) s >>= fun s' =>
        evalTree A safe buff (a.rtree (fun l => .val (A.lit l)) vl) s') >>= fun s'' => operateStack A safe (.f2 op) s'') →
        evalTree A safe buff t s = outcome s ((Cst.bin op a b).ev A safe env) := by
      intro t ht
      rw [ht, hb]
      simp only [Cst.ev]
      cases b.ev A safe env with
      | none => cases a.ev A safe env <;> rfl
      | some y =>
        simp only [outcome, ok_bind, ha]
        cases a.ev A safe env with
        | none => rfl
        | some x =>
          simp only [outcome, ok_bind, Option.bind]
          rw [operateStack_2]
          split <;> rfl
    apply key
    intro s
    simp only [Cst.rtree]
    split
    · rename_i hl
      obtain ⟨subs, fs, hn⟩ := rtree_node (fun l => .val (A.lit l)) vl h.2.2.2.2.2.2.2.1 (by rw [hl]; exact h.1)
      rw [hn]
      simp only [PExpr.rsnoc, evalTree, evalTreeL]
      cases evalTree A safe buff (b.rtree (fun l => .val (A.lit l)) vl) s with
      | error e => rfl
      | ok s1 =>
        simp only [ok_bind]
        rw [foldlM_fns_append]
        congr 1
        funext s2
        simp only [List.foldlM_cons, List.foldlM_nil]
        cases operateStack A safe (.f2 op) s2 <;> rfl
    · simp only [evalTree, evalTreeL, List.foldlM_cons, List.foldlM_nil]
      cases evalTree A safe buff (b.rtree (fun l => .val (A.lit l)) vl) s with
      | error e => rfl
      | ok s1 =>
        simp only [ok_bind]
        cases evalTree A safe buff (a.rtree (fun l => .val (A.lit l)) vl) s1 with
        | error e => rfl
        | ok s2 =>
          simp only [ok_bind]
          cases operateStack A safe (.f2 op) s2 <;> rfl

/-- Without the safe mode there is always a value. -/
theorem ev_unsafe (A : Arith V) (env : List Char → V) (c : Cst) : ∃ v, c.ev A false env = some v := by
  induction c with
  | num l => exact ⟨_, rfl⟩
  | var x => exact ⟨_, rfl⟩
  | sign sg e ih => obtain ⟨v, h⟩ := ih; exact ⟨_, by rw [Cst.ev, h]; rfl⟩
  | call f e ih => obtain ⟨v, h⟩ := ih; exact ⟨_, by rw [Cst.ev, h]; rfl⟩
  | call2 f a b iha ihb => obtain ⟨v, h⟩ := iha; obtain ⟨w, h'⟩ := ihb; exact ⟨_, by rw [Cst.ev, h, h']; rfl⟩
  | callIf a b c iha ihb ihc =>
    obtain ⟨v, h⟩ := iha; obtain ⟨w, h'⟩ := ihb; obtain ⟨u, h''⟩ := ihc; exact ⟨_, by rw [Cst.ev, h, h', h'']; rfl⟩
  | bin f a b iha ihb => obtain ⟨v, h⟩ := iha; obtain ⟨w, h'⟩ := ihb; exact ⟨_, by rw [Cst.ev, h, h']; rfl⟩

/-- A value found in the safe mode is the value without it. -/
theorem ev_safe_le (A : Arith V) (env : List Char → V) (c : Cst) (v : V) (hs : c.ev A true env = some v) : c.ev A false env = some v := by
  induction c generalizing v with
  | num l => exact hs
  | var x => exact hs
  | sign sg e ih =>
    simp only [Cst.ev, Option.map_eq_some_iff] at hs ⊢
    obtain ⟨w, hw, h⟩ := hs
    exact ⟨w, ih w hw, h⟩
  | call f e ih =>
    simp only [Cst.ev, Option.bind_eq_some_iff, Bool.true_and, Bool.false_and] at hs ⊢
    obtain ⟨w, hw, h⟩ := hs
    split at h
    · simp at h
    · exact ⟨w, ih w hw, by simpa using h⟩
  | call2 f a b iha ihb =>
    simp only [Cst.ev, Option.bind_eq_some_iff, Bool.true_and, Bool.false_and] at hs ⊢
    obtain ⟨w, hw, u, hu, h⟩ := hs
    split at h
    · simp at h
    · exact ⟨w, iha w hw, u, ihb u hu, by simpa using h⟩
  | callIf a b c iha ihb ihc =>
    simp only [Cst.ev, Option.bind_eq_some_iff, Bool.true_and, Bool.false_and] at hs ⊢
    obtain ⟨w, hw, u, hu, z, hz, h⟩ := hs
    split at h
    · simp at h
    · exact ⟨w, iha w hw, u, ihb u hu, z, ihc z hz, by simpa using h⟩
  | bin f a b iha ihb =>
    simp only [Cst.ev, Option.bind_eq_some_iff, Bool.true_and, Bool.false_and] at hs ⊢
    obtain ⟨w, hw, u, hu, h⟩ := hs
    split at h
    · simp at h
    · exact ⟨w, iha w hw, u, ihb u hu, by simpa using h⟩

theorem ev_congr (A : Arith V) (safe : Bool) {env env' : List Char → V} (c : Cst) (h : ∀ x ∈ c.vars, env x = env' x) :
    c.ev A safe env = c.ev A safe env' := by
  induction c with
  | num l => rfl
  | var x => simp only [Cst.ev, h x (by simp [Cst.vars])]
  | sign sg e ih => simp only [Cst.ev, ih h]
  | call f e ih => simp only [Cst.ev, ih h]
  | call2 f a b iha ihb =>
    simp only [Cst.ev, iha (fun x hx => h x (by simp [Cst.vars, hx])), ihb (fun x hx => h x (by simp [Cst.vars, hx]))]
  | callIf a b c iha ihb ihc =>
    simp only [Cst.ev, iha (fun x hx => h x (by simp [Cst.vars, hx])), ihb (fun x hx => h x (by simp [Cst.vars, hx])),
      ihc (fun x hx => h x (by simp [Cst.vars, hx]))]
  | bin f a b iha ihb =>
    simp only [Cst.ev, iha (fun x hx => h x (by simp [Cst.vars, hx])), ihb (fun x hx => h x (by simp [Cst.vars, hx]))]

/-! ## The variables -/

theorem strLt_iff (x y : List Char) : strLt x y = true ↔ x < y := by
  induction x generalizing y with
  | nil => cases y <;> simp [strLt]
  | cons a r ih =>
    cases y with
    | nil => simp [strLt]
    | cons b s =>
      simp only [strLt, List.cons_lt_cons_iff]
      by_cases h1 : a < b
      · simp [h1]
      · rw [if_neg h1]
        by_cases h2 : b < a
        · simp [h2, h1]; intro h; subst h; exact absurd h2 h1
        · rw [if_neg h2, ih]
          have : a = b := Char.le_antisymm (Char.not_lt.1 h2) (Char.not_lt.1 h1)
          simp [this, h1]

theorem strLt_total (x y : List Char) : strLt x y = true ∨ x = y ∨ strLt y x = true := by
  induction x generalizing y with
  | nil => cases y <;> simp [strLt]
  | cons a r ih =>
    cases y with
    | nil => simp [strLt]
    | cons b s =>
      simp only [strLt]
      by_cases h1 : a < b
      · simp [h1]
      · by_cases h2 : b < a
        · simp [h1, h2]
        · have : a = b := Char.le_antisymm (Char.not_lt.1 h2) (Char.not_lt.1 h1)
          subst this
          rcases ih s with h | h | h <;> simp [h1, h]

theorem strInsert_mem (x : List Char) (l : List (List Char)) (z : List Char) : z ∈ strInsert x l ↔ z = x ∨ z ∈ l := by
  induction l with
  | nil => simp [strInsert]
  | cons y r ih =>
    simp only [strInsert]
    split
    · simp
    · split
      · rename_i h; subst h; simp
      · simp only [List.mem_cons, ih]; tauto

theorem strInsert_sorted (x : List Char) (l : List (List Char)) (h : l.Pairwise (· < ·)) : (strInsert x l).Pairwise (· < ·) := by
  induction l with
  | nil => simp [strInsert]
  | cons y r ih =>
    rw [List.pairwise_cons] at h
    simp only [strInsert]
    split
    · rename_i hlt
      have hlt := (strLt_iff x y).1 hlt
      refine List.pairwise_cons.2 ⟨?_, List.pairwise_cons.2 h⟩
      intro z hz
      rcases List.mem_cons.1 hz with rfl | hz
      · exact hlt
      · exact List.lt_trans hlt (h.1 z hz)
    · rename_i hlt
      split
      · exact List.pairwise_cons.2 h
      · rename_i hne
        refine List.pairwise_cons.2 ⟨?_, ih h.2⟩
        intro z hz
        rcases (strInsert_mem x r z).1 hz with rfl | hz
        · rcases strLt_total z y with h1 | h1 | h1
          · exact absurd h1 hlt
          · exact absurd h1 hne
          · exact (strLt_iff y z).1 h1
        · exact h.1 z hz

theorem setOfVarsL_append (l r : List (PExpr (Leaf V))) (acc : List (List Char)) : setOfVarsL (l ++ r) acc = setOfVarsL r (setOfVarsL l acc) := by
  induction l generalizing acc with
  | nil => rfl
  | cons a l ih => simp [setOfVarsL, ih]

theorem setOfVars_signed (sg : List Char) (t : PExpr (Leaf V)) (acc : List (List Char)) : (t.signed sg).setOfVars acc = t.setOfVars acc := by
  cases t with
  | leaf l fs => cases l <;> rfl
  | node subs fs => rfl

/-- the variables of the tree -/
theorem setOfVars_rtree (lit : List Char → V) {P : List Char → Prop} (c : Cst) (h : c.WF P) (acc : List (List Char)) (hs : acc.Pairwise (· < ·)) :
    ((c.rtree (fun l => .val (lit l)) .var).setOfVars acc).Pairwise (· < ·) ∧
    ∀ z, z ∈ (c.rtree (fun l => .val (lit l)) .var).setOfVars acc ↔ z ∈ acc ∨ z ∈ c.vars := by
  induction c generalizing acc with
  | num l => exact ⟨hs, fun z => by simp [Cst.rtree, PExpr.setOfVars, Cst.vars]⟩
  | var x => exact ⟨strInsert_sorted x acc hs, fun z => by simp [Cst.rtree, PExpr.setOfVars, Cst.vars, strInsert_mem, or_comm]⟩
  | sign sg e ih => simp only [Cst.rtree, setOfVars_signed]; exact ih h.2.2.2 acc hs
  | call f e ih => exact ih h.2.2.2 acc hs
  | call2 f a b iha ihb =>
    obtain ⟨s1, m1⟩ := ihb h.2.2.2.2 acc hs
    obtain ⟨s2, m2⟩ := iha h.2.2.2.1 _ s1
    refine ⟨s2, fun z => (m2 z).trans ?_⟩
    simp only [m1, Cst.vars, List.mem_append]; tauto
  | callIf a b c iha ihb ihc =>
    obtain ⟨s1, m1⟩ := ihc h.2.2.2.2.2 acc hs
    obtain ⟨s2, m2⟩ := ihb h.2.2.2.2.1 _ s1
    obtain ⟨s3, m3⟩ := iha h.2.2.2.1 _ s2
    refine ⟨s3, fun z => (m3 z).trans ?_⟩
    simp only [m2, m1, Cst.vars, List.mem_append]; tauto
  | bin op a b iha ihb =>
    obtain ⟨s1, m1⟩ := ihb h.2.2.2.2.2.2.2.2 acc hs
    obtain ⟨s2, m2⟩ := iha h.2.2.2.2.2.2.2.1 _ s1
    have he : (Cst.rtree (fun l => .val (lit l)) .var (.bin op a b)).setOfVars acc =
        (a.rtree (fun l => .val (lit l)) .var).setOfVars ((b.rtree (fun l => .val (lit l)) .var).setOfVars acc) := by
      simp only [Cst.rtree]
      split
      · rename_i hl
        obtain ⟨subs, fs, hn⟩ := rtree_node (fun l => Leaf.val (lit l)) .var h.2.2.2.2.2.2.2.1 (by rw [hl]; exact h.1)
        rw [hn]; rfl
      · rfl
    rw [he]
    refine ⟨s2, fun z => (m2 z).trans ?_⟩
    simp only [m1, Cst.vars, List.mem_append]; tauto

/-! ## The parser -/

theorem Cst.str_ne' (c : Cst) (h : c.WF IsNumber) : c.str ≠ [] := by
  induction c with
  | num l => obtain ⟨d1, pt, ex, rfl, hd, _⟩ := h; simp [Cst.str, hd]
  | var x => obtain ⟨c, r, rfl, _⟩ := h; simp [Cst.str]
  | sign sg e _ => simp [Cst.str, h.1]
  | bin op a b iha _ => simp [Cst.str, iha h.2.2.2.2.2.2.2.1]
  | _ => simp [Cst.str]

theorem parseExpr_eq (A : Arith V) (hA : A.Laws) (c : Cst) (h : c.WF IsNumber) (hl : LongLits 0 c.lits) (text : List Char)
    (ht : deleteWS text = c.str) : parseExpr A text = .ok (some (c.rtree (fun l => .val (A.lit l)) .var)) := by
  unfold parseExpr
  simp only [ht]
  have hd := relabel_WF c 0 h
  have hne : c.str ≠ [] := by
    exact Cst.str_ne' c h
  rw [if_neg hne, fillValues_eq A c h hl]
  simp only [ok_bind]
  rw [Cst.brackets _ hd]
  simp only [ok_bind]
  rw [parseDeep_eq A _ _ hd (by omega)]
  simp only [ok_bind]
  rw [replace_tree A hA _ c 0 (by intro i _; simp)]
  simp only [ok_bind, reverse_tree]
  rfl

end MC
