import Mathlib.Data.List.Basic
import Mathlib.Data.List.Nodup
import Mathlib.Algebra.BigOperators.Group.Finset.Basic
import Mathlib.Algebra.Order.BigOperators.Group.Finset

/-!
# Messages between processors: `MPI_Send` and `MPI_Recv`

A processor runs a list of blocking sends and receives; a receive names its source and its tag.  A send may end before the message is received (the message waits in a queue)
or only when the receive takes it: MPI does not say which.  The messages of one source, one destination and one tag are taken in the order they are sent.

A state is stuck when no receive can take a waiting message and no receive can meet its send: progress must not depend on sends ending early.
-/

namespace MC
variable {V : Type}

/-- an action of a processor -/
inductive Act (V : Type) where
  | send (dest tag : Nat) (v : V)
  | recv (src tag : Nat)

/-- what the processors still have to do, the messages which wait (by source, destination and tag) and what the processors received, in order -/
structure NetState (V : Type) where
  rem : Nat → List (Act V)
  chan : Nat → Nat → Nat → List V
  got : Nat → List V

/-- `f` with another value at `a` -/
def upd {α : Type} (f : Nat → α) (a : Nat) (x : α) : Nat → α := fun b => if b = a then x else f b

/-- `f` with another value at `a`, `b`, `c` -/
def upd3 {α : Type} (f : Nat → Nat → Nat → α) (a b c : Nat) (x : α) : Nat → Nat → Nat → α := fun a' b' c' => if a' = a ∧ b' = b ∧ c' = c then x else f a' b' c'

/-- A step which does not need a place to keep a message: a receive takes a waiting message, or a send and a receive meet. -/
inductive SureStep : NetState V → NetState V → Prop
  | take {st : NetState V} {p s t : Nat} {v : V} {r : List (Act V)} {vs : List V} (hr : st.rem p = .recv s t :: r) (hc : st.chan s p t = v :: vs) :
      SureStep st { rem := upd st.rem p r, chan := upd3 st.chan s p t vs, got := upd st.got p (st.got p ++ [v]) }
  | meet {st : NetState V} {p s t : Nat} {v : V} {r r' : List (Act V)} (hne : s ≠ p) (hr : st.rem p = .recv s t :: r) (hs : st.rem s = .send p t v :: r')
      (hc : st.chan s p t = []) :
      SureStep st { rem := upd (upd st.rem p r) s r', chan := st.chan, got := upd st.got p (st.got p ++ [v]) }

/-- A step: also, a send may end before its message is received. -/
inductive Step : NetState V → NetState V → Prop
  | sure {a b : NetState V} (h : SureStep a b) : Step a b
  | keep {st : NetState V} {s d t : Nat} {v : V} {r : List (Act V)} (hs : st.rem s = .send d t v :: r) :
      Step st { rem := upd st.rem s r, chan := upd3 st.chan s d t (st.chan s d t ++ [v]), got := st.got }

/-- The states an execution can be in. -/
inductive NetReach (prog : Nat → List (Act V)) : NetState V → Prop
  | start : NetReach prog { rem := prog, chan := fun _ _ _ => [], got := fun _ => [] }
  | step {a b : NetState V} (h : NetReach prog a) (hs : Step a b) : NetReach prog b

/-! ## A common order of all messages -/

/-- a message: source, destination, tag, and what it contains -/
structure Ev (V : Type) where
  s : Nat
  d : Nat
  t : Nat
  v : V

/-- processor `p` sends or receives the message -/
def Ev.on (e : Ev V) (p : Nat) : Bool := e.s = p || e.d = p

/-- what processor `p` does for the message -/
def Ev.act (e : Ev V) (p : Nat) : Act V := if e.s = p then .send e.d e.t e.v else .recv e.s e.t

/-- what processor `p` has to do when the messages of `E` are sent in this order -/
def projProg (E : List (Ev V)) (p : Nat) : List (Act V) := (E.filter (·.on p)).map (·.act p)

/-- the message is of this source, destination and tag -/
def Ev.isOn (s d t : Nat) (e : Ev V) : Bool := e.s = s && e.d = d && e.t = t

/-- the invariant: `done` and `rem` are the messages done and still to do by each processor -/
structure MInv (E : List (Ev V)) (st : NetState V) (dn rm : Nat → List (Ev V)) : Prop where
  split : ∀ p, dn p ++ rm p = E.filter (·.on p)
  rem : ∀ p, st.rem p = (rm p).map (·.act p)
  chan : ∀ s d t, s ≠ d → ∃ X, (dn s).filter (Ev.isOn s d t) = (dn d).filter (Ev.isOn s d t) ++ X ∧ st.chan s d t = X.map (·.v)
  got : ∀ p, st.got p = ((dn p).filter fun e => decide (e.d = p)).map (·.v)

theorem filter_on_isOn {E : List (Ev V)} {s d t p : Nat} (hp : p = s ∨ p = d) : (E.filter (·.on p)).filter (Ev.isOn s d t) = E.filter (Ev.isOn s d t) := by
  rw [List.filter_filter]
  apply List.filter_congr
  intro e _
  unfold Ev.isOn Ev.on
  by_cases h1 : e.s = s <;> by_cases h2 : e.d = d <;> rcases hp with hp | hp <;> simp_all

theorem isOn_iff {e : Ev V} {s d t : Nat} : Ev.isOn s d t e = true ↔ e.s = s ∧ e.d = d ∧ e.t = t := by
  simp [Ev.isOn, and_assoc]

theorem upd_self {α : Type} (f : Nat → α) (a : Nat) (x : α) : upd f a x a = x := if_pos rfl
theorem upd_ne {α : Type} (f : Nat → α) {a b : Nat} (x : α) (h : b ≠ a) : upd f a x b = f b := if_neg h

/-- the next message of a processor which has to receive -/
theorem act_recv {e : Ev V} {p s t : Nat} (h : e.act p = .recv s t) (hon : e.on p = true) : e.s = s ∧ e.t = t ∧ e.d = p ∧ s ≠ p := by
  unfold Ev.act at h
  by_cases hs : e.s = p
  · rw [if_pos hs] at h; cases h
  · rw [if_neg hs] at h
    cases h
    refine ⟨rfl, rfl, ?_, hs⟩
    simpa [Ev.on, hs] using hon

theorem act_send {e : Ev V} {p d t : Nat} {v : V} (h : e.act p = .send d t v) : e.s = p ∧ e.d = d ∧ e.t = t ∧ e.v = v := by
  unfold Ev.act at h
  by_cases hs : e.s = p
  · rw [if_pos hs] at h; cases h; exact ⟨hs, rfl, rfl, rfl⟩
  · rw [if_neg hs] at h; cases h

theorem MInv.next_on {E : List (Ev V)} {st : NetState V} {dn rm : Nat → List (Ev V)} (h : MInv E st dn rm) {p : Nat} {e : Ev V} {r : List (Ev V)}
    (hr : rm p = e :: r) : e ∈ E ∧ e.on p = true := by
  have : e ∈ E.filter (·.on p) := by rw [← h.split p, hr]; simp
  exact List.mem_filter.1 this

theorem filter_snoc {α : Type} (l : List α) (e : α) (P : α → Bool) : (l ++ [e]).filter P = l.filter P ++ if P e then [e] else [] := by
  rw [List.filter_append]
  congr 1
  by_cases h : P e <;> simp [h]

/-- the message at the head of the rest of `p`, done -/
theorem inv_split_step {E : List (Ev V)} {dn rm : Nat → List (Ev V)} (hs : ∀ p, dn p ++ rm p = E.filter (·.on p)) {p : Nat} {e : Ev V} {r : List (Ev V)}
    (hr : rm p = e :: r) : ∀ q, upd dn p (dn p ++ [e]) q ++ upd rm p r q = E.filter (·.on q) := by
  intro q
  by_cases hq : q = p
  · subst hq
    rw [upd_self, upd_self, ← hs q, hr]; simp
  · rw [upd_ne _ _ hq, upd_ne _ _ hq]; exact hs q

theorem MInv.step {E : List (Ev V)} (hE : ∀ e ∈ E, e.s ≠ e.d) {a b : NetState V} {dn rm : Nat → List (Ev V)} (h : MInv E a dn rm) (hs : Step a b) :
    ∃ dn' rm', MInv E b dn' rm' := by
  cases hs with
  | keep hs =>
    rename_i s d t v r
    rw [h.rem s] at hs
    cases hrm : rm s with
    | nil => rw [hrm] at hs; simp at hs
    | cons e r' =>
      rw [hrm, List.map_cons, List.cons.injEq] at hs
      obtain ⟨hact, hr⟩ := hs
      obtain ⟨e1, e2, e3, e4⟩ := act_send hact
      obtain ⟨hmem, _⟩ := h.next_on hrm
      have hsd : s ≠ d := by have := hE e hmem; rw [e1, e2] at this; exact this
      refine ⟨upd dn s (dn s ++ [e]), upd rm s r', inv_split_step h.split hrm, ?_, ?_, ?_⟩
      · intro p
        by_cases hp : p = s
        · subst hp; simp only [upd_self]; exact hr.symm
        · simp only [upd_ne _ _ hp]; exact h.rem p
      · intro s' d' t' hne'
        obtain ⟨X, hX1, hX2⟩ := h.chan s' d' t' hne'
        by_cases hc : s' = s ∧ d' = d ∧ t' = t
        · obtain ⟨rfl, rfl, rfl⟩ := hc
          refine ⟨X ++ [e], ?_, ?_⟩
          · rw [upd_self, upd_ne _ _ (Ne.symm hne'), filter_snoc, if_pos (isOn_iff.2 ⟨e1, e2, e3⟩), hX1, List.append_assoc]
          · simp [upd3, hX2, e4]
        · have hno : Ev.isOn s' d' t' e = false := by
            rw [Bool.eq_false_iff]
            intro hon
            obtain ⟨k1, k2, k3⟩ := isOn_iff.1 hon
            exact hc ⟨by rw [← k1, e1], by rw [← k2, e2], by rw [← k3, e3]⟩
          have hsame : ∀ q, (upd dn s (dn s ++ [e]) q).filter (Ev.isOn s' d' t') = (dn q).filter (Ev.isOn s' d' t') := by
            intro q
            by_cases hq : q = s
            · subst hq; rw [upd_self, filter_snoc, hno]; simp
            · rw [upd_ne _ _ hq]
          refine ⟨X, by rw [hsame, hsame]; exact hX1, ?_⟩
          simp only [upd3]
          rw [if_neg hc, hX2]
      · intro p
        rw [h.got p]
        by_cases hp : p = s
        · subst hp
          rw [upd_self, filter_snoc, if_neg, List.append_nil]
          simp only [decide_eq_true_eq, e2]
          exact Ne.symm hsd
        · rw [upd_ne _ _ hp]
  | sure hs =>
    cases hs with
    | take hr hc =>
      rename_i p s t v r vs
      rw [h.rem p] at hr
      cases hrm : rm p with
      | nil => rw [hrm] at hr; simp at hr
      | cons e r' =>
        rw [hrm, List.map_cons, List.cons.injEq] at hr
        obtain ⟨hact, hr⟩ := hr
        obtain ⟨hmem, hon⟩ := h.next_on hrm
        obtain ⟨e1, e3, e2, hsp⟩ := act_recv hact hon
        obtain ⟨X, hX1, hX2⟩ := h.chan s p t hsp
        rw [hc] at hX2
        cases X with
        | nil => simp at hX2
        | cons x X =>
          have hxe : x = e := by
            have k1 := congrArg (List.filter (Ev.isOn s p t)) (h.split s)
            have k2 := congrArg (List.filter (Ev.isOn s p t)) (h.split p)
            rw [List.filter_append, filter_on_isOn (Or.inl rfl), hX1] at k1
            rw [List.filter_append, filter_on_isOn (Or.inr rfl), hrm, List.filter_cons, if_pos (isOn_iff.2 ⟨e1, e2, e3⟩), ← k1, List.append_assoc] at k2
            have := List.append_cancel_left k2
            simp only [List.cons_append, List.cons.injEq] at this
            exact this.1.symm
          subst hxe
          simp only [List.map_cons, List.cons.injEq] at hX2
          refine ⟨upd dn p (dn p ++ [x]), upd rm p r', inv_split_step h.split hrm, ?_, ?_, ?_⟩
          · intro q
            by_cases hq : q = p
            · subst hq; simp only [upd_self]; exact hr.symm
            · simp only [upd_ne _ _ hq]; exact h.rem q
          · intro s' d' t' hne'
            by_cases hcc : s' = s ∧ d' = p ∧ t' = t
            · obtain ⟨rfl, rfl, rfl⟩ := hcc
              refine ⟨X, ?_, ?_⟩
              · rw [upd_self, upd_ne _ _ hne', filter_snoc, if_pos (isOn_iff.2 ⟨e1, e2, e3⟩), hX1]; simp
              · simpa [upd3] using hX2.2
            · obtain ⟨Y, hY1, hY2⟩ := h.chan s' d' t' hne'
              have hno : Ev.isOn s' d' t' x = false := by
                rw [Bool.eq_false_iff]
                intro hon
                obtain ⟨k1, k2, k3⟩ := isOn_iff.1 hon
                exact hcc ⟨by rw [← k1, e1], by rw [← k2, e2], by rw [← k3, e3]⟩
              have hsame : ∀ q, (upd dn p (dn p ++ [x]) q).filter (Ev.isOn s' d' t') = (dn q).filter (Ev.isOn s' d' t') := by
                intro q
                by_cases hq : q = p
                · subst hq; rw [upd_self, filter_snoc, hno]; simp
                · rw [upd_ne _ _ hq]
              refine ⟨Y, by rw [hsame, hsame]; exact hY1, ?_⟩
              simp only [upd3]
              rw [if_neg hcc, hY2]
          · intro q
            by_cases hq : q = p
            · subst hq
              simp only [upd_self]
              rw [filter_snoc, if_pos (by simpa using e2), h.got q]; simp [hX2.1]
            · simp only [upd_ne _ _ hq]; exact h.got q
    | meet hne hr hs hc =>
      rename_i p s t v r r2
      rw [h.rem p] at hr
      rw [h.rem s] at hs
      cases hrm : rm p with
      | nil => rw [hrm] at hr; simp at hr
      | cons e r' =>
        cases hrs : rm s with
        | nil => rw [hrs] at hs; simp at hs
        | cons e' r2' =>
          rw [hrm, List.map_cons, List.cons.injEq] at hr
          rw [hrs, List.map_cons, List.cons.injEq] at hs
          obtain ⟨hact, hr⟩ := hr
          obtain ⟨hact', hr2⟩ := hs
          obtain ⟨hmem, hon⟩ := h.next_on hrm
          obtain ⟨e1, e3, e2, hsp⟩ := act_recv hact hon
          obtain ⟨f1, f2, f3, f4⟩ := act_send hact'
          obtain ⟨X, hX1, hX2⟩ := h.chan s p t hsp
          rw [hc] at hX2
          have hX : X = [] := by simpa using hX2.symm
          subst hX
          rw [List.append_nil] at hX1
          have hee : e' = e := by
            have k1 := congrArg (List.filter (Ev.isOn s p t)) (h.split s)
            have k2 := congrArg (List.filter (Ev.isOn s p t)) (h.split p)
            rw [List.filter_append, filter_on_isOn (Or.inl rfl), hX1, hrs, List.filter_cons, if_pos (isOn_iff.2 ⟨f1, f2, f3⟩)] at k1
            rw [List.filter_append, filter_on_isOn (Or.inr rfl), hrm, List.filter_cons, if_pos (isOn_iff.2 ⟨e1, e2, e3⟩), ← k1] at k2
            have := List.append_cancel_left k2
            simp only [List.cons.injEq] at this
            exact this.1.symm
          subst hee
          have hrs' : upd rm p r' s = e' :: r2' := by rw [upd_ne _ _ hsp]; exact hrs
          have hsplit := inv_split_step (inv_split_step h.split hrm) hrs'
          have hdn : upd dn p (dn p ++ [e']) s = dn s := upd_ne _ _ hsp
          rw [hdn] at hsplit
          have hds : upd (upd dn p (dn p ++ [e'])) s (dn s ++ [e']) s = dn s ++ [e'] := upd_self _ _ _
          have hdp : upd (upd dn p (dn p ++ [e'])) s (dn s ++ [e']) p = dn p ++ [e'] := by rw [upd_ne _ _ (Ne.symm hsp), upd_self]
          have hdo : ∀ q, q ≠ s → q ≠ p → upd (upd dn p (dn p ++ [e'])) s (dn s ++ [e']) q = dn q := by
            intro q h1 h2; rw [upd_ne _ _ h1, upd_ne _ _ h2]
          refine ⟨upd (upd dn p (dn p ++ [e'])) s (dn s ++ [e']), upd (upd rm p r') s r2', hsplit, ?_, ?_, ?_⟩
          · intro q
            by_cases hq : q = s
            · subst hq; simp only [upd_self]; exact hr2.symm
            · by_cases hq2 : q = p
              · subst hq2; simp only [upd_ne _ _ hq, upd_self]; exact hr.symm
              · simp only [upd_ne _ _ hq, upd_ne _ _ hq2]; exact h.rem q
          · intro s' d' t' hne'
            by_cases hcc : s' = s ∧ d' = p ∧ t' = t
            · obtain ⟨rfl, rfl, rfl⟩ := hcc
              refine ⟨[], ?_, by simpa using hc⟩
              rw [hds, hdp, filter_snoc, filter_snoc, hX1]; simp
            · obtain ⟨Y, hY1, hY2⟩ := h.chan s' d' t' hne'
              have hno : Ev.isOn s' d' t' e' = false := by
                rw [Bool.eq_false_iff]
                intro hon
                obtain ⟨k1, k2, k3⟩ := isOn_iff.1 hon
                exact hcc ⟨by rw [← k1, e1], by rw [← k2, e2], by rw [← k3, e3]⟩
              have hsame : ∀ q, (upd (upd dn p (dn p ++ [e'])) s (dn s ++ [e']) q).filter (Ev.isOn s' d' t') = (dn q).filter (Ev.isOn s' d' t') := by
                intro q
                by_cases hq : q = s
                · subst hq; rw [hds, filter_snoc, hno]; simp
                · by_cases hq2 : q = p
                  · subst hq2; rw [hdp, filter_snoc, hno]; simp
                  · rw [hdo q hq hq2]
              exact ⟨Y, by rw [hsame, hsame]; exact hY1, hY2⟩
          · intro q
            by_cases hq2 : q = p
            · subst hq2
              simp only [upd_self]
              rw [hdp, filter_snoc, if_pos (by simpa using e2), h.got q]; simp [f4]
            · simp only [upd_ne _ _ hq2]
              by_cases hq : q = s
              · subst hq
                rw [hds, filter_snoc, if_neg (by simp only [decide_eq_true_eq, e2]; exact Ne.symm hsp), List.append_nil]; exact h.got q
              · rw [hdo q hq hq2]; exact h.got q

theorem MInv.reach {E : List (Ev V)} (hE : ∀ e ∈ E, e.s ≠ e.d) {st : NetState V} (h : NetReach (projProg E) st) : ∃ dn rm, MInv E st dn rm := by
  induction h with
  | start =>
    refine ⟨fun _ => [], fun p => E.filter (·.on p), fun p => rfl, fun p => rfl, ?_, fun p => rfl⟩
    intro s d t _
    exact ⟨[], rfl, rfl⟩
  | step _ hs ih =>
    obtain ⟨dn, rm, h⟩ := ih
    exact h.step hE hs

theorem first_fail {α : Type} (P : α → Prop) [DecidablePred P] : ∀ (l : List α), (∃ x ∈ l, ¬ P x) → ∃ a x b, l = a ++ x :: b ∧ (∀ y ∈ a, P y) ∧ ¬ P x
  | [], h => by obtain ⟨x, hx, _⟩ := h; simp at hx
  | y :: l, h => by
    by_cases hy : P y
    · obtain ⟨a, x, b, h1, h2, h3⟩ := first_fail P l (by
        obtain ⟨x, hx, hn⟩ := h
        rcases List.mem_cons.1 hx with rfl | hx
        · exact absurd hy hn
        · exact ⟨x, hx, hn⟩)
      refine ⟨y :: a, x, b, by rw [h1]; rfl, ?_, h3⟩
      intro z hz
      rcases List.mem_cons.1 hz with rfl | hz
      · exact hy
      · exact h2 z hz
    · exact ⟨[], y, l, rfl, by simp, hy⟩

/-- a prefix which contains `A` and not the next element is `A` -/
theorem prefix_exact {α : Type} {l r A B : List α} {e : α} (h : l ++ r = A ++ e :: B) (hA : ∀ x ∈ A, x ∈ l) (he : e ∉ l) (hn : (A ++ e :: B).Nodup) : l = A ∧ r = e :: B := by
  rcases List.append_eq_append_iff.1 h with ⟨a', h1, h2⟩ | ⟨c', h1, h2⟩
  · cases a' with
    | nil => rw [List.append_nil] at h1; exact ⟨h1.symm, by simpa using h2⟩
    | cons x a' =>
      exfalso
      have hx : x ∈ l := hA x (by rw [h1]; simp)
      rw [h1, List.append_assoc] at hn
      exact (List.nodup_append.1 hn).2.2 x hx x (by simp) rfl
  · cases c' with
    | nil => rw [List.append_nil] at h1; exact ⟨h1, by simpa using h2.symm⟩
    | cons x c' =>
      exfalso
      simp only [List.cons_append, List.cons.injEq] at h2
      exact he (by rw [h1, h2.1]; simp)

theorem MInv.received_sent {E : List (Ev V)} {st : NetState V} {dn rm : Nat → List (Ev V)} (h : MInv E st dn rm) {e : Ev V} (hne : e.s ≠ e.d) (he : e ∈ dn e.d) : e ∈ dn e.s := by
  obtain ⟨X, hX, _⟩ := h.chan e.s e.d e.t hne
  have : e ∈ (dn e.s).filter (Ev.isOn e.s e.d e.t) := by
    rw [hX]
    exact List.mem_append_left _ (List.mem_filter.2 ⟨he, isOn_iff.2 ⟨rfl, rfl, rfl⟩⟩)
  exact (List.mem_filter.1 this).1

/-- **No execution is stuck.**  When the programs of the processors follow a common order of the messages, then as long as a processor has something to do a
receive can take a waiting message or meet its send. -/
theorem msg_progress {E : List (Ev V)} (hn : E.Nodup) (hE : ∀ e ∈ E, e.s ≠ e.d) {st : NetState V} (h : NetReach (projProg E) st)
    (hp : ∃ p, st.rem p ≠ []) : ∃ st', SureStep st st' := by
  classical
  obtain ⟨dn, rm, hi⟩ := MInv.reach hE h
  have hex : ∃ e ∈ E, ¬ e ∈ dn e.d := by
    obtain ⟨p, hp⟩ := hp
    rw [hi.rem p] at hp
    cases hrm : rm p with
    | nil => rw [hrm] at hp; simp at hp
    | cons e r =>
      obtain ⟨hmem, hon⟩ := hi.next_on hrm
      have hnd : (dn p ++ rm p).Nodup := by rw [hi.split p]; exact hn.filter _
      have hnot : e ∉ dn p := by
        intro hd
        exact (List.nodup_append.1 hnd).2.2 e hd e (by rw [hrm]; simp) rfl
      refine ⟨e, hmem, fun hd => ?_⟩
      have hse := hi.received_sent (hE e hmem) hd
      simp only [Ev.on, Bool.or_eq_true, decide_eq_true_eq] at hon
      rcases hon with h1 | h1
      · rw [h1] at hse; exact hnot hse
      · rw [h1] at hd; exact hnot hd
  obtain ⟨A, e, B, hEq, hA, he⟩ := first_fail (fun e => e ∈ dn e.d) E hex
  have hmem : e ∈ E := by rw [hEq]; simp
  have hsd := hE e hmem
  have hdone : ∀ p, ∀ x ∈ A.filter (·.on p), x ∈ dn p := by
    intro p x hx
    obtain ⟨hxA, hon⟩ := List.mem_filter.1 hx
    have hxd := hA x hxA
    have hxs := hi.received_sent (hE x (by rw [hEq]; simp [hxA])) hxd
    simp only [Ev.on, Bool.or_eq_true, decide_eq_true_eq] at hon
    rcases hon with h1 | h1
    · rw [h1] at hxs; exact hxs
    · rw [h1] at hxd; exact hxd
  have hexact : ∀ p, e.on p = true → e ∉ dn p → dn p = A.filter (·.on p) ∧ rm p = e :: B.filter (·.on p) := by
    intro p hon hnot
    have hs := hi.split p
    rw [hEq, List.filter_append, List.filter_cons, if_pos hon] at hs
    refine prefix_exact hs (hdone p) hnot ?_
    have := hn.filter (·.on p)
    rw [hEq, List.filter_append, List.filter_cons, if_pos hon] at this
    exact this
  obtain ⟨hd1, hd2⟩ := hexact e.d (by simp [Ev.on]) he
  have hrd : st.rem e.d = .recv e.s e.t :: (B.filter (·.on e.d)).map (·.act e.d) := by
    rw [hi.rem, hd2, List.map_cons, Ev.act, if_neg hsd]
  obtain ⟨X, hX1, hX2⟩ := hi.chan e.s e.d e.t hsd
  have hdf : (dn e.d).filter (Ev.isOn e.s e.d e.t) = A.filter (Ev.isOn e.s e.d e.t) := by
    rw [hd1, filter_on_isOn (Or.inr rfl)]
  by_cases hs : e ∈ dn e.s
  · cases X with
    | nil =>
      exfalso
      have : e ∈ (dn e.s).filter (Ev.isOn e.s e.d e.t) := List.mem_filter.2 ⟨hs, isOn_iff.2 ⟨rfl, rfl, rfl⟩⟩
      rw [hX1, List.append_nil] at this
      exact he (List.mem_filter.1 this).1
    | cons x X =>
      exact ⟨_, .take hrd hX2⟩
  · obtain ⟨hs1, hs2⟩ := hexact e.s (by simp [Ev.on]) hs
    have hrs : st.rem e.s = .send e.d e.t e.v :: (B.filter (·.on e.s)).map (·.act e.s) := by
      rw [hi.rem, hs2, List.map_cons, Ev.act, if_pos rfl]
    have hXn : X = [] := by
      rw [hdf, hs1, filter_on_isOn (Or.inl rfl)] at hX1
      simpa using hX1
    subst hXn
    exact ⟨_, .meet hsd hrd hrs hX2⟩

/-- **At the end every processor received its messages**, in the common order, and no message waits. -/
theorem msg_done {E : List (Ev V)} (hE : ∀ e ∈ E, e.s ≠ e.d) {st : NetState V} (h : NetReach (projProg E) st) (hf : ∀ p, st.rem p = []) :
    (∀ p, st.got p = (E.filter fun e => decide (e.d = p)).map (·.v)) ∧ ∀ s d t, s ≠ d → st.chan s d t = [] := by
  obtain ⟨dn, rm, hi⟩ := MInv.reach hE h
  have hdn : ∀ p, dn p = E.filter (·.on p) := by
    intro p
    have h1 := hi.split p
    have h2 := hf p
    rw [hi.rem p] at h2
    rw [List.map_eq_nil_iff.1 h2, List.append_nil] at h1
    exact h1
  constructor
  · intro p
    rw [hi.got p, hdn p, List.filter_filter]
    congr 1
    apply List.filter_congr
    intro e _
    by_cases hd : e.d = p <;> simp [Ev.on, hd]
  · intro s d t hne
    obtain ⟨X, hX1, hX2⟩ := hi.chan s d t hne
    rw [hdn, hdn, filter_on_isOn (Or.inl rfl), filter_on_isOn (Or.inr rfl)] at hX1
    have : X = [] := by simpa using hX1
    rw [hX2, this]; rfl

/-- what the processors below `N` still have to do -/
def workLeft (N : Nat) (st : NetState V) : Nat := (Finset.range N).sum fun p => (st.rem p).length

theorem workLeft_upd {N p : Nat} (hp : p < N) {f : Nat → List (Act V)} {a : Act V} {r : List (Act V)} (h : f p = a :: r) :
    ((Finset.range N).sum fun q => (upd f p r q).length) + 1 = (Finset.range N).sum fun q => (f q).length := by
  rw [← Finset.add_sum_erase _ _ (Finset.mem_range.2 hp), ← Finset.add_sum_erase (Finset.range N) (fun q => (f q).length) (Finset.mem_range.2 hp)]
  rw [upd_self, h, List.length_cons]
  have : ((Finset.range N).erase p).sum (fun q => (upd f p r q).length) = ((Finset.range N).erase p).sum fun q => (f q).length := by
    apply Finset.sum_congr rfl
    intro q hq
    rw [upd_ne _ _ (Finset.ne_of_mem_erase hq)]
  omega

/-- **Every execution ends**: each step leaves less to do. -/
theorem msg_ends {N : Nat} {E : List (Ev V)} (hE : ∀ e ∈ E, e.s < N ∧ e.d < N ∧ e.s ≠ e.d) {a b : NetState V} (h : NetReach (projProg E) a) (hs : Step a b) :
    workLeft N b < workLeft N a := by
  obtain ⟨dn, rm, hi⟩ := MInv.reach (fun e he => (hE e he).2.2) h
  have hlt : ∀ p x r, a.rem p = x :: r → p < N := by
    intro p x r hr
    rw [hi.rem p] at hr
    cases hrm : rm p with
    | nil => rw [hrm] at hr; simp at hr
    | cons e r' =>
      obtain ⟨hmem, hon⟩ := hi.next_on hrm
      simp only [Ev.on, Bool.or_eq_true, decide_eq_true_eq] at hon
      rcases hon with h1 | h1
      · rw [← h1]; exact (hE e hmem).1
      · rw [← h1]; exact (hE e hmem).2.1
  cases hs with
  | keep hr =>
    have := workLeft_upd (hlt _ _ _ hr) hr
    unfold workLeft
    simp only
    omega
  | sure hs =>
    cases hs with
    | take hr hc =>
      have := workLeft_upd (hlt _ _ _ hr) hr
      unfold workLeft
      simp only
      omega
    | meet hne hr hs hc =>
      rename_i p s t v r r'
      have h1 := workLeft_upd (hlt _ _ _ hr) hr
      have h2 := workLeft_upd (f := upd a.rem p r) (hlt _ _ _ hs) (by rw [upd_ne _ _ hne]; exact hs)
      unfold workLeft
      simp only
      omega


/-! ## Messages with the same content -/

variable {U : Type}

/-- other contents -/
def Act.map (f : U → V) : Act U → Act V
  | .send d t v => .send d t (f v)
  | .recv s t => .recv s t

/-- other contents -/
def NetState.map (f : U → V) (st : NetState U) : NetState V :=
  { rem := fun p => (st.rem p).map (Act.map f), chan := fun s d t => (st.chan s d t).map f, got := fun p => (st.got p).map f }

/-- other content -/
def Ev.map (f : U → V) (e : Ev U) : Ev V := ⟨e.s, e.d, e.t, f e.v⟩

theorem upd_map {α β : Type} (g : α → β) (f : Nat → α) (a : Nat) (x : α) : (fun p => g (upd f a x p)) = upd (fun p => g (f p)) a (g x) := by
  funext p; unfold upd; split <;> rfl

theorem upd3_map {α β : Type} (g : α → β) (f : Nat → Nat → Nat → α) (a b c : Nat) (x : α) :
    (fun s d t => g (upd3 f a b c x s d t)) = upd3 (fun s d t => g (f s d t)) a b c (g x) := by
  funext s d t; unfold upd3; split <;> rfl

theorem map_eq_recv {f : U → V} {l : List (Act U)} {s t : Nat} {r : List (Act V)} (h : l.map (Act.map f) = .recv s t :: r) :
    ∃ r0, l = .recv s t :: r0 ∧ r = r0.map (Act.map f) := by
  cases l with
  | nil => cases h
  | cons a l =>
    rw [List.map_cons, List.cons.injEq] at h
    cases a with
    | send d t v => simp [Act.map] at h
    | recv s' t' =>
      simp only [Act.map, Act.recv.injEq] at h
      obtain ⟨⟨rfl, rfl⟩, h⟩ := h
      exact ⟨l, rfl, h.symm⟩

theorem map_eq_send {f : U → V} {l : List (Act U)} {d t : Nat} {v : V} {r : List (Act V)} (h : l.map (Act.map f) = .send d t v :: r) :
    ∃ u r0, l = .send d t u :: r0 ∧ v = f u ∧ r = r0.map (Act.map f) := by
  cases l with
  | nil => cases h
  | cons a l =>
    rw [List.map_cons, List.cons.injEq] at h
    cases a with
    | recv d t => simp [Act.map] at h
    | send d' t' u =>
      simp only [Act.map, Act.send.injEq] at h
      obtain ⟨⟨rfl, rfl, h1⟩, h⟩ := h
      exact ⟨u, l, rfl, h1.symm, h.symm⟩

theorem SureStep.map (f : U → V) {a b : NetState U} (h : SureStep a b) : SureStep (a.map f) (b.map f) := by
  cases h with
  | take hr hc =>
    rename_i p s t v r vs
    have := SureStep.take (st := a.map f) (p := p) (s := s) (t := t) (v := f v) (r := r.map (Act.map f)) (vs := vs.map f) (by simp [NetState.map, hr, Act.map])
      (by simp [NetState.map, hc])
    unfold NetState.map at this ⊢
    simp only [upd_map (List.map (Act.map f)), upd_map (List.map f), upd3_map (List.map f), List.map_append, List.map_singleton] at this ⊢
    exact this
  | meet hne hr hs hc =>
    rename_i p s t v r r'
    have := SureStep.meet (st := a.map f) (p := p) (s := s) (t := t) (v := f v) (r := r.map (Act.map f)) (r' := r'.map (Act.map f)) hne (by simp [NetState.map, hr, Act.map])
      (by simp [NetState.map, hs, Act.map]) (by simp [NetState.map, hc])
    unfold NetState.map at this ⊢
    simp only [upd_map (List.map (Act.map f)), upd_map (List.map f), List.map_append, List.map_singleton] at this ⊢
    exact this

theorem Step.lift {f : U → V} {a : NetState U} {b : NetState V} (h : Step (a.map f) b) : ∃ b', Step a b' ∧ b'.map f = b := by
  cases h with
  | sure h =>
    cases h with
    | take hr hc =>
      rename_i p s t v r vs
      obtain ⟨r0, h1, rfl⟩ := map_eq_recv hr
      obtain ⟨u, us, h2, rfl, rfl⟩ := List.map_eq_cons_iff.1 hc
      refine ⟨_, .sure (.take h1 h2), ?_⟩
      unfold NetState.map
      simp only [upd_map (List.map (Act.map f)), upd_map (List.map f), upd3_map (List.map f), List.map_append, List.map_singleton]
    | meet hne hr hs hc =>
      rename_i p s t v r r'
      obtain ⟨r0, h1, rfl⟩ := map_eq_recv hr
      obtain ⟨u, r1, h2, rfl, rfl⟩ := map_eq_send hs
      refine ⟨_, .sure (.meet hne h1 h2 (List.map_eq_nil_iff.1 hc)), ?_⟩
      unfold NetState.map
      simp only [upd_map (List.map (Act.map f)), upd_map (List.map f), List.map_append, List.map_singleton]
  | keep hs =>
    rename_i s d t v r
    obtain ⟨u, r1, h2, rfl, rfl⟩ := map_eq_send hs
    refine ⟨_, .keep h2, ?_⟩
    unfold NetState.map
    simp only [upd_map (List.map (Act.map f)), upd3_map (List.map f), List.map_append, List.map_singleton]

theorem NetReach.lift {f : U → V} {prog : Nat → List (Act U)} {st : NetState V} (h : NetReach (fun p => (prog p).map (Act.map f)) st) : ∃ st', NetReach prog st' ∧ st'.map f = st := by
  generalize hp : (fun p => (prog p).map (Act.map f)) = prog' at h
  induction h with
  | start => subst hp; exact ⟨_, .start, rfl⟩
  | step h hs ih =>
    obtain ⟨a', h1, rfl⟩ := ih
    obtain ⟨b', h2, h3⟩ := hs.lift
    exact ⟨b', .step h1 h2, h3⟩

theorem projProg_map (f : U → V) (E : List (Ev U)) (p : Nat) : projProg (E.map (Ev.map f)) p = (projProg E p).map (Act.map f) := by
  unfold projProg
  rw [List.filter_map, List.map_map, List.map_map]
  congr 1
  funext e
  by_cases h : e.s = p <;> simp [Function.comp, Ev.map, Ev.act, Act.map, h]

/-- the messages with their place in the common order -/
def numbered (E : List (Ev V)) : List (Ev (V × Nat)) := E.zipIdx.map fun x => ⟨x.1.s, x.1.d, x.1.t, x.1.v, x.2⟩

theorem numbered_map (E : List (Ev V)) : (numbered E).map (Ev.map Prod.fst) = E := by
  unfold numbered
  rw [List.map_map]
  conv_rhs => rw [← List.zipIdx_map_fst 0 E]
  rfl

theorem numbered_nodup (E : List (Ev V)) : (numbered E).Nodup := by
  unfold numbered
  have h : (E.zipIdx.map Prod.snd).Nodup := by rw [List.zipIdx_map_snd]; exact List.nodup_range'
  rw [List.Nodup, List.pairwise_map] at h ⊢
  refine h.imp ?_
  intro a b hne heq
  simp only [Ev.mk.injEq, Prod.mk.injEq] at heq
  exact hne heq.2.2.2.2

/-- **No execution is stuck**, also when some messages are the same. -/
theorem msg_progress_any {E : List (Ev V)} (hE : ∀ e ∈ E, e.s ≠ e.d) {st : NetState V} (h : NetReach (projProg E) st) (hp : ∃ p, st.rem p ≠ []) : ∃ st', SureStep st st' := by
  have hpr : projProg E = fun p => (projProg (numbered E) p).map (Act.map Prod.fst) := by
    funext p
    rw [← projProg_map, numbered_map]
  rw [hpr] at h
  obtain ⟨st', h1, rfl⟩ := h.lift
  obtain ⟨p, hp⟩ := hp
  obtain ⟨st2, h2⟩ := msg_progress (numbered_nodup E) (by
    intro e he
    have : e.map Prod.fst ∈ E := by rw [← numbered_map E]; exact List.mem_map.2 ⟨e, he, rfl⟩
    exact hE _ this) h1 ⟨p, by
      intro hn; apply hp; simp [NetState.map, hn]⟩
  exact ⟨_, h2.map Prod.fst⟩

end MC
