import Verif.TimeLabel
import Mathlib.Tactic.ByContra

/-!
# Time labels (C28) – proofs
-/

namespace MC

/-- A reachable state: every label was handed out, and every part is an existing object. -/
structure TLOk (s : TLState) : Prop where
  len : s.parts.length = s.time.length
  label : ∀ t ∈ s.time, t < s.global
  parts : ∀ (o : Nat) (l : List Nat), s.parts[o]? = some l → ∀ p ∈ l, p < s.time.length

/-- The objects an operation mentions exist. -/
def TLLegal (s : TLState) : TLOp → Prop
  | .new ps => ∀ p ∈ ps, p < s.time.length
  | .copy o ps => o < s.time.length ∧ ∀ p ∈ ps, p < s.time.length
  | .newForced o ps => o < s.time.length ∧ ∀ p ∈ ps, p < s.time.length
  | .declareAsNew o => o < s.time.length
  | .assign o => o < s.time.length
  | .updateTime o => o < s.time.length
  | .setParts o ps => o < s.time.length ∧ ∀ p ∈ ps, p < s.time.length

def TLLegalRun : TLState → List TLOp → Prop
  | _, [] => True
  | s, op :: l => TLLegal s op ∧ ∀ s', tlStep s op = .ok s' → TLLegalRun s' l

/-- The object that an operation declares modified. -/
def TLOp.modifies : TLOp → Option Nat
  | .declareAsNew o => some o
  | .assign o => some o
  | .setParts o _ => some o
  | _ => none

/-- Labels of existing objects never go down, `GLOBAL_TIME` neither, objects do not disappear. -/
structure TLLe (s s' : TLState) : Prop where
  global : s.global ≤ s'.global
  len : s.time.length ≤ s'.time.length
  time : ∀ (x : Nat) (t : Nat), s.time[x]? = some t → ∃ t', s'.time[x]? = some t' ∧ t ≤ t'

theorem TLLe.refl (s : TLState) : TLLe s s := ⟨Nat.le_refl _, Nat.le_refl _, fun _ t h => ⟨t, h, Nat.le_refl _⟩⟩

theorem TLLe.trans {a b c : TLState} (h1 : TLLe a b) (h2 : TLLe b c) : TLLe a c := by
  refine ⟨Nat.le_trans h1.global h2.global, Nat.le_trans h1.len h2.len, fun x t h => ?_⟩
  obtain ⟨t1, e1, l1⟩ := h1.time x t h
  obtain ⟨t2, e2, l2⟩ := h2.time x t1 e1
  exact ⟨t2, e2, Nat.le_trans l1 l2⟩

theorem rd_get {α : Type} {l : List α} {i : Nat} (h : i < l.length) : rd l (i : Int) = .ok l[i] := by
  simp [rd, List.getElem?_eq_getElem h]

theorem wr_get {α : Type} {l : List α} {i : Nat} (v : α) (h : i < l.length) : wr l (i : Int) v = .ok (l.set i v) := by
  simp [wr, h]

theorem declareAsNew_spec {s : TLState} {o : Nat} (hs : TLOk s) (ho : o < s.time.length) :
    ∃ s', declareAsNew o s = .ok s' ∧ TLOk s' ∧ TLLe s s' ∧ s'.time[o]? = some s.global ∧ s'.parts = s.parts ∧
      ∀ x, x ≠ o → s'.time[x]? = s.time[x]? := by
  refine ⟨{ s with global := s.global + 1, time := s.time.set o s.global }, by simp [declareAsNew, wr_get _ ho, ok_bind], ⟨?_, ?_, ?_⟩,
    ⟨by simp, by simp, ?_⟩, by simp [ho], rfl, ?_⟩
  · simp [hs.len]
  · intro t ht
    rcases List.mem_or_eq_of_mem_set ht with h | h
    · have := hs.label t h; simp only; omega
    · simp only; omega
  · intro a l h p hp
    have := hs.parts a l h p hp
    simpa using this
  · intro x t h
    simp only [List.getElem?_set]
    by_cases hx : o = x
    · subst hx
      have := hs.label t (List.mem_of_getElem? h)
      exact ⟨s.global, by simp [ho], by omega⟩
    · exact ⟨t, by simp [hx, h], Nat.le_refl _⟩
  · intro x hx
    have hx' : o ≠ x := fun e => hx e.symm
    simp only
    rw [List.getElem?_set_ne hx']

/-- Only the label of `o` changed. -/
structure OnlyLabel (o : Nat) (s s' : TLState) : Prop where
  global : s'.global = s.global
  parts : s'.parts = s.parts
  len : s'.time.length = s.time.length
  other : ∀ x, x ≠ o → s'.time[x]? = s.time[x]?

theorem updateTimeWith_spec {s : TLState} {o p : Nat} {a b : Nat} (hs : TLOk s) (ho : s.time[o]? = some a) (hp : s.time[p]? = some b) :
    ∃ s', updateTimeWith o s p = .ok s' ∧ TLOk s' ∧ TLLe s s' ∧ OnlyLabel o s s' ∧ s'.time[o]? = some (max a b) := by
  have hol : o < s.time.length := (List.getElem?_eq_some_iff.mp ho).1
  have hpl : p < s.time.length := (List.getElem?_eq_some_iff.mp hp).1
  have hoe : s.time[o] = a := (List.getElem?_eq_some_iff.mp ho).2
  have hpe : s.time[p] = b := (List.getElem?_eq_some_iff.mp hp).2
  simp only [updateTimeWith, getTime, rd_get hol, rd_get hpl, ok_bind, hoe, hpe]
  by_cases hab : a < b
  · rw [if_pos hab, wr_get _ hol]
    refine ⟨{ s with time := s.time.set o b }, rfl, ⟨by simp [hs.len], ?_, ?_⟩, ⟨Nat.le_refl _, by simp, ?_⟩,
      ⟨rfl, rfl, by simp, ?_⟩, ?_⟩
    · intro t ht
      rcases List.mem_or_eq_of_mem_set ht with h | h
      · exact hs.label t h
      · rw [h]; exact hs.label b (List.mem_of_getElem? hp)
    · intro x l h q hq
      have := hs.parts x l h q hq
      simpa using this
    · intro x t h
      simp only [List.getElem?_set]
      by_cases hx : o = x
      · subst hx
        rw [ho] at h
        simp only [Option.some.injEq] at h
        exact ⟨b, by simp [hol], by omega⟩
      · exact ⟨t, by simp [hx, h], Nat.le_refl _⟩
    · intro x hx
      have hx' : o ≠ x := fun e => hx e.symm
      simp only
      rw [List.getElem?_set_ne hx']
    · simp [hol]; omega
  · rw [if_neg hab]
    refine ⟨s, rfl, hs, TLLe.refl s, ⟨rfl, rfl, rfl, fun _ _ => rfl⟩, ?_⟩
    rw [ho]
    congr 1
    omega

/-- `updateTime` along a list of parts: the label becomes the greatest of all of them – of the own one and those of the parts. -/
theorem updateParts_spec {o : Nat} : ∀ (l : List Nat) (s : TLState) (a : Nat), TLOk s → s.time[o]? = some a → (∀ p ∈ l, p < s.time.length) →
    ∃ s', l.foldlM (m := Except Err) (updateTimeWith o) s = .ok s' ∧ TLOk s' ∧ TLLe s s' ∧ OnlyLabel o s s' ∧
      ∃ a', s'.time[o]? = some a' ∧ a ≤ a' ∧ (∀ p ∈ l, ∀ b, s.time[p]? = some b → b ≤ a') ∧
        (a' = a ∨ ∃ p ∈ l, s.time[p]? = some a') := by
  intro l
  induction l with
  | nil =>
    intro s a hs ha _
    exact ⟨s, rfl, hs, TLLe.refl s, ⟨rfl, rfl, rfl, fun _ _ => rfl⟩, a, ha, Nat.le_refl _, by simp, Or.inl rfl⟩
  | cons p l ih =>
    intro s a hs ha hl
    have hpl := hl p (by simp)
    obtain ⟨s1, e1, ok1, le1, on1, t1⟩ := updateTimeWith_spec hs ha (List.getElem?_eq_getElem hpl)
    obtain ⟨s2, e2, ok2, le2, on2, a', t2, h1, h2, h3⟩ := ih s1 (max a s.time[p]) ok1 t1 (by
      intro q hq
      rw [on1.len]
      exact hl q (by simp [hq]))
    refine ⟨s2, by simp only [List.foldlM_cons, e1, ok_bind, e2], ok2, le1.trans le2,
      ⟨on2.global.trans on1.global, on2.parts.trans on1.parts, on2.len.trans on1.len, fun x hx => (on2.other x hx).trans (on1.other x hx)⟩,
      a', t2, by omega, ?_, ?_⟩
    · intro q hq b hb
      rcases List.mem_cons.mp hq with rfl | hq
      · rw [List.getElem?_eq_getElem hpl] at hb
        simp only [Option.some.injEq] at hb
        omega
      · by_cases hqo : q = o
        · subst hqo
          rw [ha] at hb
          simp only [Option.some.injEq] at hb
          omega
        · exact h2 q hq b (by rw [on1.other q hqo]; exact hb)
    · rcases h3 with h3 | ⟨q, hq, hb⟩
      · by_cases hap : a < s.time[p]
        · refine Or.inr ⟨p, by simp, ?_⟩
          rw [List.getElem?_eq_getElem hpl, h3]
          congr 1
          omega
        · exact Or.inl (by omega)
      · by_cases hqo : q = o
        · subst hqo
          rw [t1] at hb
          simp only [Option.some.injEq] at hb
          by_cases hap : a < s.time[p]
          · refine Or.inr ⟨p, by simp, ?_⟩
            rw [List.getElem?_eq_getElem hpl]
            congr 1
            omega
          · exact Or.inl (by omega)
        · exact Or.inr ⟨q, by simp [hq], by rw [← on1.other q hqo]; exact hb⟩

/-- **C28** After `updateTime` the label of a composite is at least as recent as before and as those of its parts – and it is one of them. -/
theorem C28_updateTime {s : TLState} {o : Nat} {a : Nat} {l : List Nat} (hs : TLOk s) (ha : s.time[o]? = some a) (hl : s.parts[o]? = some l) :
    ∃ s', updateTime o s = .ok s' ∧ TLOk s' ∧ TLLe s s' ∧ OnlyLabel o s s' ∧
      ∃ a', s'.time[o]? = some a' ∧ a ≤ a' ∧ (∀ p ∈ l, ∀ b, s.time[p]? = some b → b ≤ a') ∧
        (a' = a ∨ ∃ p ∈ l, s.time[p]? = some a') := by
  simp only [updateTime, hl]
  exact updateParts_spec l s a hs ha (hs.parts o l hl)

theorem tlok_append {s : TLState} {t g : Nat} {ps : List Nat} (hs : TLOk s) (hg : s.global ≤ g) (ht : t < g)
    (hp : ∀ p ∈ ps, p < s.time.length) : TLOk ⟨g, s.time ++ [t], s.parts ++ [ps]⟩ ∧ TLLe s ⟨g, s.time ++ [t], s.parts ++ [ps]⟩ := by
  refine ⟨⟨by simp [hs.len], ?_, ?_⟩, ⟨hg, by simp, ?_⟩⟩
  · intro x hx
    simp only [List.mem_append, List.mem_singleton] at hx
    rcases hx with h | rfl
    · have := hs.label x h; simp only; omega
    · exact ht
  · intro o l h p hpl
    simp only [List.length_append, List.length_cons, List.length_nil]
    by_cases ho : o < s.parts.length
    · rw [List.getElem?_append_left ho] at h
      have := hs.parts o l h p hpl
      omega
    · rw [List.getElem?_append_right (by omega)] at h
      have : l = ps := by
        cases hh : o - s.parts.length with
        | zero => rw [hh] at h; simpa using h.symm
        | succ n => rw [hh] at h; simp at h
      subst this
      have := hp p hpl
      omega
  · intro x y h
    have hx : x < s.time.length := (List.getElem?_eq_some_iff.mp h).1
    exact ⟨y, by simp only; rw [List.getElem?_append_left hx]; exact h, Nat.le_refl _⟩

/-- **C28** Every operation succeeds; labels only grow; and what is declared modified gets a label that is greater than all labels handed
out before. -/
theorem C28_step {s : TLState} {op : TLOp} (hs : TLOk s) (hl : TLLegal s op) :
    ∃ s', tlStep s op = .ok s' ∧ TLOk s' ∧ TLLe s s' ∧
      ∀ x, op.modifies = some x → ∃ t, s'.time[x]? = some t ∧ ∀ u ∈ s.time, u < t := by
  cases op with
  | new ps =>
    obtain ⟨h1, h2⟩ := tlok_append (t := s.global) (g := s.global + 1) hs (by omega) (by omega) hl
    exact ⟨_, rfl, h1, h2, by simp [TLOp.modifies]⟩
  | copy o ps =>
    have ho := hl.1
    obtain ⟨h1, h2⟩ := tlok_append (t := s.time[o]) (g := s.global) hs (by omega) (hs.label _ (List.getElem_mem ho)) hl.2
    exact ⟨_, by simp only [tlStep, getTime, rd_get ho, ok_bind], h1, h2, by simp [TLOp.modifies]⟩
  | newForced o ps =>
    have ho := hl.1
    have hlt := hs.label _ (List.getElem_mem ho)
    obtain ⟨h1, h2⟩ := tlok_append (t := s.time[o]) (g := s.global + 1) hs (by omega) (by omega) hl.2
    exact ⟨_, by simp only [tlStep, getTime, rd_get ho, ok_bind], h1, h2, by simp [TLOp.modifies]⟩
  | declareAsNew o =>
    obtain ⟨s', h1, h2, h3, h4, _⟩ := declareAsNew_spec hs hl
    refine ⟨s', h1, h2, h3, ?_⟩
    intro x hx
    simp only [TLOp.modifies, Option.some.injEq] at hx
    subst hx
    exact ⟨_, h4, hs.label⟩
  | assign o =>
    obtain ⟨s', h1, h2, h3, h4, _⟩ := declareAsNew_spec hs hl
    refine ⟨s', h1, h2, h3, ?_⟩
    intro x hx
    simp only [TLOp.modifies, Option.some.injEq] at hx
    subst hx
    exact ⟨_, h4, hs.label⟩
  | updateTime o =>
    have ho : o < s.time.length := hl
    have hpo : o < s.parts.length := by rw [hs.len]; exact ho
    obtain ⟨s', h1, h2, h3, _⟩ := C28_updateTime hs (List.getElem?_eq_getElem ho) (List.getElem?_eq_getElem hpo)
    exact ⟨s', h1, h2, h3, by simp [TLOp.modifies]⟩
  | setParts o ps =>
    have ho := hl.1
    have hpo : o < s.parts.length := by rw [hs.len]; exact ho
    have hs1 : TLOk { s with parts := s.parts.set o ps } := by
      refine ⟨by simp [hs.len], hs.label, ?_⟩
      intro x l h p hp
      simp only [List.getElem?_set] at h
      split at h
      · simp only [hpo, if_true, Option.some.injEq] at h
        subst h
        exact hl.2 p hp
      · exact hs.parts x l h p hp
    obtain ⟨s', h1, h2, h3, h4, _⟩ := declareAsNew_spec (o := o) hs1 ho
    refine ⟨s', by simp only [tlStep, wr_get _ hpo, ok_bind, h1], h2, ⟨h3.global, h3.len, h3.time⟩, ?_⟩
    intro x hx
    simp only [TLOp.modifies, Option.some.injEq] at hx
    subst hx
    exact ⟨_, h4, hs.label⟩

theorem tlRun_spec : ∀ (ops : List TLOp) (s : TLState), TLOk s → TLLegalRun s ops → ∃ s', tlRun s ops = .ok s' ∧ TLOk s' ∧ TLLe s s' := by
  intro ops
  induction ops with
  | nil => intro s hs _; exact ⟨s, rfl, hs, TLLe.refl s⟩
  | cons op l ih =>
    intro s hs hl
    obtain ⟨s1, h1, h2, h3, _⟩ := C28_step hs hl.1
    obtain ⟨s2, h4, h5, h6⟩ := ih s1 h2 (hl.2 s1 h1)
    exact ⟨s2, by simp only [tlRun, h1, ok_bind, h4], h5, h3.trans h6⟩

theorem tlRun_append (a b : List TLOp) (s : TLState) : tlRun s (a ++ b) = (tlRun s a >>= fun s' => tlRun s' b) := by
  induction a generalizing s with
  | nil => rfl
  | cons op l ih =>
    simp only [List.cons_append, tlRun]
    cases h : tlStep s op with
    | error e => rfl
    | ok s1 => simp only [ok_bind, ih]

theorem legalRun_append {a b : List TLOp} {s s' : TLState} (h : TLLegalRun s (a ++ b)) (hr : tlRun s a = .ok s') : TLLegalRun s' b := by
  induction a generalizing s with
  | nil =>
    simp only [tlRun, Except.ok.injEq] at hr
    exact hr ▸ h
  | cons op l ih =>
    simp only [tlRun] at hr
    cases h1 : tlStep s op with
    | error e => rw [h1] at hr; simp [err_bind] at hr
    | ok s1 =>
      rw [h1, ok_bind] at hr
      exact ih (h.2 s1 h1) hr

theorem legalRun_left {a b : List TLOp} {s : TLState} (h : TLLegalRun s (a ++ b)) : TLLegalRun s a := by
  induction a generalizing s with
  | nil => trivial
  | cons op l ih => exact ⟨h.1, fun s' hs' => ih (h.2 s' hs')⟩

/-- **C28** An overseer misses no modification of the object it watches nor of a direct part of it: if, at any point of a history after the
overseer was set, an operation declared the object itself or one of its present parts modified, `checkConst` throws. -/
theorem C28_overseer {s s1 s2 : TLState} {o ref x : Nat} {pre post : List TLOp} {op : TLOp} {l : List Nat} (hs : TLOk s)
    (ho : o < s.time.length) (hnew : overseerNew o s = .ok (s1, ref)) (hl : TLLegalRun s1 (pre ++ op :: post))
    (hr : tlRun s1 (pre ++ op :: post) = .ok s2) (hmod : op.modifies = some x) (hpl : s2.parts[o]? = some l) (hx : x = o ∨ x ∈ l) :
    checkConst o ref s2 = .error .exn := by
  have hpo : o < s.parts.length := by rw [hs.len]; exact ho
  obtain ⟨s1', u1, u2, u3, u4, a1, u5, _⟩ := C28_updateTime hs (List.getElem?_eq_getElem ho) (List.getElem?_eq_getElem hpo)
  have ho1 : o < s1'.time.length := (List.getElem?_eq_some_iff.mp u5).1
  simp only [overseerNew, u1, ok_bind, getTime, rd_get ho1, Except.ok.injEq, Prod.mk.injEq] at hnew
  obtain ⟨rfl, rfl⟩ := hnew
  -- the state just before the modification
  obtain ⟨sm, m1, m2, m3⟩ := tlRun_spec pre s1' u2 (legalRun_left hl)
  have hl2 := legalRun_append hl m1
  obtain ⟨sm', n1, n2, n3, n4⟩ := C28_step m2 hl2.1
  obtain ⟨t, ht, hgt⟩ := n4 x hmod
  obtain ⟨sf, f1, f2, f3⟩ := tlRun_spec post sm' n2 (hl2.2 sm' n1)
  have : sf = s2 := by
    rw [tlRun_append, m1, ok_bind] at hr
    simp only [tlRun, n1, ok_bind, f1, Except.ok.injEq] at hr
    exact hr
  subst this
  -- labels
  obtain ⟨tref, r1, r2⟩ := m3.time o s1'.time[o] (List.getElem?_eq_getElem ho1)
  have hrt : s1'.time[o] < t := Nat.lt_of_le_of_lt r2 (hgt tref (List.mem_of_getElem? r1))
  obtain ⟨tx, x1, x2⟩ := f3.time x t ht
  obtain ⟨to1, o1, _⟩ := n3.time o tref r1
  obtain ⟨to2, o2, _⟩ := f3.time o to1 o1
  obtain ⟨s3, c1, c2, c3, c4, a', c5, c6, c7, _⟩ := C28_updateTime f2 o2 hpl
  have ho3 : o < s3.time.length := (List.getElem?_eq_some_iff.mp c5).1
  have ha' : s3.time[o] = a' := (List.getElem?_eq_some_iff.mp c5).2
  have : tx ≤ a' := by
    rcases hx with rfl | hx
    · rw [x1] at o2
      simp only [Option.some.injEq] at o2
      omega
    · exact c7 x hx tx x1
  simp only [checkConst, c1, ok_bind, getTime, rd_get ho3]
  rw [if_pos (by omega)]
  rfl

/-- **C28** No false alarm, and the limit of the mechanism: operations on objects other than the watched one and its direct parts (and
`updateTime` on the watched one) are never noticed – whether or not these objects are parts of the parts. -/
theorem C28_overseer_quiet {s s1 s2 : TLState} {o ref : Nat} {ops : List TLOp} {l : List Nat} (hs : TLOk s) (ho : o < s.time.length)
    (hpl : s.parts[o]? = some l) (hnew : overseerNew o s = .ok (s1, ref)) (hl : TLLegalRun s1 ops) (hr : tlRun s1 ops = .ok s2)
    (hq : ∀ op ∈ ops, match op with
      | .declareAsNew x => x ≠ o ∧ x ∉ l
      | .assign x => x ≠ o ∧ x ∉ l
      | .setParts x _ => x ≠ o ∧ x ∉ l
      | .updateTime x => x ∉ l
      | _ => True) :
    ∃ s3, checkConst o ref s2 = .ok s3 := by
  obtain ⟨s1', u1, u2, u3, u4, a1, u5, u6, u7, u8⟩ := C28_updateTime hs (List.getElem?_eq_getElem ho) hpl
  have ho1 : o < s1'.time.length := (List.getElem?_eq_some_iff.mp u5).1
  have ha1 : s1'.time[o] = a1 := (List.getElem?_eq_some_iff.mp u5).2
  simp only [overseerNew, u1, ok_bind, getTime, rd_get ho1, Except.ok.injEq, Prod.mk.injEq] at hnew
  obtain ⟨rfl, rfl⟩ := hnew
  -- the watched object and its parts keep labels that are no greater than the reference
  have key : ∀ (ops : List TLOp) (s : TLState), TLOk s → s.parts[o]? = some l → s.time[o]? = some a1 →
      (∀ p ∈ l, ∃ b, s.time[p]? = some b ∧ b ≤ a1) → TLLegalRun s ops → (∀ op ∈ ops, match op with
        | .declareAsNew x => x ≠ o ∧ x ∉ l
        | .assign x => x ≠ o ∧ x ∉ l
        | .setParts x _ => x ≠ o ∧ x ∉ l
        | .updateTime x => x ∉ l
        | _ => True) → ∀ s2, tlRun s ops = .ok s2 →
      TLOk s2 ∧ s2.parts[o]? = some l ∧ s2.time[o]? = some a1 ∧ ∀ p ∈ l, ∃ b, s2.time[p]? = some b ∧ b ≤ a1 := by
    intro ops
    induction ops with
    | nil =>
      intro s hs h1 h2 h3 _ _ s2 hr
      simp only [tlRun, Except.ok.injEq] at hr
      subst hr
      exact ⟨hs, h1, h2, h3⟩
    | cons op ops ih =>
      intro s hs h1 h2 h3 hl hq s2 hr
      obtain ⟨s', e1, e2, e3, _⟩ := C28_step hs hl.1
      simp only [tlRun, e1, ok_bind] at hr
      have hop := hq op (by simp)
      have happ : ∀ (t : Nat) (x : Nat) (y : Nat), s.time[x]? = some y → (s.time ++ [t])[x]? = some y := by
        intro t x y h
        rw [List.getElem?_append_left (List.getElem?_eq_some_iff.mp h).1]
        exact h
      have hpapp : ∀ ps, (s.parts ++ [ps])[o]? = some l := by
        intro ps
        rw [List.getElem?_append_left (List.getElem?_eq_some_iff.mp h1).1]
        exact h1
      have hdec : ∀ (x : Nat) (sx : TLState), sx.time = s.time → TLOk sx → sx.parts[o]? = some l → x < sx.time.length → x ≠ o → x ∉ l →
          declareAsNew x sx = .ok s' → s'.parts[o]? = some l ∧ s'.time[o]? = some a1 ∧ ∀ p ∈ l, ∃ b, s'.time[p]? = some b ∧ b ≤ a1 := by
        intro x sx ht hok hp hx hxo hxl hd
        obtain ⟨s'', d1, _, _, _, d5, d6⟩ := declareAsNew_spec hok hx
        rw [d1] at hd
        simp only [Except.ok.injEq] at hd
        subst hd
        refine ⟨by rw [d5]; exact hp, by rw [d6 o (fun e => hxo e.symm), ht]; exact h2, fun p hp => ?_⟩
        rw [d6 p (by rintro rfl; exact hxl hp), ht]
        exact h3 p hp
      have hthis : s'.parts[o]? = some l ∧ s'.time[o]? = some a1 ∧ ∀ p ∈ l, ∃ b, s'.time[p]? = some b ∧ b ≤ a1 := by
        cases op with
        | new ps =>
          simp only [tlStep, Except.ok.injEq] at e1
          subst e1
          exact ⟨hpapp ps, happ _ _ _ h2, fun p hp => by obtain ⟨b, b1, b2⟩ := h3 p hp; exact ⟨b, happ _ _ _ b1, b2⟩⟩
        | copy x ps =>
          simp only [tlStep, getTime, rd_get hl.1.1, ok_bind, Except.ok.injEq] at e1
          subst e1
          exact ⟨hpapp ps, happ _ _ _ h2, fun p hp => by obtain ⟨b, b1, b2⟩ := h3 p hp; exact ⟨b, happ _ _ _ b1, b2⟩⟩
        | newForced x ps =>
          simp only [tlStep, getTime, rd_get hl.1.1, ok_bind, Except.ok.injEq] at e1
          subst e1
          exact ⟨hpapp ps, happ _ _ _ h2, fun p hp => by obtain ⟨b, b1, b2⟩ := h3 p hp; exact ⟨b, happ _ _ _ b1, b2⟩⟩
        | declareAsNew x => exact hdec x s rfl hs h1 hl.1 hop.1 hop.2 e1
        | assign x => exact hdec x s rfl hs h1 hl.1 hop.1 hop.2 e1
        | setParts x ps =>
          have hxp : x < s.parts.length := by rw [hs.len]; exact hl.1.1
          simp only [tlStep, wr_get _ hxp, ok_bind] at e1
          refine hdec x { s with parts := s.parts.set x ps } rfl ?_ ?_ hl.1.1 hop.1 hop.2 e1
          · refine ⟨by simp [hs.len], hs.label, ?_⟩
            intro y l' h p hp
            simp only [List.getElem?_set] at h
            split at h
            · simp only [hxp, if_true, Option.some.injEq] at h
              subst h
              exact hl.1.2 p hp
            · exact hs.parts y l' h p hp
          · simp only
            rw [List.getElem?_set_ne hop.1]
            exact h1
        | updateTime x =>
          have hx : x < s.time.length := hl.1
          have hxp : x < s.parts.length := by rw [hs.len]; exact hx
          obtain ⟨s'', d1, _, _, d4, a', d5, d6, d7, d8⟩ := C28_updateTime hs (List.getElem?_eq_getElem hx) (List.getElem?_eq_getElem hxp)
          simp only [tlStep, d1, Except.ok.injEq] at e1
          subst e1
          refine ⟨by rw [d4.parts]; exact h1, ?_, ?_⟩
          · by_cases hxo : x = o
            · subst hxo
              have hsl : s.parts[x] = l := by
                rw [List.getElem?_eq_getElem hxp] at h1
                simpa using h1
              have hsa : s.time[x] = a1 := by
                rw [List.getElem?_eq_getElem hx] at h2
                simpa using h2
              rw [d5]
              rcases d8 with d8 | ⟨p, hp, hb⟩
              · rw [d8, hsa]
              · rw [hsl] at hp
                obtain ⟨b, b1, b2⟩ := h3 p hp
                rw [b1] at hb
                simp only [Option.some.injEq] at hb
                congr 1
                omega
            · rw [d4.other o (fun e => hxo e.symm)]
              exact h2
          · intro p hp
            rw [d4.other p (by rintro rfl; exact hop hp)]
            exact h3 p hp
      exact ih s' e2 hthis.1 hthis.2.1 hthis.2.2 (hl.2 s' e1) (fun op' hop' => hq op' (by simp [hop'])) s2 hr
  have hu : ∀ p ∈ l, ∃ b, s1'.time[p]? = some b ∧ b ≤ a1 := by
    intro p hp
    have hpt := hs.parts o l hpl p hp
    by_cases hpo : p = o
    · subst hpo
      exact ⟨a1, u5, Nat.le_refl _⟩
    · exact ⟨s.time[p], by rw [u4.other p hpo]; exact List.getElem?_eq_getElem hpt, u7 p hp _ (List.getElem?_eq_getElem hpt)⟩
  obtain ⟨g1, g2, g3, g4⟩ := key ops s1' u2 (by rw [u4.parts]; exact hpl) u5 hu hl hq s2 hr
  obtain ⟨s3, c1, c2, c3, c4, a', c5, c6, c7, c8⟩ := C28_updateTime g1 g3 g2
  have ho3 : o < s3.time.length := (List.getElem?_eq_some_iff.mp c5).1
  have ha' : s3.time[o] = a' := (List.getElem?_eq_some_iff.mp c5).2
  have heq : a' = a1 := by
    rcases c8 with c8 | ⟨p, hp, hb⟩
    · exact c8
    · obtain ⟨b, b1, b2⟩ := g4 p hp
      rw [b1] at hb
      simp only [Option.some.injEq] at hb
      omega
  refine ⟨s3, ?_⟩
  simp only [checkConst, c1, ok_bind, getTime, rd_get ho3]
  rw [if_neg (by omega)]

/-- Each object of the list is a direct part of the next one, the first one has `x` as a part. -/
def PartChain (s : TLState) : Nat → List Nat → Prop
  | _, [] => True
  | x, c :: cs => (∃ l, s.parts[c]? = some l ∧ x ∈ l) ∧ PartChain s c cs

theorem PartChain.congr {s s' : TLState} (h : s'.parts = s.parts) : ∀ {cs : List Nat} {x : Nat}, PartChain s x cs → PartChain s' x cs := by
  intro cs
  induction cs with
  | nil => intro x _; trivial
  | cons c cs ih =>
    intro x hc
    refine ⟨?_, ih hc.2⟩
    rw [h]
    exact hc.1

/-- **C28** Modifications deep inside are seen if `updateTime` is called from the bottom up: the label of the outermost object becomes at
least that of the innermost. -/
theorem C28_bottom_up : ∀ (cs : List Nat) (s : TLState) (x t : Nat), TLOk s → PartChain s x cs → s.time[x]? = some t →
    ∃ s' t', tlRun s (cs.map .updateTime) = .ok s' ∧ s'.time[(x :: cs).getLast (by simp)]? = some t' ∧ t ≤ t' := by
  intro cs
  induction cs with
  | nil => intro s x t _ _ h; exact ⟨s, t, rfl, h, Nat.le_refl _⟩
  | cons c cs ih =>
    intro s x t hs hc ht
    obtain ⟨⟨l, hl, hx⟩, hc2⟩ := hc
    have hcl : c < s.time.length := by
      rw [← hs.len]
      exact (List.getElem?_eq_some_iff.mp hl).1
    obtain ⟨s1, e1, e2, _, e4, a', e5, _, e7, _⟩ := C28_updateTime hs (List.getElem?_eq_getElem hcl) hl
    obtain ⟨s2, t2, f1, f2, f3⟩ := ih s1 c a' e2 (hc2.congr e4.parts) e5
    refine ⟨s2, t2, ?_, ?_, Nat.le_trans (e7 x hx t ht) f3⟩
    · simp only [List.map_cons, tlRun, tlStep, e1, ok_bind, f1]
    · rw [List.getLast_cons (by simp)]
      exact f2

/-- A field (0) on a mesh (1) with coordinates (2) and an array of values (3) in its time discretisation (4).  The overseer notices a
modification of the mesh. -/
def exampleTL : TLState := ⟨5, [0, 1, 2, 3, 4], [[1, 4], [2], [], [], [3]]⟩

example : (do let r ← overseerNew 0 exampleTL; let s ← tlRun r.1 [.declareAsNew 1]; checkConst 0 r.2 s) = .error .exn := rfl

/-- **C28** refuted for parts of parts: the coordinates of the mesh, or the values of the field, are declared modified, and the overseer of
the field sees nothing. -/
theorem C28_deep_modification_missed :
    (do let r ← overseerNew 0 exampleTL; let s ← tlRun r.1 [.declareAsNew 2, .declareAsNew 3]; checkConst 0 r.2 s) =
      .ok ⟨7, [4, 1, 5, 6, 4], exampleTL.parts⟩ := rfl

/-- It does if the labels are brought up level by level first. -/
theorem C28_deep_modification_seen :
    (do let r ← overseerNew 0 exampleTL; let s ← tlRun r.1 [.declareAsNew 2, .updateTime 1]; checkConst 0 r.2 s) = .error .exn := rfl

end MC
