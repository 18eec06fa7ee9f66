import Verif.ObjGraph
import Verif.Cursor
import Mathlib.Logic.Relation
import Mathlib.Data.List.Nodup
import Mathlib.Data.List.Perm.Subperm

/-!
# Memory accounting of a graph of objects (C27) – proofs
-/

namespace MC

/-- `b` is a direct child of `a`. -/
def Child (g : OGraph) (a b : Nat) : Prop := ∃ l, g.children[a]? = some l ∧ some b ∈ l

/-- Every object has a size, and children are objects. -/
structure OGraphOk (g : OGraph) : Prop where
  len : g.children.length = g.size.length
  closed : ∀ a b, Child g a b → b < g.size.length

/-- The sum of the own sizes of the objects of a list. -/
def sizeSum (g : OGraph) (l : List Nat) : Nat := (l.map fun o => g.size.getD o 0).sum

theorem sizeSum_append (g : OGraph) (a b : List Nat) : sizeSum g (a ++ b) = sizeSum g a + sizeSum g b := by simp [sizeSum]

theorem directChildren_ok {g : OGraph} (hg : OGraphOk g) {o : Nat} (ho : o < g.size.length) :
    ∃ v, directChildren g o = .ok v ∧ ∀ x, x ∈ v ↔ Child g o x := by
  have ho' : o < g.children.length := by rw [hg.len]; exact ho
  refine ⟨(g.children[o]).filterMap id, by simp [directChildren, List.getElem?_eq_getElem ho'], fun x => ?_⟩
  simp only [List.mem_filterMap, id, exists_eq_right, Child, List.getElem?_eq_getElem ho', Option.some.injEq]
  constructor
  · intro h; exact ⟨_, rfl, h⟩
  · rintro ⟨l, rfl, h⟩; exact h

theorem mem_insNew {s : List Nat} {x y : Nat} : y ∈ insNew s x ↔ y ∈ s ∨ y = x := by
  unfold insNew
  split
  · next h =>
    constructor
    · exact Or.inl
    · rintro (h1 | rfl)
      · exact h1
      · exact h
  · simp

theorem mem_foldl_insNew {v : List Nat} : ∀ {s : List Nat} {y : Nat}, y ∈ v.foldl insNew s ↔ y ∈ s ∨ y ∈ v := by
  induction v with
  | nil => simp
  | cons a v ih =>
    intro s y
    rw [List.foldl_cons, ih, mem_insNew]
    simp only [List.mem_cons]
    tauto

theorem mem_foldl_guard {v seen : List Nat} : ∀ {s : List Nat} {y : Nat},
    y ∈ v.foldl (fun s3 c => if c ∈ seen then s3 else insNew s3 c) s ↔ y ∈ s ∨ (y ∈ v ∧ y ∉ seen) := by
  induction v with
  | nil => simp
  | cons a v ih =>
    intro s y
    rw [List.foldl_cons, ih]
    split
    · next h =>
      simp only [List.mem_cons]
      constructor
      · rintro (h1 | ⟨h1, h2⟩)
        · exact Or.inl h1
        · exact Or.inr ⟨Or.inr h1, h2⟩
      · rintro (h1 | ⟨rfl | h1, h2⟩)
        · exact Or.inl h1
        · exact absurd h h2
        · exact Or.inr ⟨h1, h2⟩
    · next h =>
      rw [mem_insNew]
      simp only [List.mem_cons]
      constructor
      · rintro ((h1 | rfl) | ⟨h1, h2⟩)
        · exact Or.inl h1
        · exact Or.inr ⟨Or.inl rfl, h⟩
        · exact Or.inr ⟨Or.inr h1, h2⟩
      · rintro (h1 | ⟨rfl | h1, h2⟩)
        · exact Or.inl (Or.inl h1)
        · exact Or.inl (Or.inr rfl)
        · exact Or.inr ⟨h1, h2⟩

/-- The state of the search: `s1` done, `todo` to be looked at; `P` is any set closed under children that contains them. -/
structure SearchInv (g : OGraph) (ret0 : Nat) (S1 : List Nat) (P : Nat → Prop) (ret : Nat) (s1 todo : List Nat) : Prop where
  nodup : s1.Nodup
  bound : ∀ x ∈ s1, x < g.size.length
  tbound : ∀ x ∈ todo, x < g.size.length
  start : ∀ x ∈ S1, x ∈ s1
  sum : ret + sizeSum g S1 = ret0 + sizeSum g s1
  closed : ∀ x ∈ s1, ∀ c, Child g x c → c ∈ s1 ∨ c ∈ todo
  within : ∀ x, x ∈ s1 ∨ x ∈ todo → P x

theorem nodup_bounded {l : List Nat} {n : Nat} (h : l.Nodup) (hb : ∀ x ∈ l, x < n) : l.length ≤ n := by
  have : l.Subperm (List.range n) := List.subperm_of_subset h (fun x hx => List.mem_range.mpr (hb x hx))
  simpa using this.length_le

theorem sizeSum_single {g : OGraph} {o : Nat} (h : o < g.size.length) : sizeSum g [o] = g.size[o] := by
  simp [sizeSum, List.getD_eq_getElem?_getD, List.getElem?_eq_getElem h]

theorem rd_size {g : OGraph} {o : Nat} (h : o < g.size.length) : rd g.size (o : Int) = .ok g.size[o] := by
  simp [rd, List.getElem?_eq_getElem h]

/-- One round. -/
theorem searchRound {g : OGraph} (hg : OGraphOk g) {ret0 : Nat} {S1 : List Nat} {P : Nat → Prop} (hP : ∀ a b, P a → Child g a b → P b) :
    ∀ (s2 : List Nat) (ret : Nat) (s1 s3 : List Nat), SearchInv g ret0 S1 P ret s1 (s3 ++ s2) →
      ∃ r, s2.foldlM (m := Except Err) (heapSetStep g) (ret, s1, s3) = .ok r ∧ SearchInv g ret0 S1 P r.1 r.2.1 r.2.2 ∧
        s1.length ≤ r.2.1.length ∧ (r.2.1.length = s1.length → r.2.2 = s3) ∧ (∀ x ∈ s1, x ∈ r.2.1) ∧ ∀ x ∈ s2, x ∈ r.2.1 := by
  intro s2
  induction s2 with
  | nil =>
    intro ret s1 s3 h
    refine ⟨(ret, s1, s3), rfl, by simpa using h, Nat.le_refl _, fun _ => rfl, fun _ h => h, by simp⟩
  | cons it s2 ih =>
    intro ret s1 s3 h
    rw [List.foldlM_cons]
    by_cases hit : it ∈ s1
    · have e : heapSetStep g (ret, s1, s3) it = .ok (ret, s1, s3) := by simp [heapSetStep, hit]
      rw [e, ok_bind]
      obtain ⟨r, h1, h2, h3, h4, h5, h6⟩ := ih ret s1 s3 ⟨h.nodup, h.bound, fun x hx => h.tbound x (by simp at hx ⊢; tauto), h.start, h.sum,
        fun x hx c hc => by
          have := h.closed x hx c hc
          simp only [List.mem_append, List.mem_cons] at this ⊢
          rcases this with h1 | h1 | rfl | h1
          · exact Or.inl h1
          · exact Or.inr (Or.inl h1)
          · exact Or.inl hit
          · exact Or.inr (Or.inr h1),
        fun x hx => h.within x (by simp at hx ⊢; tauto)⟩
      refine ⟨r, h1, h2, h3, h4, h5, fun x hx => ?_⟩
      rcases List.mem_cons.mp hx with rfl | hx
      · exact h5 _ hit
      · exact h6 x hx
    · have hb : it < g.size.length := h.tbound it (by simp)
      obtain ⟨v, v1, v2⟩ := directChildren_ok hg hb
      have e : heapSetStep g (ret, s1, s3) it = .ok (ret + g.size[it], s1 ++ [it],
          v.foldl (fun s3 c => if c ∈ s1 ++ [it] then s3 else insNew s3 c) s3) := by
        simp only [heapSetStep, hit, if_false, rd_size hb, v1, ok_bind]
      rw [e, ok_bind]
      have hPit : P it := h.within it (Or.inr (by simp))
      obtain ⟨r, h1, h2, h3, h4, h5, h6⟩ := ih _ _ _ (show SearchInv g ret0 S1 P (ret + g.size[it]) (s1 ++ [it])
          (v.foldl (fun s3 c => if c ∈ s1 ++ [it] then s3 else insNew s3 c) s3 ++ s2) from
        ⟨by
          rw [List.nodup_append]
          refine ⟨h.nodup, by simp, ?_⟩
          intro x hx y hy
          simp only [List.mem_singleton] at hy
          subst hy
          rintro rfl
          exact hit hx,
        by
          intro x hx
          simp only [List.mem_append, List.mem_singleton] at hx
          rcases hx with hx | rfl
          · exact h.bound x hx
          · exact hb,
        by
          intro x hx
          rw [List.mem_append, mem_foldl_guard] at hx
          rcases hx with (hx | ⟨hx, _⟩) | hx
          · exact h.tbound x (by simp [hx])
          · exact hg.closed it x ((v2 x).mp hx)
          · exact h.tbound x (by simp [hx]),
        fun x hx => by simp [h.start x hx],
        by
          rw [sizeSum_append, sizeSum_single hb]
          have := h.sum
          omega,
        by
          intro x hx c hc
          rw [List.mem_append, List.mem_append, mem_foldl_guard]
          simp only [List.mem_append, List.mem_singleton] at hx ⊢
          by_cases hcs : c ∈ s1 ∨ c = it
          · exact Or.inl hcs
          · rcases hx with hx | rfl
            · have := h.closed x hx c hc
              simp only [List.mem_append, List.mem_cons] at this
              tauto
            · have := (v2 c).mpr hc
              tauto,
        by
          intro x hx
          rw [List.mem_append, List.mem_append, mem_foldl_guard] at hx
          simp only [List.mem_singleton] at hx
          rcases hx with (hx | rfl) | (hx | ⟨hx, _⟩) | hx
          · exact h.within x (Or.inl hx)
          · exact hPit
          · exact h.within x (Or.inr (by simp [hx]))
          · exact hP it x hPit ((v2 x).mp hx)
          · exact h.within x (Or.inr (by simp [hx]))⟩)
      simp only [List.length_append, List.length_cons, List.length_nil] at h3 h4
      refine ⟨r, h1, h2, by omega, fun hh => by omega, fun x hx => h5 x (by simp [hx]), fun x hx => ?_⟩
      rcases List.mem_cons.mp hx with rfl | hx
      · exact h5 _ (by simp)
      · exact h6 x hx

/-- The whole search. -/
theorem heapMemoryOfSet_spec {g : OGraph} (hg : OGraphOk g) {ret0 : Nat} {S1 : List Nat} {P : Nat → Prop}
    (hP : ∀ a b, P a → Child g a b → P b) :
    ∀ (fuel : Nat) (ret : Nat) (s1 s2 : List Nat), SearchInv g ret0 S1 P ret s1 s2 → g.size.length + 2 ≤ fuel + s1.length →
      ∃ r, heapMemoryOfSet g fuel ret s1 s2 = .ok r ∧ SearchInv g ret0 S1 P r.1 r.2 [] ∧ (∀ x ∈ s1, x ∈ r.2) ∧ ∀ x ∈ s2, x ∈ r.2 := by
  intro fuel
  induction fuel with
  | zero =>
    intro ret s1 s2 h hf
    have := nodup_bounded h.nodup h.bound
    omega
  | succ fuel ih =>
    intro ret s1 s2 h hf
    cases s2 with
    | nil => exact ⟨(ret, s1), rfl, h, fun _ h => h, by simp⟩
    | cons x s2 =>
      obtain ⟨r, h1, h2, h3, h4, h5, h6⟩ := searchRound hg hP (x :: s2) ret s1 [] (by simpa using h)
      simp only [heapMemoryOfSet, h1, ok_bind]
      by_cases hgrow : r.2.1.length = s1.length
      · rw [h4 hgrow] at h2 ⊢
        refine ⟨(r.1, r.2.1), by cases fuel <;> rfl, h2, h5, h6⟩
      · obtain ⟨r', g1, g2, g3, g4⟩ := ih r.1 r.2.1 r.2.2 h2 (by omega)
        exact ⟨r', g1, g2, fun y hy => g3 y (h5 y hy), fun y hy => g3 y (h6 y hy)⟩

theorem closed_transGen {g : OGraph} {l : List Nat} (h : ∀ x ∈ l, ∀ c, Child g x c → c ∈ l) {a b : Nat} (ha : a ∈ l)
    (hab : Relation.ReflTransGen (Child g) a b) : b ∈ l := by
  induction hab with
  | refl => exact ha
  | tail _ hc ih => exact h _ ih _ hc

/-- **C27** `getHeapMemorySize`: it ends, on shared and cyclic graphs too, and returns the own size of the object plus the own size of each
object that can be reached from it by one or more steps, each counted once. -/
theorem C27_heap_size {g : OGraph} (hg : OGraphOk g) {o : Nat} (ho : o < g.size.length) :
    ∃ l : List Nat, l.Nodup ∧ (∀ x, x ∈ l ↔ Relation.TransGen (Child g) o x) ∧ getHeapMemorySize g o = .ok (g.size[o] + sizeSum g l) := by
  obtain ⟨v, v1, v2⟩ := directChildren_ok hg ho
  have hinv : SearchInv g 0 [] (Relation.TransGen (Child g) o) 0 [] (v.foldl insNew []) :=
    ⟨by simp, by simp, fun x hx => by
      rw [mem_foldl_insNew] at hx
      simp only [List.not_mem_nil, false_or] at hx
      exact hg.closed o x ((v2 x).mp hx), by simp, by simp [sizeSum], by simp, fun x hx => by
      rw [mem_foldl_insNew] at hx
      simp only [List.not_mem_nil, false_or] at hx
      exact Relation.TransGen.single ((v2 x).mp hx)⟩
  obtain ⟨r, h1, h2, _, h4⟩ := heapMemoryOfSet_spec hg (fun a b ha hb => Relation.TransGen.tail ha hb) (g.size.length + 2) 0 [] _ hinv (by simp)
  refine ⟨r.2, h2.nodup, fun x => ⟨fun hx => h2.within x (Or.inl hx), fun hx => ?_⟩, ?_⟩
  · obtain ⟨c, hc, hcx⟩ := Relation.TransGen.head'_iff.mp hx
    refine closed_transGen (fun y hy c hc => ?_) (h4 c (by rw [mem_foldl_insNew]; exact Or.inr ((v2 c).mpr hc))) hcx
    simpa using h2.closed y hy c hc
  · have := h2.sum
    simp only [sizeSum, List.map_nil, List.sum_nil, Nat.add_zero, Nat.zero_add] at this
    simp only [getHeapMemorySize, rd_size ho, v1, ok_bind, h1, this, sizeSum]

/-- **C27** `GetHeapMemorySizeOfObjs`: each object that is in the list or can be reached from it is counted once (null pointers count for
nothing). -/
theorem C27_heap_size_of_objs {g : OGraph} (hg : OGraphOk g) {objs : List (Option Nat)} (ho : ∀ o, some o ∈ objs → o < g.size.length) :
    ∃ l : List Nat, l.Nodup ∧ (∀ x, x ∈ l ↔ ∃ o, some o ∈ objs ∧ Relation.ReflTransGen (Child g) o x) ∧
      getHeapMemorySizeOfObjs g objs = .ok (sizeSum g l) := by
  let P : Nat → Prop := fun x => ∃ o, some o ∈ objs ∧ Relation.ReflTransGen (Child g) o x
  have hP : ∀ a b, P a → Child g a b → P b := fun a b ⟨o, h1, h2⟩ hb => ⟨o, h1, h2.tail hb⟩
  have first : ∀ (l pre : List (Option Nat)) (st : Nat × List Nat × List Nat), pre ++ l = objs →
      (SearchInv g 0 [] P st.1 st.2.1 st.2.2 ∧ ∀ o, some o ∈ pre → o ∈ st.2.1) →
      ∃ r, l.foldlM (m := Except Err) (sizeOfObjsStep g) st = .ok r ∧ SearchInv g 0 [] P r.1 r.2.1 r.2.2 ∧ ∀ o, some o ∈ objs → o ∈ r.2.1 := by
    intro l
    induction l with
    | nil =>
      intro pre st hp h
      simp only [List.append_nil] at hp
      subst hp
      exact ⟨st, rfl, h.1, h.2⟩
    | cons it l ih =>
      intro pre st hp h
      rw [List.foldlM_cons]
      have hp' : (pre ++ [it]) ++ l = objs := by simpa using hp
      cases it with
      | none =>
        simp only [sizeOfObjsStep, ok_bind]
        exact ih (pre ++ [none]) st hp' ⟨h.1, fun o ho => h.2 o (by simpa using ho)⟩
      | some o =>
        have hmem : some o ∈ objs := by rw [← hp]; simp
        have hb := ho o hmem
        obtain ⟨v, v1, v2⟩ := directChildren_ok hg hb
        by_cases hin : o ∈ st.2.1
        · simp only [sizeOfObjsStep, hin, if_true, ok_bind]
          refine ih (pre ++ [some o]) st hp' ⟨h.1, fun o' ho' => ?_⟩
          simp only [List.mem_append, List.mem_singleton, Option.some.injEq] at ho'
          rcases ho' with h1 | rfl
          · exact h.2 o' h1
          · exact hin
        · simp only [sizeOfObjsStep, hin, if_false, v1, rd_size hb, ok_bind]
          have hi := h.1
          refine ih (pre ++ [some o]) _ hp' ⟨⟨?_, ?_, ?_, by simp, ?_, ?_, ?_⟩, fun o' ho' => ?_⟩
          · rw [List.nodup_append]
            refine ⟨hi.nodup, by simp, ?_⟩
            intro x hx y hy
            simp only [List.mem_singleton] at hy
            subst hy
            rintro rfl
            exact hin hx
          · intro x hx
            simp only [List.mem_append, List.mem_singleton] at hx
            rcases hx with hx | rfl
            · exact hi.bound x hx
            · exact hb
          · intro x hx
            rw [mem_foldl_insNew] at hx
            rcases hx with hx | hx
            · exact hi.tbound x hx
            · exact hg.closed o x ((v2 x).mp hx)
          · rw [sizeSum_append, sizeSum_single hb]
            have := hi.sum
            simp only [sizeSum, List.map_nil, List.sum_nil] at this ⊢
            omega
          · intro x hx c hc
            rw [mem_foldl_insNew]
            simp only [List.mem_append, List.mem_singleton] at hx ⊢
            rcases hx with hx | rfl
            · have := hi.closed x hx c hc
              tauto
            · exact Or.inr (Or.inr ((v2 c).mpr hc))
          · intro x hx
            rw [mem_foldl_insNew] at hx
            simp only [List.mem_append, List.mem_singleton] at hx
            have hPo : P o := ⟨o, hmem, Relation.ReflTransGen.refl⟩
            rcases hx with (hx | rfl) | hx | hx
            · exact hi.within x (Or.inl hx)
            · exact hPo
            · exact hi.within x (Or.inr hx)
            · exact hP o x hPo ((v2 x).mp hx)
          · simp only [List.mem_append, List.mem_singleton, Option.some.injEq] at ho'
            simp only [List.mem_append, List.mem_singleton]
            rcases ho' with h1 | rfl
            · exact Or.inl (h.2 o' h1)
            · exact Or.inr rfl
  obtain ⟨st, e1, e2, e3⟩ := first objs [] (0, [], []) rfl ⟨⟨by simp, by simp, by simp, by simp, by simp [sizeSum], by simp, by simp⟩, by simp⟩
  have hinv : SearchInv g 0 st.2.1 P 0 st.2.1 st.2.2 :=
    ⟨e2.nodup, e2.bound, e2.tbound, fun _ h => h, by omega, e2.closed, e2.within⟩
  obtain ⟨r, h1, h2, h3, h4⟩ := heapMemoryOfSet_spec hg hP (g.size.length + 2) 0 st.2.1 st.2.2 hinv (by omega)
  refine ⟨r.2, h2.nodup, fun x => ⟨fun hx => h2.within x (Or.inl hx), ?_⟩, ?_⟩
  · rintro ⟨o, ho1, hox⟩
    refine closed_transGen (fun y hy c hc => ?_) (h3 o (e3 o ho1)) hox
    simpa using h2.closed y hy c hc
  · have s1 := e2.sum
    have s2 := h2.sum
    simp only [sizeSum, List.map_nil, List.sum_nil] at s1
    simp only [getHeapMemorySizeOfObjs, e1, ok_bind, h1]
    congr 1
    simp only [sizeSum] at s2 ⊢
    omega

/-! ## The progeny -/

theorem mapM_children {g : OGraph} (hg : OGraphOk g) : ∀ (l : List Nat), (∀ x ∈ l, x < g.size.length) →
    ∃ cs, l.mapM (m := Except Err) (directChildren g) = .ok cs ∧ ∀ y, y ∈ cs.flatten ↔ ∃ x ∈ l, Child g x y := by
  intro l
  induction l with
  | nil => intro _; exact ⟨[], rfl, by simp⟩
  | cons a l ih =>
    intro h
    obtain ⟨v, v1, v2⟩ := directChildren_ok hg (h a (by simp))
    obtain ⟨cs, c1, c2⟩ := ih (fun x hx => h x (by simp [hx]))
    refine ⟨v :: cs, ?_, fun y => ?_⟩
    · rw [List.mapM_cons, v1, ok_bind, c1, ok_bind]
      rfl
    · simp only [List.flatten_cons, List.mem_append, v2, c2, List.mem_cons, exists_eq_or_imp]

/-- The objects not yet met. -/
def unseen (n : Nat) (ret : List Nat) : Nat := ((List.range n).filter fun x => decide (x ∉ ret)).length

theorem unseen_lt {n : Nat} {ret s : List Nat} {x : Nat} (hx : x ∈ s) (hn : x < n) (hr : x ∉ ret) : unseen n (ret ++ s) < unseen n ret := by
  unfold unseen
  have hsub : ((List.range n).filter fun y => decide (y ∉ ret ++ s)).Sublist ((List.range n).filter fun y => decide (y ∉ ret)) := by
    apply List.monotone_filter_right
    intro y hy
    simp only [List.mem_append, not_or, decide_eq_true_eq] at hy ⊢
    exact hy.1
  rcases Nat.lt_or_ge ((List.range n).filter fun y => decide (y ∉ ret ++ s)).length ((List.range n).filter fun y => decide (y ∉ ret)).length with h | h
  · exact h
  · have heq := hsub.eq_of_length_le h
    have : x ∈ (List.range n).filter fun y => decide (y ∉ ret) := by simp [hn, hr]
    rw [← heq] at this
    simp at this
    exact absurd hx this.2.2

theorem progenyLoop_spec {g : OGraph} (hg : OGraphOk g) {P : Nat → Prop} (hP : ∀ a b, P a → Child g a b → P b) :
    ∀ (fuel : Nat) (ret s1 : List Nat), (∀ x ∈ s1, x < g.size.length ∧ x ∉ ret) → (∀ x, x ∈ ret ∨ x ∈ s1 → P x) →
      (∀ x ∈ ret, ∀ c, Child g x c → c ∈ ret ∨ c ∈ s1) → unseen g.size.length ret + 1 ≤ fuel →
      ∃ r, progenyLoop g fuel ret s1 = .ok r ∧ (∀ x ∈ r, P x) ∧ (∀ x ∈ r, ∀ c, Child g x c → c ∈ r) ∧ ∀ x, x ∈ ret ∨ x ∈ s1 → x ∈ r := by
  intro fuel
  induction fuel with
  | zero => intro ret s1 _ _ _ hf; omega
  | succ fuel ih =>
    intro ret s1 h1 h2 h3 hf
    cases s1 with
    | nil =>
      refine ⟨ret, rfl, fun x hx => h2 x (Or.inl hx), fun x hx c hc => ?_, fun x hx => by simpa using hx⟩
      simpa using h3 x hx c hc
    | cons a s1 =>
      obtain ⟨cs, c1, c2⟩ := mapM_children hg (a :: s1) (fun x hx => (h1 x hx).1)
      simp only [progenyLoop, c1, ok_bind]
      have hmem : ∀ y, y ∈ (cs.flatten.filter fun c => decide (c ∉ ret ++ a :: s1)) ↔ (∃ x ∈ a :: s1, Child g x y) ∧ y ∉ ret ++ a :: s1 := by
        intro y
        rw [List.mem_filter, c2, decide_eq_true_eq]
      obtain ⟨r, r1, r2, r3, r4⟩ := ih (ret ++ a :: s1) (cs.flatten.filter fun c => decide (c ∉ ret ++ a :: s1))
        (by
          intro x hx
          obtain ⟨⟨y, hy, hyx⟩, hn⟩ := (hmem x).mp hx
          exact ⟨hg.closed y x hyx, hn⟩)
        (by
          intro x hx
          rcases hx with hx | hx
          · exact h2 x (by simpa using hx)
          · obtain ⟨⟨y, hy, hyx⟩, _⟩ := (hmem x).mp hx
            exact hP y x (h2 y (Or.inr hy)) hyx)
        (by
          intro x hx c hc
          by_cases hcr : c ∈ ret ++ a :: s1
          · exact Or.inl hcr
          · refine Or.inr ((hmem c).mpr ⟨?_, hcr⟩)
            rcases List.mem_append.mp hx with hx | hx
            · have := h3 x hx c hc
              exact absurd (List.mem_append.mpr this) hcr
            · exact ⟨x, hx, hc⟩)
        (by
          have := unseen_lt (n := g.size.length) (ret := ret) (s := a :: s1) (x := a) (by simp) (h1 a (by simp)).1 (h1 a (by simp)).2
          omega)
      exact ⟨r, r1, r2, r3, fun x hx => r4 x (Or.inl (List.mem_append.mpr hx))⟩

/-- **C27** `getAllTheProgeny` ends and lists exactly the objects reachable by one or more steps. -/
theorem C27_progeny {g : OGraph} (hg : OGraphOk g) {o : Nat} (ho : o < g.size.length) :
    ∃ l, getAllTheProgeny g o = .ok l ∧ ∀ x, x ∈ l ↔ Relation.TransGen (Child g) o x := by
  obtain ⟨v, v1, v2⟩ := directChildren_ok hg ho
  obtain ⟨r, r1, r2, r3, r4⟩ := progenyLoop_spec hg (P := Relation.TransGen (Child g) o) (fun a b ha hb => ha.tail hb) (g.size.length + 1) [] v
    (fun x hx => ⟨hg.closed o x ((v2 x).mp hx), by simp⟩)
    (fun x hx => Relation.TransGen.single ((v2 x).mp (by simpa using hx))) (by simp)
    (by
      have : unseen g.size.length [] ≤ g.size.length := by
        unfold unseen
        exact Nat.le_trans (List.length_filter_le _ _) (by simp)
      omega)
  refine ⟨r, by simp only [getAllTheProgeny, v1, ok_bind, r1], fun x => ⟨r2 x, fun hx => ?_⟩⟩
  obtain ⟨c, hc, hcx⟩ := Relation.TransGen.head'_iff.mp hx
  exact closed_transGen r3 (r4 c (Or.inr ((v2 c).mpr hc))) hcx

/-- **C27** `isObjectInTheProgeny` answers whether the object can be reached by one or more steps; a null pointer never is. -/
theorem C27_is_in_progeny {g : OGraph} (hg : OGraphOk g) {o : Nat} (ho : o < g.size.length) :
    isObjectInTheProgeny g o none = .ok false ∧
      ∀ x, ∃ b, isObjectInTheProgeny g o (some x) = .ok b ∧ (b = true ↔ Relation.TransGen (Child g) o x) := by
  refine ⟨rfl, fun x => ?_⟩
  obtain ⟨l, h1, h2⟩ := C27_progeny hg ho
  refine ⟨decide (x ∈ l), by simp only [isObjectInTheProgeny, h1, ok_bind], ?_⟩
  rw [decide_eq_true_eq]
  exact h2 x

/-- Two fields (0 and 1) on the same mesh (2) with its coordinates (3). -/
def exampleGraph : OGraph := ⟨[10, 20, 300, 4000], [[some 2, none], [none, some 2], [some 3], []]⟩

theorem exampleGraph_ok : OGraphOk exampleGraph := by
  refine ⟨rfl, ?_⟩
  rintro a b ⟨l, h1, h2⟩
  have ha : a < 4 := (List.getElem?_eq_some_iff.mp h1).1
  have : a = 0 ∨ a = 1 ∨ a = 2 ∨ a = 3 := by omega
  rcases this with rfl | rfl | rfl | rfl <;> simp [exampleGraph] at h1 <;> subst h1 <;> simp [exampleGraph] at h2 ⊢ <;> omega

example : getHeapMemorySize exampleGraph 0 = .ok 4310 := rfl
example : getHeapMemorySizeOfObjs exampleGraph [some 0, none, some 1, some 0] = .ok 4330 := rfl
example : getAllTheProgeny exampleGraph 0 = .ok [2, 3] := rfl

/-- On a cycle the object itself is among what it reaches: `getHeapMemorySize` counts it twice, `GetHeapMemorySizeOfObjs` once. -/
theorem C27_cycle_counted_twice :
    getHeapMemorySize ⟨[10, 300], [[some 1], [some 0]]⟩ 0 = .ok 320 ∧
      getHeapMemorySizeOfObjs ⟨[10, 300], [[some 1], [some 0]]⟩ [some 0] = .ok 310 := ⟨rfl, rfl⟩

/-- **C27** refuted in part: the documentation of `getAllTheProgeny` promises each object once; two children that share a child report it
twice. -/
theorem C27_progeny_repeats : getAllTheProgeny ⟨[0, 0, 0, 0], [[some 1, some 2], [some 3], [some 3], []]⟩ 0 = .ok [1, 2, 3, 3] := rfl

end MC
