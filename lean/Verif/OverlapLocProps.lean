import Verif.OverlapLoc
import Verif.BlockTopoProps
import Mathlib.Tactic.Linarith

/-!
# Lemmas on the work sharing of `OverlapElementLocator`
-/

namespace MC

@[simp] theorem cpl_src (i j : Nat) : (cpl i j).src = i := rfl
@[simp] theorem cpl_tgt (i j : Nat) : (cpl i j).tgt = j := rfl
theorem cpl_eta (c : Couple) : cpl c.src c.tgt = c := rfl

/-! ## Who meets whom -/

/-- the interaction lists for a given relation -/
def pairsOf (N : Nat) (inter : Nat → Nat → Bool) : List (List Nat) := (List.range N).map fun i => (List.range N).filter (inter i)

/-- all the couples, in the order the code meets them -/
def couplesOf (N : Nat) (inter : Nat → Nat → Bool) : List Couple := ((List.range N).map fun i => ((List.range N).filter (inter i)).map (cpl i)).flatten

theorem mem_couplesOf {N : Nat} {inter : Nat → Nat → Bool} {c : Couple} : c ∈ couplesOf N inter ↔ c.src < N ∧ c.tgt < N ∧ inter c.src c.tgt = true := by
  unfold couplesOf
  simp only [List.mem_flatten, List.mem_map, List.mem_range]
  constructor
  · rintro ⟨l, ⟨i, hi, rfl⟩, hc⟩
    simp only [List.mem_map, List.mem_filter, List.mem_range] at hc
    obtain ⟨j, ⟨hj, hij⟩, rfl⟩ := hc
    exact ⟨hi, hj, hij⟩
  · rintro ⟨h1, h2, h3⟩
    refine ⟨_, ⟨c.src, h1, rfl⟩, ?_⟩
    simp only [List.mem_map, List.mem_filter, List.mem_range]
    exact ⟨c.tgt, ⟨h2, h3⟩, cpl_eta c⟩

theorem cpl_lt {i j i' j' : Nat} : cpl i j < cpl i' j' ↔ i < i' ∨ i = i' ∧ j < j' := by
  unfold cpl; rw [Prod.Lex.toLex_lt_toLex]

theorem couplesOf_sorted (N : Nat) (inter : Nat → Nat → Bool) : (couplesOf N inter).Pairwise (· < ·) := by
  unfold couplesOf
  rw [List.pairwise_flatten]
  constructor
  · intro l hl
    obtain ⟨i, _, rfl⟩ := List.mem_map.1 hl
    rw [List.pairwise_map]
    exact (List.pairwise_lt_range.filter _).imp fun h => cpl_lt.2 (Or.inr ⟨rfl, h⟩)
  · rw [List.pairwise_map]
    refine List.pairwise_lt_range.imp fun {a b} h x hx y hy => ?_
    simp only [List.mem_map] at hx hy
    obtain ⟨j, _, rfl⟩ := hx
    obtain ⟨j', _, rfl⟩ := hy
    exact cpl_lt.2 (Or.inl h)

theorem loop_foldlM {σ α : Type} (g : σ → α → M σ) (f : Nat → List α) (n : Nat) (s : σ) :
    loop n s (fun i s => (f i).foldlM g s) = (((List.range n).map f).flatten).foldlM g s := by
  induction n with
  | zero => rfl
  | succ n ih =>
    unfold loop
    rw [ih, List.range_succ, List.map_append, List.flatten_append, List.foldlM_append]
    simp

theorem loop_congr_ov {σ : Type} {n : Nat} {s : σ} {f g : Nat → σ → M σ} (h : ∀ i < n, ∀ s, f i s = g i s) : loop n s f = loop n s g := by
  induction n with
  | zero => rfl
  | succ n ih =>
    unfold loop
    rw [ih fun i hi => h i (by omega)]
    congr 1
    funext s
    exact h n (by omega) s

theorem pairsOf_get {N i : Nat} (inter : Nat → Nat → Bool) (h : i < N) : (pairsOf N inter)[i]? = some ((List.range N).filter (inter i)) := by
  unfold pairsOf
  rw [List.getElem?_map, List.getElem?_range h]; rfl

/-- a double loop over the interaction lists is a loop over the couples -/
theorem pairs_loop {σ : Type} (N : Nat) (inter : Nat → Nat → Bool) (s : σ) (g : σ → Couple → M σ) (body : Nat → σ → Nat → M σ)
    (hb : ∀ i s j, body i s j = g s (cpl i j)) :
    loop N s (fun i s => do
      let js ← vget (pairsOf N inter) i
      js.foldlM (body i) s) = (couplesOf N inter).foldlM g s := by
  rw [loop_congr_ov (g := fun i s => (((List.range N).filter (inter i)).map (cpl i)).foldlM g s)]
  · rw [loop_foldlM]; rfl
  · intro i hi s
    rw [vget_ok (pairsOf_get inter hi), ok_bind, List.foldlM_map]
    congr 1
    funext s j
    exact hb i s j

/-! ## What a work sharing must do -/

/-- The lists share the couples of `W` between `N` processors: every couple is in exactly one list, which is the one of its source or of its target, once, and every list is in
increasing order. -/
structure Shared (N : Nat) (W : List Couple) (todo : List (List Couple)) : Prop where
  len : todo.length = N
  sorted : ∀ (p : Nat) (l : List Couple), todo[p]? = some l → l.Pairwise (· < ·)
  own : ∀ (p : Nat) (l : List Couple) (c : Couple), todo[p]? = some l → c ∈ l → c ∈ W ∧ (c.src = p ∨ c.tgt = p)
  once : ∀ c ∈ W, ∃ p l, todo[p]? = some l ∧ c ∈ l ∧ ∀ (p' : Nat) (l' : List Couple), todo[p']? = some l' → c ∈ l' → p' = p

/-- one round of `todoOriginal` -/
def origStep (todo : List (List Couple)) (c : Couple) : M (List (List Couple)) := do
  let a ← vget todo c.src
  let b ← vget todo c.tgt
  if a.length ≤ b.length then return todo.set c.src (a ++ [c])
  else return todo.set c.tgt (b ++ [c])

theorem shared_push {N : Nat} {W : List Couple} {todo : List (List Couple)} (h : Shared N W todo) {c : Couple} (hgt : ∀ d ∈ W, d < c) {p : Nat} {l : List Couple}
    (hp : todo[p]? = some l) (hc : c.src = p ∨ c.tgt = p) : Shared N (W ++ [c]) (todo.set p (l ++ [c])) := by
  have hpl : p < todo.length := (List.getElem?_eq_some_iff.1 hp).1
  have hnot : ∀ (q : Nat) (m : List Couple), todo[q]? = some m → c ∉ m := by
    intro q m hm hcm
    exact lt_irrefl _ (hgt c (h.own q m c hm hcm).1)
  have hget : ∀ (q : Nat) (m : List Couple), (todo.set p (l ++ [c]))[q]? = some m → (q = p ∧ m = l ++ [c]) ∨ (q ≠ p ∧ todo[q]? = some m) := by
    intro q m hm
    by_cases hq : q = p
    · subst hq
      rw [List.getElem?_set_self hpl] at hm
      exact Or.inl ⟨rfl, (Option.some.inj hm).symm⟩
    · rw [List.getElem?_set_ne (Ne.symm hq)] at hm
      exact Or.inr ⟨hq, hm⟩
  refine ⟨by simpa using h.len, ?_, ?_, ?_⟩
  · intro q m hm
    rcases hget q m hm with ⟨rfl, rfl⟩ | ⟨_, hm⟩
    · rw [List.pairwise_append]
      refine ⟨h.sorted q l hp, List.pairwise_singleton _ _, ?_⟩
      intro a ha b hb
      rw [List.mem_singleton] at hb
      subst hb
      exact hgt a (h.own q l a hp ha).1
    · exact h.sorted q m hm
  · intro q m d hm hd
    rcases hget q m hm with ⟨rfl, rfl⟩ | ⟨_, hm⟩
    · rcases List.mem_append.1 hd with hd | hd
      · obtain ⟨h1, h2⟩ := h.own q l d hp hd
        exact ⟨List.mem_append_left _ h1, h2⟩
      · rw [List.mem_singleton] at hd
        subst hd
        exact ⟨by simp, hc⟩
    · obtain ⟨h1, h2⟩ := h.own q m d hm hd
      exact ⟨List.mem_append_left _ h1, h2⟩
  · intro d hd
    rcases List.mem_append.1 hd with hd | hd
    · obtain ⟨q, m, hq, hm, hu⟩ := h.once d hd
      have hne : d ≠ c := ne_of_lt (hgt d hd)
      have hback : ∀ (q' : Nat) (m' : List Couple), (todo.set p (l ++ [c]))[q']? = some m' → d ∈ m' → q' = q := by
        intro q' m' hm' hd'
        rcases hget q' m' hm' with ⟨rfl, rfl⟩ | ⟨_, hm'⟩
        · rcases List.mem_append.1 hd' with hd' | hd'
          · exact hu q' l hp hd'
          · exact absurd (List.mem_singleton.1 hd') hne
        · exact hu q' m' hm' hd'
      by_cases hqp : q = p
      · subst hqp
        rw [hp] at hq
        cases hq
        exact ⟨q, l ++ [c], List.getElem?_set_self hpl, by simp [hm], hback⟩
      · exact ⟨q, m, by rw [List.getElem?_set_ne (Ne.symm hqp)]; exact hq, hm, hback⟩
    · rw [List.mem_singleton] at hd
      subst hd
      refine ⟨p, l ++ [d], List.getElem?_set_self hpl, by simp, ?_⟩
      intro q' m' hm' hd'
      rcases hget q' m' hm' with ⟨rfl, _⟩ | ⟨_, hm'⟩
      · rfl
      · exact absurd hd' (hnot q' m' hm')

theorem origStep_ok {N : Nat} {W : List Couple} {todo : List (List Couple)} (h : Shared N W todo) {c : Couple} (hgt : ∀ d ∈ W, d < c) (h1 : c.src < N) (h2 : c.tgt < N) :
    ∃ todo', origStep todo c = .ok todo' ∧ Shared N (W ++ [c]) todo' := by
  have e1 : todo[c.src]? = some (todo[c.src]'(by rw [h.len]; exact h1)) := List.getElem?_eq_getElem _
  have e2 : todo[c.tgt]? = some (todo[c.tgt]'(by rw [h.len]; exact h2)) := List.getElem?_eq_getElem _
  unfold origStep
  rw [vget_ok e1, ok_bind, vget_ok e2, ok_bind]
  split
  · exact ⟨_, rfl, shared_push h hgt e1 (Or.inl rfl)⟩
  · exact ⟨_, rfl, shared_push h hgt e2 (Or.inr rfl)⟩

theorem origFold_ok {N : Nat} : ∀ (B A : List Couple) (todo : List (List Couple)), Shared N A todo → (A ++ B).Pairwise (· < ·) → (∀ c ∈ B, c.src < N ∧ c.tgt < N) →
    ∃ todo', B.foldlM origStep todo = .ok todo' ∧ Shared N (A ++ B) todo'
  | [], A, todo, h, _, _ => ⟨todo, rfl, by simpa using h⟩
  | c :: B, A, todo, h, hs, hB => by
    have hgt : ∀ d ∈ A, d < c := fun d hd => (List.pairwise_append.1 hs).2.2 d hd c (by simp)
    obtain ⟨t1, h1, h2⟩ := origStep_ok h hgt (hB c (by simp)).1 (hB c (by simp)).2
    obtain ⟨t2, h3, h4⟩ := origFold_ok B (A ++ [c]) t1 h2 (by simpa using hs) fun d hd => hB d (by simp [hd])
    refine ⟨t2, ?_, by simpa using h4⟩
    rw [List.foldlM_cons, h1, ok_bind, h3]

theorem shared_nil (N : Nat) : Shared N [] (List.replicate N []) := by
  have hget : ∀ (p : Nat) (l : List Couple), (List.replicate N ([] : List Couple))[p]? = some l → l = [] := by
    intro p l h
    rw [List.getElem?_replicate] at h
    split at h
    · exact (Option.some.inj h).symm
    · cases h
  refine ⟨by simp, ?_, ?_, by simp⟩
  · intro p l h; rw [hget p l h]; exact List.Pairwise.nil
  · intro p l c h hc; rw [hget p l h] at hc; simp at hc

theorem todoOriginal_ok (N : Nat) (inter : Nat → Nat → Bool) : ∃ todo, todoOriginal N (pairsOf N inter) = .ok todo ∧ Shared N (couplesOf N inter) todo := by
  have hl : todoOriginal N (pairsOf N inter) = (couplesOf N inter).foldlM origStep (List.replicate N []) := pairs_loop N inter _ origStep _ (fun i s j => rfl)
  rw [hl]
  obtain ⟨t, h1, h2⟩ := origFold_ok (couplesOf N inter) [] _ (shared_nil N) (by simpa using couplesOf_sorted N inter) (by
    intro c hc
    obtain ⟨h1, h2, _⟩ := mem_couplesOf.1 hc
    exact ⟨h1, h2⟩)
  exact ⟨t, h1, by simpa using h2⟩

/-! ## Maps of loads -/

/-- `some true`: the couple can be removed; `some false`: it cannot; `none`: the couple is not there -/
def markOf (m : LoadMap) (c : Couple) : Option Bool := (mapFind m c).map fun v => decide (v < intMax)

/-- the mark on a processor -/
def markAt (fs : List LoadMap) (p : Nat) (c : Couple) : Option Bool := fs[p]?.bind fun m => markOf m c

theorem markAt_of {fs : List LoadMap} {p : Nat} {m : LoadMap} (h : fs[p]? = some m) (c : Couple) : markAt fs p c = markOf m c := by
  unfold markAt; rw [h]; rfl

theorem markAt_none_of {fs : List LoadMap} {p : Nat} (h : fs[p]? = none) (c : Couple) : markAt fs p c = none := by
  unfold markAt; rw [h]; rfl

theorem markOf_eq_none {m : LoadMap} {c : Couple} : markOf m c = none ↔ c ∉ mapKeys m := by
  unfold markOf; rw [Option.map_eq_none_iff, mapFind_eq_none]

theorem mapFind_map {m : LoadMap} (h : Couple → Int → Int) (d : Couple) : mapFind (m.map fun e => (e.1, h e.1 e.2)) d = (mapFind m d).map (h d) := by
  induction m with
  | nil => rfl
  | cons e m ih =>
    obtain ⟨a, b⟩ := e
    simp only [List.map_cons, mapFind]
    by_cases hd : d = a
    · subst hd; simp
    · rw [if_neg hd, if_neg hd, ih]

theorem loadFind_erase {m : LoadMap} (k d : Couple) : mapFind (loadErase m k) d = if d = k then none else mapFind m d := by
  unfold loadErase
  induction m with
  | nil => simp [mapFind]
  | cons e m ih =>
    obtain ⟨a, b⟩ := e
    rw [List.filter_cons]
    by_cases ha : a = k
    · subst ha
      simp only [ne_eq, not_true_eq_false, decide_false, Bool.false_eq_true, if_false]
      rw [ih]
      by_cases hd : d = a
      · simp [hd]
      · simp [hd, mapFind]
    · simp only [ne_eq, ha, not_false_eq_true, decide_true, if_true, mapFind]
      rw [ih]
      by_cases hd : d = a
      · subst hd; simp [ha]
      · simp [hd]

theorem loadErase_sorted {m : LoadMap} (k : Couple) (h : StrictSorted (mapKeys m)) : StrictSorted (mapKeys (loadErase m k)) :=
  List.Pairwise.sublist (List.Sublist.map _ List.filter_sublist) h

theorem loadErase_length {m : LoadMap} {k : Couple} (h : StrictSorted (mapKeys m)) (hk : k ∈ mapKeys m) : (loadErase m k).length + 1 = m.length := by
  have hn := h.nodup
  unfold loadErase
  induction m with
  | nil => simp at hk
  | cons e m ih =>
    obtain ⟨a, b⟩ := e
    simp only [mapKeys, List.map_cons, List.mem_cons] at hk
    simp only [mapKeys, List.map_cons, List.nodup_cons] at hn
    simp only [mapKeys, List.map_cons] at h
    rw [StrictSorted, List.pairwise_cons] at h
    rw [List.filter_cons]
    by_cases ha : a = k
    · subst ha
      have : (m.filter fun e => decide (e.1 ≠ a)) = m := by
        rw [List.filter_eq_self]
        intro e he
        simp only [ne_eq, decide_not, Bool.not_eq_eq_eq_not, Bool.not_true, decide_eq_false_iff_not]
        rintro rfl
        exact hn.1 (List.mem_map.2 ⟨e, he, rfl⟩)
      rw [if_neg (by simp), this]
      rfl
    · rcases hk with hk | hk
      · exact absurd hk.symm ha
      · have := ih h.2 hk hn.2
        rw [if_pos (by simpa using ha), List.length_cons, List.length_cons]
        omega

theorem mapSet_length_of_mem {m : LoadMap} {k : Couple} (v : Int) (h : StrictSorted (mapKeys m)) (hk : k ∈ mapKeys m) : (mapSet m k v).length = m.length := by
  have h1 : mapKeys (mapSet m k v) = mapKeys m := by
    refine StrictSorted.ext (sorted_mapSet h k v) h ?_
    intro x
    rw [mem_mapKeys_set]
    exact ⟨fun hx => hx.elim (fun hx => hx ▸ hk) id, Or.inr⟩
  have := congrArg List.length h1
  simpa [mapKeys] using this

/-! ## The state of the sharing -/

/-- the other processor of a couple -/
def otherProc (p : Nat) (c : Couple) : Nat := if c.src = p then c.tgt else c.src

structure ShareInv (N : Nat) (W : List Couple) (fs : List LoadMap) : Prop where
  len : fs.length = N
  sorted : ∀ (p : Nat) (m : LoadMap), fs[p]? = some m → StrictSorted (mapKeys m)
  own : ∀ p c, markAt fs p c ≠ none → c ∈ W ∧ (c.src = p ∨ c.tgt = p)
  dup : ∀ p c, markAt fs p c = some true → c.src ≠ c.tgt ∧ markAt fs (otherProc p c) c = some true
  fix : ∀ p c, markAt fs p c = some false → ∀ q, q ≠ p → markAt fs q c = none
  cover : ∀ c ∈ W, ∃ p, markAt fs p c ≠ none

theorem ShareInv.done {N : Nat} {W : List Couple} {fs : List LoadMap} (h : ShareInv N W fs) (hf : ∀ p c, markAt fs p c ≠ some true) : Shared N W (fs.map mapKeys) := by
  have hget : ∀ (p : Nat) (l : List Couple), (fs.map mapKeys)[p]? = some l → ∃ m, fs[p]? = some m ∧ l = mapKeys m := by
    intro p l hl
    rw [List.getElem?_map] at hl
    obtain ⟨m, h1, h2⟩ := Option.map_eq_some_iff.1 hl
    exact ⟨m, h1, h2.symm⟩
  have hmk : ∀ (p : Nat) (m : LoadMap) (c : Couple), fs[p]? = some m → c ∈ mapKeys m → markAt fs p c = some false := by
    intro p m c hm hc
    have hne : markAt fs p c ≠ none := by rw [markAt_of hm, Ne, markOf_eq_none]; exact fun hn => hn hc
    have := hf p c
    cases hv : markAt fs p c with
    | none => exact absurd hv hne
    | some b => cases b with
      | true => exact absurd hv this
      | false => rfl
  refine ⟨by simpa using h.len, ?_, ?_, ?_⟩
  · intro p l hl
    obtain ⟨m, hm, rfl⟩ := hget p l hl
    exact h.sorted p m hm
  · intro p l c hl hc
    obtain ⟨m, hm, rfl⟩ := hget p l hl
    exact h.own p c (by rw [hmk p m c hm hc]; simp)
  · intro c hc
    obtain ⟨p, hp⟩ := h.cover c hc
    cases hm : fs[p]? with
    | none => exact absurd (markAt_none_of hm c) hp
    | some m =>
      have hcm : c ∈ mapKeys m := by
        rw [markAt_of hm, Ne, markOf_eq_none, not_not] at hp; exact hp
      refine ⟨p, mapKeys m, by rw [List.getElem?_map, hm]; rfl, hcm, ?_⟩
      intro p' l' hl' hc'
      obtain ⟨m', hm', rfl⟩ := hget p' l' hl'
      by_contra hne
      have := h.fix p c (hmk p m c hm hcm) p' hne
      rw [hmk p' m' c hm' hc'] at this
      cases this

/-- the effect of a round on the marks -/
theorem ShareInv.move {N : Nat} {W : List Couple} {fs fs' : List LoadMap} (h : ShareInv N W fs) {p : Nat} {c : Couple} (hd : markAt fs p c = some true) (hlen : fs'.length = N)
    (hs : ∀ (p : Nat) (m : LoadMap), fs'[p]? = some m → StrictSorted (mapKeys m))
    (hmk : ∀ q d, markAt fs' q d = if d = c ∧ q = p then none else if d = c ∧ q = otherProc p c then some false else markAt fs q d) : ShareInv N W fs' := by
  obtain ⟨hst, ho⟩ := h.dup p c hd
  obtain ⟨hW, hcp⟩ := h.own p c (by rw [hd]; simp)
  obtain ⟨_, hco⟩ := h.own (otherProc p c) c (by rw [ho]; simp)
  have hpo : otherProc p c ≠ p := by
    unfold otherProc
    split
    · rename_i h1; rw [← h1]; exact Ne.symm hst
    · assumption
  have honly : ∀ q, c.src = q ∨ c.tgt = q → q = p ∨ q = otherProc p c := by
    intro q hq
    unfold otherProc
    split
    · rename_i h1
      rcases hq with hq | hq
      · left; omega
      · right; exact hq.symm
    · rename_i h1
      rcases hcp with hcp | hcp
      · exact absurd hcp h1
      · rcases hq with hq | hq
        · right; exact hq.symm
        · left; omega
  refine ⟨hlen, hs, ?_, ?_, ?_, ?_⟩
  · intro q d hne
    rw [hmk] at hne
    by_cases h1 : d = c ∧ q = p
    · rw [if_pos h1] at hne; exact absurd rfl hne
    · rw [if_neg h1] at hne
      by_cases h2 : d = c ∧ q = otherProc p c
      · obtain ⟨rfl, rfl⟩ := h2; exact ⟨hW, hco⟩
      · rw [if_neg h2] at hne; exact h.own q d hne
  · intro q d hq
    rw [hmk] at hq
    by_cases h1 : d = c ∧ q = p
    · rw [if_pos h1] at hq; cases hq
    · rw [if_neg h1] at hq
      by_cases h2 : d = c ∧ q = otherProc p c
      · rw [if_pos h2] at hq; simp at hq
      · rw [if_neg h2] at hq
        obtain ⟨h3, h4⟩ := h.dup q d hq
        have hdc : d ≠ c := by
          rintro rfl
          rcases honly q (h.own q d (by rw [hq]; simp)).2 with h5 | h5
          · exact h1 ⟨rfl, h5⟩
          · exact h2 ⟨rfl, h5⟩
        refine ⟨h3, ?_⟩
        rw [hmk, if_neg (fun h => hdc h.1), if_neg (fun h => hdc h.1)]; exact h4
  · intro q d hq r hr
    rw [hmk] at hq ⊢
    by_cases hdc : d = c
    · subst hdc
      by_cases h1 : q = p
      · rw [if_pos ⟨rfl, h1⟩] at hq; cases hq
      · rw [if_neg (fun h => h1 h.2)] at hq
        by_cases h3 : r = p
        · rw [if_pos ⟨rfl, h3⟩]
        · rw [if_neg (fun h => h3 h.2)]
          by_cases h2 : q = otherProc p d
          · rw [if_neg (by rintro ⟨_, h4⟩; exact hr (h4.trans h2.symm))]
            by_contra hne
            rcases honly r (h.own r d hne).2 with h5 | h5
            · exact h3 h5
            · exact hr (h5.trans h2.symm)
          · rw [if_neg (fun h => h2 h.2)] at hq
            exfalso
            rcases honly q (h.own q d (by rw [hq]; simp)).2 with h5 | h5
            · exact h1 h5
            · exact h2 h5
    · rw [if_neg (fun h => hdc h.1), if_neg (fun h => hdc h.1)] at hq ⊢
      exact h.fix q d hq r hr
  · intro d hd
    by_cases hdc : d = c
    · subst hdc
      refine ⟨otherProc p d, ?_⟩
      rw [hmk, if_neg (fun h => hpo h.2), if_pos ⟨rfl, rfl⟩]; simp
    · obtain ⟨q, hq⟩ := h.cover d hd
      refine ⟨q, ?_⟩
      rw [hmk, if_neg (fun h => hdc h.1), if_neg (fun h => hdc h.1)]; exact hq

/-! ## The pieces of a round -/

theorem loop_mapIdx {α : Type} (I : List α → Prop) (f : Nat → α → α) (g : Nat → List α → M (List α)) (fs : List α)
    (hI : I fs)
    (hg : ∀ k m fs', I fs' → fs'.length = fs.length → fs'[k]? = some m → g k fs' = .ok (fs'.set k (f k m)) ∧ I (fs'.set k (f k m))) :
    loop fs.length fs g = .ok (fs.mapIdx f) ∧ I (fs.mapIdx f) := by
  have key : ∀ n, n ≤ fs.length → ∃ fs', loop n fs g = .ok fs' ∧ I fs' ∧ fs'.length = fs.length ∧
      ∀ k : Nat, fs'[k]? = if k < n then (fs[k]?).map (f k) else fs[k]? := by
    intro n
    induction n with
    | zero => intro _; exact ⟨fs, rfl, hI, rfl, by simp⟩
    | succ n ih =>
      intro hn
      obtain ⟨fs', h1, h2, h3, h4⟩ := ih (by omega)
      have hm : fs'[n]? = some fs[n] := by rw [h4, if_neg (by omega)]; exact List.getElem?_eq_getElem (by omega)
      obtain ⟨h5, h6⟩ := hg n _ fs' h2 h3 hm
      refine ⟨_, by unfold loop; rw [h1, ok_bind]; exact h5, h6, by simpa using h3, ?_⟩
      intro k
      by_cases hk : k = n
      · subst hk
        rw [List.getElem?_set_self (by omega), if_pos (by omega), List.getElem?_eq_getElem (by omega)]; rfl
      · rw [List.getElem?_set_ne (Ne.symm hk), h4]
        by_cases hkn : k < n
        · rw [if_pos hkn, if_pos (by omega)]
        · rw [if_neg hkn, if_neg (by omega)]
  obtain ⟨fs', h1, h2, h3, h4⟩ := key fs.length le_rfl
  have : fs' = fs.mapIdx f := by
    apply List.ext_getElem?
    intro k
    rw [h4, List.getElem?_mapIdx]
    split
    · rfl
    · rw [List.getElem?_eq_none (by omega)]; rfl
  rw [this] at h1 h2
  exact ⟨h1, h2⟩

/-- the new load of a couple -/
def decLoad (maxId : Nat) (c : Couple) (l : Int) : Int := if l = intMax then l else if c.src = maxId ∨ c.tgt = maxId then l - 1 else l

theorem decLoad_mark (maxId : Nat) (c : Couple) (l : Int) : (decLoad maxId c l < intMax) ↔ l < intMax := by
  unfold decLoad
  split
  · rfl
  · rename_i h
    split <;> omega

/-- the update of the map of a processor -/
def updMap (maxId : Nat) (valid : List Bool) (p : Nat) (m : LoadMap) : LoadMap :=
  if valid[p]? = some true ∧ p ≠ maxId then m.map fun e => (e.1, decLoad maxId e.1 e.2) else m

theorem updMap_keys (maxId : Nat) (valid : List Bool) (p : Nat) (m : LoadMap) : mapKeys (updMap maxId valid p m) = mapKeys m := by
  unfold updMap
  split
  · simp [mapKeys]
  · rfl

theorem updMap_mark (maxId : Nat) (valid : List Bool) (p : Nat) (m : LoadMap) (c : Couple) : markOf (updMap maxId valid p m) c = markOf m c := by
  unfold updMap
  split
  · unfold markOf
    rw [mapFind_map (decLoad maxId), Option.map_map]
    congr 1
    funext l
    simp only [Function.comp]
    rw [decide_eq_decide]
    exact decLoad_mark maxId c l
  · rfl

theorem shareUpdate_ok {maxId : Nat} {valid : List Bool} {fs : List LoadMap} (hv : valid.length = fs.length) :
    shareUpdate maxId valid fs = .ok (fs.mapIdx (updMap maxId valid)) := by
  refine (loop_mapIdx (fun _ => True) (updMap maxId valid) _ fs trivial ?_).1
  intro k m fs' _ hl hm
  refine ⟨?_, trivial⟩
  have hk : k < fs'.length := (List.getElem?_eq_some_iff.1 hm).1
  have hvk : valid[k]? = some (valid[k]'(by omega)) := List.getElem?_eq_getElem _
  rw [vget_ok hm, ok_bind, vget_ok hvk, ok_bind]
  unfold updMap
  have hset : fs'.set k m = fs' := by
    apply List.ext_getElem?
    intro i
    by_cases hi : i = k
    · subst hi; rw [List.getElem?_set_self hk, hm]
    · rw [List.getElem?_set_ne (Ne.symm hi)]
  by_cases hb : valid[k]'(by omega) = true ∧ k ≠ maxId
  · rw [if_pos hb, if_pos ⟨by rw [hvk, hb.1], hb.2⟩]
    congr 3
    funext e
    simp only [decLoad]
    split
    · rfl
    · split <;> rfl
  · rw [if_neg hb, if_neg (by rintro ⟨h1, h2⟩; rw [hvk] at h1; exact hb ⟨Option.some.inj h1, h2⟩), hset]
    rfl

theorem mostLoaded_ok {fs : List LoadMap} {valid : List Bool} (hv : valid.length = fs.length) : ∃ sz r, mostLoaded fs valid = .ok (sz, r) ∧
    (r = none → ∀ q < fs.length, valid[q]? = some false) ∧ ∀ p, r = some p → p < fs.length ∧ valid[p]? = some true := by
  have key : ∀ n, n ≤ fs.length → ∃ (sz : Int) (r : Option Nat), loop n ((-1 : Int), (none : Option Nat)) (fun p (maxSz, maxId) => do
      let m ← vget fs p
      let v ← vget valid p
      if v ∧ (m.length : Int) > maxSz then return ((m.length : Int), some p) else return (maxSz, maxId)) = .ok (sz, r) ∧
      (r = none → sz = -1 ∧ ∀ q < n, valid[q]? = some false) ∧ ∀ p, r = some p → p < n ∧ valid[p]? = some true := by
    intro n
    induction n with
    | zero => intro _; exact ⟨-1, none, rfl, fun _ => ⟨rfl, by simp⟩, by simp⟩
    | succ n ih =>
      intro hn
      obtain ⟨sz, r, h1, h2, h3⟩ := ih (by omega)
      have hm : fs[n]? = some fs[n] := List.getElem?_eq_getElem (by omega)
      have hvn : valid[n]? = some (valid[n]'(by omega)) := List.getElem?_eq_getElem _
      unfold loop
      rw [h1, ok_bind]
      simp only [vget_ok hm, vget_ok hvn, ok_bind]
      by_cases hc : valid[n]'(by omega) = true ∧ ((fs[n].length : Nat) : Int) > sz
      · rw [if_pos hc]
        refine ⟨_, _, rfl, by simp, ?_⟩
        intro p hp
        cases hp
        exact ⟨by omega, by rw [hvn, hc.1]⟩
      · rw [if_neg hc]
        refine ⟨_, _, rfl, ?_, ?_⟩
        · intro hr
          obtain ⟨h4, h5⟩ := h2 hr
          refine ⟨h4, ?_⟩
          intro q hq
          by_cases hqn : q < n
          · exact h5 q hqn
          · have : q = n := by omega
            subst this
            rw [hvn]
            congr 1
            rw [Bool.eq_false_iff]
            intro ht
            exact hc ⟨ht, by omega⟩
        · intro p hp
          obtain ⟨h4, h5⟩ := h3 p hp
          exact ⟨by omega, h5⟩
  obtain ⟨sz, r, h1, h2, h3⟩ := key fs.length le_rfl
  exact ⟨sz, r, h1, fun hr => (h2 hr).2, h3⟩

theorem hit_fold : ∀ (l : LoadMap) (hit : Option Couple) (mn : Int),
    (∀ c, (l.foldl (fun (hit, minSz) e => if e.2 < minSz then (some e.1, e.2) else (hit, minSz)) (hit, mn)).1 = some c →
      hit = some c ∨ ∃ v, (c, v) ∈ l ∧ v < mn) ∧
    ((l.foldl (fun (hit, minSz) e => if e.2 < minSz then (some e.1, e.2) else (hit, minSz)) (hit, mn)).1 = none → hit = none ∧ ∀ e ∈ l, ¬ e.2 < mn)
  | [], hit, mn => ⟨fun c hc => Or.inl hc, fun h => ⟨h, by simp⟩⟩
  | (a, b) :: l, hit, mn => by
    rw [List.foldl_cons]
    by_cases hb : b < mn
    · simp only [hb, if_true]
      obtain ⟨h1, h2⟩ := hit_fold l (some a) b
      refine ⟨fun c hc => ?_, fun h => ?_⟩
      · rcases h1 c hc with h | ⟨v, hv, hlt⟩
        · cases h; exact Or.inr ⟨b, by simp, hb⟩
        · exact Or.inr ⟨v, by simp [hv], by omega⟩
      · have := (h2 h).1; simp at this
    · simp only [hb, if_false]
      obtain ⟨h1, h2⟩ := hit_fold l hit mn
      refine ⟨fun c hc => ?_, fun h => ?_⟩
      · rcases h1 c hc with h | ⟨v, hv, hlt⟩
        · exact Or.inl h
        · exact Or.inr ⟨v, by simp [hv], hlt⟩
      · obtain ⟨h3, h4⟩ := h2 h
        refine ⟨h3, ?_⟩
        intro e he
        rcases List.mem_cons.1 he with rfl | he
        · exact hb
        · exact h4 e he

theorem findHit_some {rev : Bool} {m : LoadMap} (hs : StrictSorted (mapKeys m)) {c : Couple} (h : findHit rev m = some c) : markOf m c = some true ∧ c ∈ mapKeys m := by
  unfold findHit at h
  rcases (hit_fold _ none intMax).1 c h with h | ⟨v, hv, hlt⟩
  · cases h
  · have hv' : (c, v) ∈ m := by
      split at hv
      · exact List.mem_reverse.1 hv
      · exact hv
    refine ⟨?_, List.mem_map.2 ⟨_, hv', rfl⟩⟩
    unfold markOf
    rw [mapFind_of_mem hs hv']
    simp [hlt]

theorem findHit_none {rev : Bool} {m : LoadMap} (h : findHit rev m = none) (c : Couple) : markOf m c ≠ some true := by
  unfold findHit at h
  have h1 := ((hit_fold _ none intMax).2 h).2
  intro hc
  unfold markOf at hc
  obtain ⟨v, hv, hd⟩ := Option.map_eq_some_iff.1 hc
  have hmem := mem_of_mapFind hv
  refine h1 (c, v) ?_ (by simpa using hd)
  split
  · exact List.mem_reverse.2 hmem
  · exact hmem

/-- what is left to do: couples and valid processors -/
def shareWork (fs : List LoadMap) (valid : List Bool) : Nat := (fs.map List.length).sum + valid.count true

theorem sum_set_nat {l : List Nat} {p a : Nat} (h : l[p]? = some a) (b : Nat) : (l.set p b).sum + a = l.sum + b := by
  induction l generalizing p with
  | nil => simp at h
  | cons x l ih =>
    cases p with
    | zero => simp at h; subst h; simp; omega
    | succ p =>
      have := ih (by simpa using h)
      simp; omega

theorem count_set_false {l : List Bool} {p : Nat} (h : l[p]? = some true) : (l.set p false).count true + 1 = l.count true := by
  induction l generalizing p with
  | nil => simp at h
  | cons x l ih =>
    cases p with
    | zero => simp at h; subst h; simp
    | succ p =>
      have := ih (by simpa using h)
      rw [List.set_cons_succ, List.count_cons, List.count_cons]; omega

structure ValidInv (fs : List LoadMap) (valid : List Bool) : Prop where
  len : valid.length = fs.length
  fin : ∀ p, valid[p]? = some false → ∀ c, markAt fs p c ≠ some true

theorem shareRound_ok {N : Nat} {W : List Couple} {fs : List LoadMap} {valid : List Bool} {rev : Bool} (h : ShareInv N W fs) (hv : ValidInv fs valid)
    (hW : ∀ c ∈ W, c.src < N ∧ c.tgt < N) (hany : valid.contains true = true) :
    ∃ fs' valid', shareRound rev fs valid = .ok (some (fs', valid')) ∧ ShareInv N W fs' ∧ ValidInv fs' valid' ∧ shareWork fs' valid' < shareWork fs valid := by
  obtain ⟨sz, r, h1, h2, h3⟩ := mostLoaded_ok hv.len
  unfold shareRound
  rw [h1, ok_bind]
  simp only
  cases r with
  | none =>
    exfalso
    have h4 := h2 rfl
    rw [List.contains_iff_mem] at hany
    obtain ⟨q, hq, hqe⟩ := List.getElem_of_mem hany
    have := h4 q (by rw [← hv.len]; exact hq)
    rw [List.getElem?_eq_getElem hq, hqe] at this
    simp at this
  | some p =>
    obtain ⟨hp, hvp⟩ := h3 p rfl
    have hm : fs[p]? = some fs[p] := List.getElem?_eq_getElem hp
    set m := fs[p] with hmdef
    have hsm := h.sorted p m hm
    simp only
    rw [vget_ok hm, ok_bind]
    cases hhit : findHit rev m with
    | none =>
      refine ⟨fs, valid.set p false, rfl, h, ⟨by simpa using hv.len, ?_⟩, ?_⟩
      · intro q hq c
        by_cases hqp : q = p
        · subst hqp
          rw [markAt_of hm]
          exact findHit_none hhit c
        · rw [List.getElem?_set_ne (Ne.symm hqp)] at hq
          exact hv.fin q hq c
      · unfold shareWork
        have := count_set_false hvp
        omega
    | some c =>
      obtain ⟨hmark, hck⟩ := findHit_some hsm hhit
      have hmk : markAt fs p c = some true := by rw [markAt_of hm]; exact hmark
      obtain ⟨hst, ho⟩ := h.dup p c hmk
      obtain ⟨hcW, hcp⟩ := h.own p c (by rw [hmk]; simp)
      obtain ⟨hc1, hc2⟩ := hW c hcW
      have hoN : otherProc p c < fs.length := by
        rw [h.len]; unfold otherProc; split <;> assumption
      have hpo : otherProc p c ≠ p := by
        unfold otherProc
        split
        · rename_i h5; rw [← h5]; exact Ne.symm hst
        · assumption
      have hmo : fs[otherProc p c]? = some fs[otherProc p c] := List.getElem?_eq_getElem hoN
      set mo := fs[otherProc p c] with hmodef
      have hsmo := h.sorted _ mo hmo
      have hcko : c ∈ mapKeys mo := by
        rw [markAt_of hmo] at ho
        by_contra hn
        rw [markOf_eq_none.2 hn] at ho; cases ho
      set fs1 := fs.set p (loadErase m c) with hfs1
      set fs2 := fs1.set (otherProc p c) (mapSet mo c intMax) with hfs2
      have hl2 : fs2.length = fs.length := by simp [hfs2, hfs1]
      have hmo1 : fs1[otherProc p c]? = some mo := by rw [hfs1, List.getElem?_set_ne (Ne.symm hpo)]; exact hmo
      have hget2 : ∀ q : Nat, fs2[q]? = if q = otherProc p c then some (mapSet mo c intMax) else if q = p then some (loadErase m c) else fs[q]? := by
        intro q
        by_cases h5 : q = otherProc p c
        · subst h5; rw [if_pos rfl, hfs2, List.getElem?_set_self (by rw [hfs1]; simpa using hoN)]
        · rw [if_neg h5, hfs2, List.getElem?_set_ne (Ne.symm h5), hfs1]
          by_cases h6 : q = p
          · subst h6; rw [if_pos rfl, List.getElem?_set_self hp]
          · rw [if_neg h6, List.getElem?_set_ne (Ne.symm h6)]
      set fs3 := fs2.mapIdx (updMap p valid) with hfs3
      have hupd : shareUpdate p valid fs2 = .ok fs3 := shareUpdate_ok (by rw [hl2]; exact hv.len)
      have hmk3 : ∀ q d, markAt fs3 q d = markAt fs2 q d := by
        intro q d
        cases hq : fs2[q]? with
        | none => rw [markAt_none_of hq, markAt_none_of (by rw [hfs3, List.getElem?_mapIdx, hq]; rfl)]
        | some x =>
          rw [markAt_of hq, markAt_of (m := updMap p valid q x) (by rw [hfs3, List.getElem?_mapIdx, hq]; rfl), updMap_mark]
      have hmk2 : ∀ q d, markAt fs2 q d = if d = c ∧ q = p then none else if d = c ∧ q = otherProc p c then some false else markAt fs q d := by
        intro q d
        by_cases h5 : q = otherProc p c
        · rw [markAt_of (by rw [hget2, if_pos h5]), markOf, mapFind_set, if_neg (show ¬ (d = c ∧ q = p) from fun h6 => hpo (h5.symm.trans h6.2))]
          by_cases h6 : d = c
          · rw [if_pos h6, if_pos ⟨h6, h5⟩]; simp
          · rw [if_neg h6, if_neg (fun h7 => h6 h7.1), h5, markAt_of hmo]; rfl
        · rw [if_neg (show ¬ (d = c ∧ q = otherProc p c) from fun h6 => h5 h6.2)]
          by_cases h6 : q = p
          · rw [markAt_of (by rw [hget2, if_neg h5, if_pos h6]), markOf, loadFind_erase]
            by_cases h7 : d = c
            · rw [if_pos h7, if_pos ⟨h7, h6⟩]; rfl
            · rw [if_neg h7, if_neg (fun h8 => h7 h8.1), h6, markAt_of hm]; rfl
          · rw [if_neg (fun h7 => h6 h7.2)]
            unfold markAt
            rw [hget2, if_neg h5, if_neg h6]
      have hsort2 : ∀ (q : Nat) (x : LoadMap), fs2[q]? = some x → StrictSorted (mapKeys x) := by
        intro q x hx
        rw [hget2] at hx
        split at hx
        · cases hx; exact sorted_mapSet hsmo c intMax
        · split at hx
          · cases hx; exact loadErase_sorted c hsm
          · exact h.sorted q x hx
      have hsort3 : ∀ (q : Nat) (x : LoadMap), fs3[q]? = some x → StrictSorted (mapKeys x) := by
        intro q x hx
        rw [hfs3, List.getElem?_mapIdx] at hx
        obtain ⟨y, hy1, hy2⟩ := Option.map_eq_some_iff.1 hx
        rw [← hy2, updMap_keys]
        exact hsort2 q y hy1
      have hl3 : fs3.length = fs.length := by rw [hfs3, List.length_mapIdx, hl2]
      refine ⟨fs3, valid, ?_, h.move hmk (by rw [hl3, h.len]) hsort3 (fun q d => by rw [hmk3, hmk2]), ⟨by rw [hl3]; exact hv.len, ?_⟩, ?_⟩
      · simp only
        rw [show (if c.src = p then c.tgt else c.src) = otherProc p c from rfl, ← hfs1, vget_ok hmo1, ok_bind]
        rw [← hfs2, hupd]
        rfl
      · intro q hq d
        rw [hmk3, hmk2]
        split
        · simp
        · split
          · simp
          · exact hv.fin q hq d
      · have hlens : fs3.map List.length = (fs.map List.length).set p (loadErase m c).length := by
          apply List.ext_getElem?
          intro q
          rw [List.getElem?_map, hfs3, List.getElem?_mapIdx, hget2]
          have hul : ∀ x, (updMap p valid q x).length = x.length := by
            intro x
            have := congrArg List.length (updMap_keys p valid q x)
            simpa [mapKeys] using this
          by_cases h5 : q = otherProc p c
          · rw [if_pos h5, List.getElem?_set_ne (by rw [h5]; exact Ne.symm hpo), List.getElem?_map, h5, hmo]
            have := hul (mapSet mo c intMax)
            rw [h5] at this
            simp [this, mapSet_length_of_mem intMax hsmo hcko]
          · rw [if_neg h5]
            by_cases h6 : q = p
            · subst h6
              rw [if_pos rfl, List.getElem?_set_self (by simpa using hp)]
              simp [hul]
            · rw [if_neg h6, List.getElem?_set_ne (Ne.symm h6), List.getElem?_map]
              cases fs[q]? with
              | none => rfl
              | some x => simp [hul]
        have hsum := sum_set_nat (l := fs.map List.length) (p := p) (a := m.length) (by rw [List.getElem?_map, hm]; rfl) (loadErase m c).length
        have hel := loadErase_length hsm hck
        unfold shareWork
        rw [hlens]
        omega

theorem shareLoop_ok {N : Nat} {W : List Couple} {rev : Bool} (hW : ∀ c ∈ W, c.src < N ∧ c.tgt < N) : ∀ (fuel : Nat) (fs : List LoadMap) (valid : List Bool),
    ShareInv N W fs → ValidInv fs valid → shareWork fs valid < fuel →
    ∃ fs', shareLoop rev fuel fs valid = .ok (some fs') ∧ ShareInv N W fs' ∧ ∀ p c, markAt fs' p c ≠ some true
  | 0, _, _, _, _, h => by omega
  | fuel + 1, fs, valid, hi, hv, hlt => by
    unfold shareLoop
    by_cases hany : valid.contains true = true
    · rw [if_pos hany]
      obtain ⟨fs1, v1, h1, h2, h3, h4⟩ := shareRound_ok (rev := rev) hi hv hW hany
      obtain ⟨fs', h5, h6, h7⟩ := shareLoop_ok (rev := rev) hW fuel fs1 v1 h2 h3 (by omega)
      refine ⟨fs', ?_, h6, h7⟩
      rw [h1, ok_bind]
      exact h5
    · rw [if_neg hany]
      refine ⟨fs, rfl, hi, ?_⟩
      intro p c
      by_cases hp : p < valid.length
      · refine hv.fin p ?_ c
        rw [List.getElem?_eq_getElem hp]
        congr 1
        rw [Bool.eq_false_iff]
        intro ht
        apply hany
        rw [List.contains_iff_mem, ← ht]
        exact List.getElem_mem hp
      · rw [markAt_none_of (List.getElem?_eq_none (by rw [← hv.len]; omega))]; simp

theorem shareLoop_more {rev : Bool} : ∀ (fuel : Nat) (fs : List LoadMap) (valid : List Bool) (r : List LoadMap), shareLoop rev fuel fs valid = .ok (some r) →
    shareLoop rev (fuel + 1) fs valid = .ok (some r)
  | 0, _, _, _, h => by simp [shareLoop] at h
  | fuel + 1, fs, valid, r, h => by
    rw [shareLoop] at h ⊢
    by_cases hany : valid.contains true = true
    · rw [if_pos hany] at h ⊢
      cases hr : shareRound rev fs valid with
      | error e => rw [hr, err_bind] at h; cases h
      | ok o =>
        rw [hr, ok_bind] at h
        rw [ok_bind]
        cases o with
        | none => exact h
        | some x => exact shareLoop_more fuel _ _ r h
    · rw [if_neg hany] at h ⊢
      exact h

/-! ## The start -/

/-- one round of `shareInit` -/
def initStep (fs : List LoadMap) (c : Couple) : M (List LoadMap) := do
  let a ← vget fs c.src
  let fs := fs.set c.src (mapSet a c (-1))
  let b ← vget fs c.tgt
  return fs.set c.tgt (mapSet b c (-1))

structure InitInv (N : Nat) (A : List Couple) (fs : List LoadMap) : Prop where
  len : fs.length = N
  sorted : ∀ (p : Nat) (m : LoadMap), fs[p]? = some m → StrictSorted (mapKeys m)
  keys : ∀ (p : Nat) (m : LoadMap), fs[p]? = some m → ∀ c, c ∈ mapKeys m ↔ c ∈ A ∧ (c.src = p ∨ c.tgt = p)

theorem initStep_ok {N : Nat} {A : List Couple} {fs : List LoadMap} (h : InitInv N A fs) {c : Couple} (h1 : c.src < N) (h2 : c.tgt < N) :
    ∃ fs', initStep fs c = .ok fs' ∧ InitInv N (A ++ [c]) fs' := by
  have e1 : fs[c.src]? = some (fs[c.src]'(by rw [h.len]; exact h1)) := List.getElem?_eq_getElem _
  set a := fs[c.src]'(by rw [h.len]; exact h1) with ha
  have hl1 : (fs.set c.src (mapSet a c (-1))).length = N := by simpa using h.len
  have e2 : (fs.set c.src (mapSet a c (-1)))[c.tgt]? = some ((fs.set c.src (mapSet a c (-1)))[c.tgt]'(by rw [hl1]; exact h2)) := List.getElem?_eq_getElem _
  set b := (fs.set c.src (mapSet a c (-1)))[c.tgt]'(by rw [hl1]; exact h2) with hb
  refine ⟨_, by unfold initStep; rw [vget_ok e1, ok_bind]; simp only; rw [vget_ok e2, ok_bind]; rfl, by simpa using h.len, ?_, ?_⟩
  · intro p m hm
    have hsb : StrictSorted (mapKeys b) := by
      by_cases hst : c.tgt = c.src
      · rw [hst, List.getElem?_set_self (by rw [h.len]; exact h1)] at e2
        rw [← Option.some.inj e2]
        exact sorted_mapSet (h.sorted _ a e1) _ _
      · rw [List.getElem?_set_ne (Ne.symm hst)] at e2
        exact h.sorted _ b e2
    by_cases hp : p = c.tgt
    · subst hp
      rw [List.getElem?_set_self (by rw [hl1]; exact h2)] at hm
      cases hm
      exact sorted_mapSet hsb _ _
    · rw [List.getElem?_set_ne (Ne.symm hp)] at hm
      by_cases hp2 : p = c.src
      · subst hp2
        rw [List.getElem?_set_self (by rw [h.len]; exact h1)] at hm
        cases hm
        exact sorted_mapSet (h.sorted _ a e1) _ _
      · rw [List.getElem?_set_ne (Ne.symm hp2)] at hm
        exact h.sorted p m hm
  · intro p m hm d
    have hA : ∀ q, (d ∈ A ++ [c] ∧ (d.src = q ∨ d.tgt = q)) ↔ (d ∈ A ∧ (d.src = q ∨ d.tgt = q)) ∨ (d = c ∧ (c.src = q ∨ c.tgt = q)) := by
      intro q
      rw [List.mem_append, List.mem_singleton]
      constructor
      · rintro ⟨h3 | h3, h4⟩
        · exact Or.inl ⟨h3, h4⟩
        · subst h3; exact Or.inr ⟨rfl, h4⟩
      · rintro (⟨h3, h4⟩ | ⟨h3, h4⟩)
        · exact ⟨Or.inl h3, h4⟩
        · subst h3; exact ⟨Or.inr rfl, h4⟩
    rw [hA]
    by_cases hp : p = c.tgt
    · subst hp
      rw [List.getElem?_set_self (by rw [hl1]; exact h2)] at hm
      cases hm
      rw [mem_mapKeys_set]
      by_cases hst : c.tgt = c.src
      · rw [hst, List.getElem?_set_self (by rw [h.len]; exact h1)] at e2
        rw [← Option.some.inj e2, mem_mapKeys_set, h.keys _ a e1, hst]
        tauto
      · rw [List.getElem?_set_ne (Ne.symm hst)] at e2
        rw [h.keys _ b e2]
        tauto
    · rw [List.getElem?_set_ne (Ne.symm hp)] at hm
      by_cases hp2 : p = c.src
      · subst hp2
        rw [List.getElem?_set_self (by rw [h.len]; exact h1)] at hm
        cases hm
        rw [mem_mapKeys_set, h.keys _ a e1]
        tauto
      · rw [List.getElem?_set_ne (Ne.symm hp2)] at hm
        rw [h.keys p m hm]
        constructor
        · exact Or.inl
        · rintro (h3 | ⟨_, h4⟩)
          · exact h3
          · rcases h4 with h4 | h4
            · exact absurd h4.symm hp2
            · exact absurd h4.symm hp

theorem initFold_ok {N : Nat} : ∀ (B A : List Couple) (fs : List LoadMap), InitInv N A fs → (∀ c ∈ B, c.src < N ∧ c.tgt < N) →
    ∃ fs', B.foldlM initStep fs = .ok fs' ∧ InitInv N (A ++ B) fs'
  | [], A, fs, h, _ => ⟨fs, rfl, by simpa using h⟩
  | c :: B, A, fs, h, hB => by
    obtain ⟨t1, h1, h2⟩ := initStep_ok h (hB c (by simp)).1 (hB c (by simp)).2
    obtain ⟨t2, h3, h4⟩ := initFold_ok B (A ++ [c]) t1 h2 fun d hd => hB d (by simp [hd])
    refine ⟨t2, ?_, by simpa using h4⟩
    rw [List.foldlM_cons, h1, ok_bind, h3]

theorem shareInit_ok (N : Nat) (inter : Nat → Nat → Bool) : ∃ fs, shareInit N (pairsOf N inter) = .ok fs ∧ InitInv N (couplesOf N inter) fs := by
  have hl : shareInit N (pairsOf N inter) = (couplesOf N inter).foldlM initStep (List.replicate N []) := pairs_loop N inter _ initStep _ (fun i s j => rfl)
  rw [hl]
  obtain ⟨t, h1, h2⟩ := initFold_ok (N := N) (couplesOf N inter) [] (List.replicate N []) (by
    have hget : ∀ (p : Nat) (l : LoadMap), (List.replicate N ([] : LoadMap))[p]? = some l → l = [] := by
      intro p l h
      rw [List.getElem?_replicate] at h
      split at h
      · exact (Option.some.inj h).symm
      · cases h
    refine ⟨by simp, ?_, ?_⟩
    · intro p m hm; rw [hget p m hm]; exact List.Pairwise.nil
    · intro p m hm c; rw [hget p m hm]; simp) (by
    intro c hc
    obtain ⟨h1, h2, _⟩ := mem_couplesOf.1 hc
    exact ⟨h1, h2⟩)
  exact ⟨t, h1, by simpa using h2⟩

theorem InitInv.size {N : Nat} {inter : Nat → Nat → Bool} {fs : List LoadMap} (h : InitInv N (couplesOf N inter) fs) {p : Nat} {m : LoadMap} (hm : fs[p]? = some m) :
    m.length ≤ 2 * N := by
  have hn : (mapKeys m).Nodup := (h.sorted p m hm).nodup
  have hsub : mapKeys m ⊆ (List.range N).map (cpl p) ++ (List.range N).map fun i => cpl i p := by
    intro c hc
    obtain ⟨h1, h2⟩ := (h.keys p m hm c).1 hc
    obtain ⟨h3, h4, _⟩ := mem_couplesOf.1 h1
    rw [List.mem_append, List.mem_map, List.mem_map]
    rcases h2 with h2 | h2
    · exact Or.inl ⟨c.tgt, List.mem_range.2 h4, by rw [← h2]; exact cpl_eta c⟩
    · exact Or.inr ⟨c.src, List.mem_range.2 h3, by rw [← h2]; exact cpl_eta c⟩
  have := (hn.subperm hsub).length_le
  simp at this
  omega

/-- the load of a couple at the start -/
def startLoad (sizes : List Nat) (p : Nat) (c : Couple) : Int :=
  if c.src = c.tgt then intMax else (((sizes[otherProc p c]?).getD 0 : Nat) : Int)

theorem shareLoads_ok {N : Nat} {inter : Nat → Nat → Bool} {fs : List LoadMap} (h : InitInv N (couplesOf N inter) fs) (hN : 2 * N < 2147483647) :
    ∃ fs', shareLoads fs = .ok fs' ∧ ShareInv N (couplesOf N inter) fs' := by
  set sizes := fs.map List.length with hsizes
  set f : Nat → LoadMap → LoadMap := fun p m => m.map fun e => (e.1, startLoad sizes p e.1) with hf
  have hflen : ∀ p m, (f p m).length = m.length := fun p m => by simp [hf]
  have hfkeys : ∀ p m, mapKeys (f p m) = mapKeys m := fun p m => by simp [hf, mapKeys]
  have hrun := loop_mapIdx (fun fs' : List LoadMap => fs'.map mapKeys = fs.map mapKeys) f (fun p fs => do
    let m ← vget fs p
    let m' ← m.mapM fun (c, _) => do
      if c.src = c.tgt then return (c, intMax)
      else if c.src = p then
        let o ← vget fs c.tgt
        return (c, (o.length : Int))
      else
        let o ← vget fs c.src
        return (c, (o.length : Int))
    return fs.set p m') fs rfl (by
    intro k m fs' hk hl hm
    have hkeys : ∀ (q : Nat) (x : LoadMap), fs'[q]? = some x → ∃ y, fs[q]? = some y ∧ mapKeys x = mapKeys y := by
      intro q x hx
      have h1 := congrArg (·[q]?) hk
      simp only [List.getElem?_map, hx, Option.map_some] at h1
      obtain ⟨y, hy1, hy2⟩ := Option.map_eq_some_iff.1 h1.symm
      exact ⟨y, hy1, hy2.symm⟩
    have hmap : ∀ e ∈ m, (do
        if e.1.src = e.1.tgt then return (e.1, intMax)
        else if e.1.src = k then
          let o ← vget fs' e.1.tgt
          return (e.1, (o.length : Int))
        else
          let o ← vget fs' e.1.src
          return (e.1, (o.length : Int))) = (.ok (e.1, startLoad sizes k e.1) : M (Couple × Int)) := by
      intro e he
      obtain ⟨y, hy1, hy2⟩ := hkeys k m hm
      have hce : e.1 ∈ mapKeys y := by rw [← hy2]; exact List.mem_map.2 ⟨e, he, rfl⟩
      obtain ⟨h1, _⟩ := (h.keys k y hy1 e.1).1 hce
      obtain ⟨h3, h4, _⟩ := mem_couplesOf.1 h1
      unfold startLoad
      by_cases hst : e.1.src = e.1.tgt
      · rw [if_pos hst, if_pos hst]; rfl
      · rw [if_neg hst, if_neg hst]
        have hsz : ∀ q, q < N → ∃ x, fs'[q]? = some x ∧ sizes[q]? = some x.length := by
          intro q hq
          have hx : fs'[q]? = some (fs'[q]'(by rw [hl, h.len]; exact hq)) := List.getElem?_eq_getElem _
          refine ⟨_, hx, ?_⟩
          obtain ⟨z, hz1, hz2⟩ := hkeys q _ hx
          rw [hsizes, List.getElem?_map, hz1]
          have := congrArg List.length hz2
          simp only [mapKeys, List.length_map] at this
          simp [this]
        by_cases hsk : e.1.src = k
        · rw [if_pos hsk]
          obtain ⟨x, hx1, hx2⟩ := hsz _ h4
          rw [vget_ok hx1, ok_bind, otherProc, if_pos hsk, hx2]; rfl
        · rw [if_neg hsk]
          obtain ⟨x, hx1, hx2⟩ := hsz _ h3
          rw [vget_ok hx1, ok_bind, otherProc, if_neg hsk, hx2]; rfl
    constructor
    · rw [vget_ok hm, ok_bind]
      have : ∀ l : LoadMap, (∀ e ∈ l, e ∈ m) → l.mapM (fun (c, _) => do
          if c.src = c.tgt then return (c, intMax)
          else if c.src = k then
            let o ← vget fs' c.tgt
            return (c, (o.length : Int))
          else
            let o ← vget fs' c.src
            return (c, (o.length : Int))) = .ok (f k l) := by
        intro l
        induction l with
        | nil => intro _; rfl
        | cons e l ih =>
          intro hl
          rw [List.mapM_cons]
          have h1 := hmap e (hl e (by simp))
          obtain ⟨c, v⟩ := e
          simp only at h1 ⊢
          rw [h1, ok_bind, ih fun e' he' => hl e' (by simp [he']), ok_bind]
          rfl
      rw [this m fun e he => he, ok_bind]
      rfl
    · have hklt : k < fs'.length := (List.getElem?_eq_some_iff.1 hm).1
      rw [List.map_set, hfkeys, ← hk]
      apply List.ext_getElem?
      intro i
      by_cases hi : i = k
      · subst hi
        rw [List.getElem?_set_self (by simpa using hklt), List.getElem?_map, hm]; rfl
      · rw [List.getElem?_set_ne (Ne.symm hi)])
  obtain ⟨hrun, _⟩ := hrun
  refine ⟨_, hrun, ?_⟩
  have hget : ∀ q : Nat, (fs.mapIdx f)[q]? = (fs[q]?).map (f q) := fun q => List.getElem?_mapIdx
  have hmk : ∀ p c, markAt (fs.mapIdx f) p c = if p < N ∧ c ∈ couplesOf N inter ∧ (c.src = p ∨ c.tgt = p) then some (decide (c.src ≠ c.tgt)) else none := by
    intro p c
    by_cases hp : p < N
    · have hm : fs[p]? = some (fs[p]'(by rw [h.len]; exact hp)) := List.getElem?_eq_getElem _
      set m := fs[p]'(by rw [h.len]; exact hp) with hmdef
      rw [markAt_of (m := f p m) (by rw [hget, hm]; rfl)]
      by_cases hc : c ∈ mapKeys m
      · have hck := (h.keys p m hm c).1 hc
        rw [if_pos ⟨hp, hck⟩]
        unfold markOf
        rw [mapFind_map fun c _ => startLoad sizes p c]
        obtain ⟨v, hv⟩ := mapFind_isSome.2 hc
        rw [hv]
        simp only [Option.map_some]
        congr 1
        rw [decide_eq_decide]
        unfold startLoad
        obtain ⟨h3, h4, _⟩ := mem_couplesOf.1 hck.1
        by_cases hst : c.src = c.tgt
        · simp [hst]
        · rw [if_neg hst]
          have ho : otherProc p c < N := by unfold otherProc; split <;> assumption
          have hx : fs[otherProc p c]? = some (fs[otherProc p c]'(by rw [h.len]; exact ho)) := List.getElem?_eq_getElem _
          have := h.size hx
          rw [hsizes, List.getElem?_map, hx]
          simp only [Option.map_some, Option.getD_some, intMax, ne_eq, hst, not_false_eq_true, iff_true]
          omega
      · have hck : ¬ (p < N ∧ c ∈ couplesOf N inter ∧ (c.src = p ∨ c.tgt = p)) := fun hh => hc ((h.keys p m hm c).2 hh.2)
        rw [if_neg hck, markOf_eq_none, hfkeys]
        exact hc
    · rw [if_neg (fun hh => hp hh.1)]
      exact markAt_none_of (by rw [hget, List.getElem?_eq_none (by rw [h.len]; omega)]; rfl) c
  refine ⟨by simpa using h.len, ?_, ?_, ?_, ?_, ?_⟩
  · intro p m hm
    rw [hget] at hm
    obtain ⟨y, hy1, hy2⟩ := Option.map_eq_some_iff.1 hm
    rw [← hy2, hfkeys]
    exact h.sorted p y hy1
  · intro p c hne
    rw [hmk] at hne
    split at hne
    · rename_i hh; exact hh.2
    · exact absurd rfl hne
  · intro p c hd
    rw [hmk] at hd
    split at hd
    · rename_i hh
      simp only [ne_eq, Option.some.injEq, decide_eq_true_eq] at hd
      refine ⟨hd, ?_⟩
      obtain ⟨h3, h4, _⟩ := mem_couplesOf.1 hh.2.1
      rw [hmk, if_pos]
      · simp [hd]
      · refine ⟨?_, hh.2.1, ?_⟩
        · unfold otherProc; split <;> assumption
        · unfold otherProc; split
          · exact Or.inr rfl
          · exact Or.inl rfl
    · cases hd
  · intro p c hd q hq
    rw [hmk] at hd ⊢
    split at hd
    · rename_i hh
      simp only [ne_eq, Option.some.injEq, decide_eq_false_iff_not, not_not] at hd
      rw [if_neg]
      rintro ⟨_, _, h5⟩
      rcases hh.2.2 with h6 | h6 <;> rcases h5 with h5 | h5 <;> omega
    · cases hd
  · intro c hc
    obtain ⟨h3, h4, _⟩ := mem_couplesOf.1 hc
    refine ⟨c.src, ?_⟩
    rw [hmk, if_pos ⟨h3, hc, Or.inl rfl⟩]; simp

theorem todoNew_ok (rev : Bool) (N : Nat) (hN : 2 * N < 2147483647) (inter : Nat → Nat → Bool) : ∃ todo n, (∀ fuel, n ≤ fuel → todoNew rev fuel N (pairsOf N inter) = .ok (some todo)) ∧
    Shared N (couplesOf N inter) todo := by
  obtain ⟨fs, h1, h2⟩ := shareInit_ok N inter
  obtain ⟨fs1, h3, h4⟩ := shareLoads_ok h2 hN
  have hv : ValidInv fs1 (List.replicate N true) := by
    refine ⟨by simp [h4.len], ?_⟩
    intro p hp
    rw [List.getElem?_replicate] at hp
    split at hp <;> simp at hp
  obtain ⟨fs2, h5, h6, h7⟩ := shareLoop_ok (rev := rev) (fun c hc => by
    obtain ⟨a, b, _⟩ := mem_couplesOf.1 hc; exact ⟨a, b⟩) (shareWork fs1 (List.replicate N true) + 1) fs1 _ h4 hv (by omega)
  refine ⟨fs2.map mapKeys, shareWork fs1 (List.replicate N true) + 1, ?_, h6.done h7⟩
  intro fuel hfuel
  have h8 : shareLoop rev fuel fs1 (List.replicate N true) = .ok (some fs2) := by
    obtain ⟨k, rfl⟩ := Nat.exists_eq_add_of_le hfuel
    clear hfuel
    induction k with
    | zero => exact h5
    | succ k ih => exact shareLoop_more _ _ _ _ ih
  unfold todoNew
  rw [h1, ok_bind, h3, ok_bind, h8, ok_bind]
  rfl

end MC
