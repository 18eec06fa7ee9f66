import Verif.BBTree
import Verif.StdAlg
import Mathlib.Tactic.Ring
import Mathlib.Analysis.Real.Sqrt
import Mathlib.Tactic.Linarith
import Mathlib.Algebra.Order.BigOperators.Group.List

/-!
# The searches in the trees return exactly the elements that a plain scan finds (C77)
-/

namespace MC
section

/-- the elements of a tree, from left to right -/
def BT.elems {K : Type} : BT K → List Nat
  | .leaf es => es
  | .node _ _ _ l r => l.elems ++ r.elems

variable {K : Type} [CommRing K] [LinearOrder K] [IsStrictOrderedRing K]

/-- the bounds kept in the nodes separate the elements -/
def BT.Inv (lo hi : Nat → Nat → K) (pad : K) : BT K → Prop
  | .leaf _ => True
  | .node level maxLeft minRight l r => (∀ e ∈ l.elems, hi level e + pad ≤ maxLeft) ∧ (∀ e ∈ r.elems, minRight ≤ lo level e - pad) ∧
      l.Inv lo hi pad ∧ r.Inv lo hi pad

omit [CommRing K] [IsStrictOrderedRing K] in
theorem btSplit_spec {lo hi : Nat → M K} {lo' hi' : Nat → K} {toRight : K → Bool} : ∀ (elems : List Nat) (s : (List Nat × K) × (List Nat × K)),
    (∀ e ∈ elems, lo e = .ok (lo' e) ∧ hi e = .ok (hi' e)) → (∀ e ∈ s.1.1, hi' e ≤ s.1.2) → (∀ e ∈ s.2.1, s.2.2 ≤ lo' e) →
    ∃ s', elems.foldlM (btSplitStep lo hi toRight) s = .ok s' ∧ s'.1.1 = s.1.1 ++ elems.filter (fun e => !toRight (lo' e)) ∧
      s'.2.1 = s.2.1 ++ elems.filter (fun e => toRight (lo' e)) ∧ (∀ e ∈ s'.1.1, hi' e ≤ s'.1.2) ∧ (∀ e ∈ s'.2.1, s'.2.2 ≤ lo' e)
  | [], s, _, h1, h2 => ⟨s, rfl, by simp, by simp, h1, h2⟩
  | e :: elems, s, h, h1, h2 => by
    have he := h e List.mem_cons_self
    have hr := fun e' he' => h e' (List.mem_cons_of_mem _ he')
    rw [List.foldlM_cons]
    unfold btSplitStep
    rw [he.1, he.2, ok_bind, ok_bind]
    by_cases ht : toRight (lo' e) = true
    · rw [if_pos ht, ok_bind]
      obtain ⟨s', a1, a2, a3, a4, a5⟩ := btSplit_spec (lo := lo) (hi := hi) (toRight := toRight) elems
        (s.1, s.2.1 ++ [e], if lo' e < s.2.2 then lo' e else s.2.2) hr h1 (by
          intro e' he'
          rcases List.mem_append.mp he' with h' | h'
          · split
            · exact le_trans (le_of_lt ‹_›) (h2 e' h')
            · exact h2 e' h'
          · rw [List.mem_singleton.mp h']
            split
            · exact le_refl _
            · exact not_lt.mp ‹_›)
      refine ⟨s', a1, ?_, ?_, a4, a5⟩
      · rw [a2, List.filter_cons_of_neg (by simp [ht])]
      · rw [a3, List.filter_cons_of_pos (by simp [ht])]; simp
    · rw [if_neg ht, ok_bind]
      obtain ⟨s', a1, a2, a3, a4, a5⟩ := btSplit_spec (lo := lo) (hi := hi) (toRight := toRight) elems
        ((s.1.1 ++ [e], if hi' e > s.1.2 then hi' e else s.1.2), s.2) hr (by
          intro e' he'
          rcases List.mem_append.mp he' with h' | h'
          · split
            · exact le_trans (h1 e' h') (le_of_lt ‹_›)
            · exact h1 e' h'
          · rw [List.mem_singleton.mp h']
            split
            · exact le_refl _
            · exact not_lt.mp ‹_›) h2
      refine ⟨s', a1, ?_, ?_, a4, a5⟩
      · rw [a2, List.filter_cons_of_pos (by simp [ht])]; simp
      · rw [a3, List.filter_cons_of_neg (by simp [ht])]

omit [CommRing K] [LinearOrder K] [IsStrictOrderedRing K] in
theorem bt_mapM_ok {f : Nat → M K} {f' : Nat → K} : ∀ l : List Nat, (∀ e ∈ l, f e = .ok (f' e)) → l.mapM f = .ok (l.map f')
  | [], _ => rfl
  | e :: l, h => by
    rw [List.mapM_cons, h e List.mem_cons_self, ok_bind, bt_mapM_ok l fun x hx => h x (List.mem_cons_of_mem _ hx)]
    rfl

/-- the construction ends, keeps each element once and separates them -/
theorem btBuild_spec {lo hi : Nat → Nat → M K} {lo' hi' : Nat → Nat → K} {right : K → K → Bool} {pad big : K} :
    ∀ (fuel level : Nat) (elems : List Nat), 22 ≤ fuel + level → (∀ lev, ∀ e ∈ elems, lo lev e = .ok (lo' lev e) ∧ hi lev e = .ok (hi' lev e)) →
    0 < fuel → ∃ t, btBuild lo hi right pad big fuel level elems = .ok t ∧ t.elems.Perm elems ∧ t.Inv lo' hi' pad
  | 0, _, _, _, _, h => by omega
  | fuel + 1, level, elems, hf, h, _ => by
    unfold btBuild
    by_cases hc : elems.length < 15 ∨ level > 20
    · rw [if_pos hc]
      exact ⟨_, rfl, List.Perm.refl _, trivial⟩
    · rw [if_neg hc, bt_mapM_ok _ fun e he => (h level e he).1, ok_bind]
      unfold nthElement
      have hlt : elems.length / 2 < ((elems.map (lo' level)).insertionSort (· ≤ ·)).length := by
        rw [List.length_insertionSort, List.length_map]; omega
      rw [rd_natCast hlt, ok_bind]
      obtain ⟨s, a1, a2, a3, a4, a5⟩ := btSplit_spec (toRight := fun v => right v
        ((elems.map (lo' level)).insertionSort (· ≤ ·))[elems.length / 2]) elems (([], -big), ([], big)) (h level) (by simp) (by simp)
      rw [a1, ok_bind]
      rw [List.nil_append] at a2 a3
      obtain ⟨l, l1, l2, l3⟩ := btBuild_spec (right := right) (pad := pad) (big := big) fuel (level + 1) s.1.1 (by omega)
        (fun lev e he => h lev e (List.mem_of_mem_filter (a2 ▸ he))) (by omega)
      obtain ⟨r, r1, r2, r3⟩ := btBuild_spec (right := right) (pad := pad) (big := big) fuel (level + 1) s.2.1 (by omega)
        (fun lev e he => h lev e (List.mem_of_mem_filter (a3 ▸ he))) (by omega)
      rw [l1, ok_bind, r1, ok_bind]
      refine ⟨_, rfl, ?_, ?_, ?_, l3, r3⟩
      · refine (l2.append r2).trans ?_
        rw [a2, a3]
        refine List.perm_append_comm.trans ?_
        exact List.filter_append_perm _ _
      · intro e he
        have := a4 e (l2.mem_iff.mp he)
        linarith
      · intro e he
        have := a5 e (r2.mem_iff.mp he)
        linarith

omit [CommRing K] [LinearOrder K] [IsStrictOrderedRing K] in
theorem BT.size_elems (t : BT K) : t.size = t.elems.length := by
  induction t with
  | leaf => rfl
  | node _ _ _ l r h1 h2 => rw [BT.size, BT.elems, List.length_append, h1, h2]

omit [CommRing K] [LinearOrder K] [IsStrictOrderedRing K] in
theorem collect_leaf {test : Nat → M Bool} {P : Nat → Bool} : ∀ (es out : List Nat), (∀ e ∈ es, test e = .ok (P e)) →
    es.foldlM (fun (out : List Nat) e => do
      let b ← test e
      (.ok (if b then out ++ [e] else out) : M (List Nat))) out = .ok (out ++ es.filter P)
  | [], out, _ => by simp; rfl
  | e :: es, out, h => by
    rw [List.foldlM_cons, h e List.mem_cons_self, ok_bind, ok_bind, collect_leaf es _ fun x hx => h x (List.mem_cons_of_mem _ hx)]
    by_cases he : P e = true <;> simp [he]

omit [IsStrictOrderedRing K] in
/-- the searches skip only elements which do not pass the test -/
theorem btCollect_spec {lo hi : Nat → Nat → K} {pad : K} {onlyLeft onlyRight : Nat → K → M Bool} {test : Nat → M Bool} {P : Nat → Bool}
    {V : Nat → Prop} (hl : ∀ lev m, ∃ b, onlyLeft lev m = .ok b ∧ (b = true → ∀ e, V e → m ≤ lo lev e - pad → P e = false))
    (hr : ∀ lev m, ∃ b, onlyRight lev m = .ok b ∧ (b = true → ∀ e, V e → hi lev e + pad ≤ m → P e = false)) (ht : ∀ e, V e → test e = .ok (P e)) :
    ∀ (t : BT K), t.Inv lo hi pad → (∀ e ∈ t.elems, V e) → ∀ out : List Nat,
      btCollect onlyLeft onlyRight test t out = .ok (out ++ t.elems.filter P) ∧ btCount onlyLeft onlyRight test t = .ok (t.elems.filter P).length
  | .leaf es, _, hv, out => by
    refine ⟨collect_leaf es out fun e he => ht e (hv e he), ?_⟩
    have : ∀ (es : List Nat) (n : Nat), (∀ e ∈ es, V e) → es.foldlM (fun n e => do
      let b ← test e
      (.ok (if b then n + 1 else n) : M Nat)) n = .ok (n + (es.filter P).length) := by
      intro es
      induction es with
      | nil => intro n _; rfl
      | cons e es ih =>
        intro n hv
        rw [List.foldlM_cons, ht e (hv e List.mem_cons_self), ok_bind, ok_bind, ih _ fun x hx => hv x (List.mem_cons_of_mem _ hx)]
        by_cases he : P e = true
        · simp [he]; omega
        · simp [he]
    have := this es 0 hv
    rwa [Nat.zero_add] at this
  | .node lev ml mr l r, hi', hv, out => by
    obtain ⟨i1, i2, i3, i4⟩ := hi'
    have hvl : ∀ e ∈ l.elems, V e := fun e he => hv e (List.mem_append_left _ he)
    have hvr : ∀ e ∈ r.elems, V e := fun e he => hv e (List.mem_append_right _ he)
    have hL := btCollect_spec hl hr ht l i3 hvl
    have hR := btCollect_spec hl hr ht r i4 hvr
    obtain ⟨a, e1, h1⟩ := hl lev mr
    obtain ⟨b, e2, h2⟩ := hr lev ml
    rw [btCollect, btCount, e1, ok_bind, ok_bind, BT.elems, List.filter_append]
    cases a with
    | true =>
      have : r.elems.filter P = [] := by
        rw [List.filter_eq_nil_iff]
        intro e he
        rw [h1 rfl e (hvr e he) (i2 e he)]; simp
      rw [this, List.append_nil]
      exact ⟨(hL out).1, (hL out).2⟩
    | false =>
      rw [e2, ok_bind, ok_bind]
      cases b with
      | true =>
        have : l.elems.filter P = [] := by
          rw [List.filter_eq_nil_iff]
          intro e he
          rw [h2 rfl e (hvl e he) (i1 e he)]; simp
        rw [this, List.nil_append]
        exact ⟨(hR out).1, (hR out).2⟩
      | false =>
        simp only [Bool.false_eq_true, if_false]
        rw [(hL out).1, (hL out).2, ok_bind, ok_bind, (hR _).1, (hR out).2, ok_bind, List.length_append, List.append_assoc]
        exact ⟨rfl, rfl⟩

/-! ## Boxes -/

/-- lower and upper bounds of box `e` along axis `d` in the array `[xmin0 xmax0 ymin0 ymax0 ... xmin1 xmax1 ...]` -/
def boxLo (dim : Nat) (bbs : List K) (d e : Nat) : K := bbs.getD (e * dim * 2 + d * 2) 0

/-- upper bound -/
def boxHi (dim : Nat) (bbs : List K) (d e : Nat) : K := bbs.getD (e * dim * 2 + d * 2 + 1) 0

omit [LinearOrder K] [IsStrictOrderedRing K] in
theorem rd_getD {l : List K} {i : Nat} (h : i < l.length) : rd l (i : Int) = .ok (l.getD i 0) := by
  rw [rd_natCast h, List.getD_eq_getElem?_getD, List.getElem?_eq_getElem h]; rfl

omit [LinearOrder K] [IsStrictOrderedRing K] in
theorem bbLo_ok {dim : Nat} {bbs : List K} {d e : Nat} (hd : d < dim) (he : (e + 1) * dim * 2 ≤ bbs.length) :
    bbLo dim bbs d e = .ok (boxLo dim bbs d e) ∧ bbHi dim bbs d e = .ok (boxHi dim bbs d e) := by
  have : (e + 1) * dim * 2 = e * dim * 2 + dim * 2 := by ring
  exact ⟨rd_getD (by omega), rd_getD (by omega)⟩

omit [CommRing K] [LinearOrder K] [IsStrictOrderedRing K] in
/-- a loop which tests all the axes -/
theorem loop_all {f : Nat → Bool → M Bool} {P : Nat → Bool} : ∀ n : Nat, (∀ d, d < n → ∀ ok, f d ok = .ok (P d && ok)) →
    loop n true f = .ok ((List.range n).all P)
  | 0, _ => rfl
  | n + 1, h => by
    rw [loop_succ, loop_all n fun d hd => h d (by omega), ok_bind, h n (by omega), List.range_succ, List.all_append]
    congr 1
    rw [Bool.and_comm]
    simp

/-- box `e` meets the box `bb`, up to `eps` -/
def Meets (dim : Nat) (bbs : List K) (eps : K) (bb : List K) (e : Nat) : Prop :=
  ∀ d, d < dim → boxLo dim bbs d e ≤ boxHi dim bb d 0 - eps ∧ boxLo dim bb d 0 + eps ≤ boxHi dim bbs d e

/-- point `x` is in box `e`, up to `eps` -/
def Contains (dim : Nat) (bbs : List K) (eps : K) (x : List K) (e : Nat) : Prop :=
  ∀ d, d < dim → boxLo dim bbs d e - eps ≤ x.getD d 0 ∧ x.getD d 0 ≤ boxHi dim bbs d e + eps

instance (dim : Nat) (bbs : List K) (eps : K) (bb : List K) (e : Nat) : Decidable (Meets dim bbs eps bb e) :=
  inferInstanceAs (Decidable (∀ d, d < dim → _))

instance (dim : Nat) (bbs : List K) (eps : K) (bb : List K) (e : Nat) : Decidable (Contains dim bbs eps bb e) :=
  inferInstanceAs (Decidable (∀ d, d < dim → _))

theorem bbTest_ok {dim : Nat} {bbs bb : List K} {eps : K} {e : Nat} (he : (e + 1) * dim * 2 ≤ bbs.length) (hb : dim * 2 ≤ bb.length) :
    bbTest dim bbs bb eps e = .ok (decide (Meets dim bbs eps bb e)) := by
  unfold bbTest
  rw [loop_all (P := fun d => decide (boxLo dim bbs d e ≤ boxHi dim bb d 0 - eps ∧ boxLo dim bb d 0 + eps ≤ boxHi dim bbs d e))]
  · congr 1
    rw [Bool.eq_iff_iff, List.all_eq_true]
    rw [decide_eq_true_iff]
    simp [Meets]
  · intro d hd ok
    rw [(bbLo_ok hd he).1, (bbLo_ok hd he).2, rd_getD (by omega), rd_getD (by omega)]
    simp only [ok_bind]
    have e1 : bb.getD (d * 2 + 1) 0 = boxHi dim bb d 0 := by simp [boxHi]
    have e2 : bb.getD (d * 2) 0 = boxLo dim bb d 0 := by simp [boxLo]
    rw [e1, e2]
    by_cases h1 : boxLo dim bbs d e - boxHi dim bb d 0 > -eps
    · rw [if_pos h1, decide_eq_false (by intro h; linarith [h.1]), Bool.false_and]
    · rw [if_neg h1]
      by_cases h2 : boxHi dim bbs d e - boxLo dim bb d 0 < eps
      · rw [if_pos h2, decide_eq_false (by intro h; linarith [h.2]), Bool.false_and]
      · rw [if_neg h2, decide_eq_true (by constructor <;> linarith), Bool.true_and]

theorem bbPtTest_ok {dim : Nat} {bbs xx : List K} {eps : K} {e : Nat} (he : (e + 1) * dim * 2 ≤ bbs.length) (hb : dim ≤ xx.length) :
    bbPtTest dim bbs xx eps e = .ok (decide (Contains dim bbs eps xx e)) := by
  unfold bbPtTest
  rw [loop_all (P := fun d => decide (boxLo dim bbs d e - eps ≤ xx.getD d 0 ∧ xx.getD d 0 ≤ boxHi dim bbs d e + eps))]
  · congr 1
    rw [Bool.eq_iff_iff, List.all_eq_true]
    rw [decide_eq_true_iff]
    simp [Contains]
  · intro d hd ok
    rw [(bbLo_ok hd he).1, (bbLo_ok hd he).2, rd_getD (by omega)]
    simp only [ok_bind]
    by_cases h1 : boxLo dim bbs d e - xx.getD d 0 > eps
    · rw [if_pos h1, decide_eq_false (by intro h; linarith [h.1]), Bool.false_and]
    · rw [if_neg h1]
      by_cases h2 : boxHi dim bbs d e - xx.getD d 0 < -eps
      · rw [if_pos h2, decide_eq_false (by intro h; linarith [h.2]), Bool.false_and]
      · rw [if_neg h2, decide_eq_true (by constructor <;> linarith), Bool.true_and]

/-- C77: whatever the sign of epsilon, the tree of boxes is built without error, holds each element once, and its searches return exactly
the elements that a scan of all the boxes finds: the boxes which meet the given box, and the boxes which contain the given point.  The
count is the number of elements returned. -/
theorem C77_boxes {dim : Nat} (hd : 0 < dim) {bbs : List K} (elems : Option (List Nat)) (nb : Nat) (eps big : K)
    (hv : ∀ e ∈ btElems elems nb, (e + 1) * dim * 2 ≤ bbs.length) :
    ∃ t, bbTree dim bbs elems nb eps big = .ok t ∧ t.size = (btElems elems nb).length ∧
      (∀ bb : List K, dim * 2 ≤ bb.length → ∃ found : List Nat, found.Perm ((btElems elems nb).filter fun e => decide (Meets dim bbs eps bb e)) ∧
        (∀ out, getIntersectingElems dim bbs eps t bb out = .ok (out ++ found)) ∧ getNbOfIntersectingElems dim bbs eps t bb = .ok found.length) ∧
      (∀ xx : List K, dim ≤ xx.length → ∃ found : List Nat, found.Perm ((btElems elems nb).filter fun e => decide (Contains dim bbs eps xx e)) ∧
        ∀ out, getElementsAroundPoint dim bbs eps t xx out = .ok (out ++ found)) := by
  have hm : ∀ lev, lev % dim < dim := fun lev => Nat.mod_lt _ hd
  obtain ⟨t, e1, e2, e3⟩ := btBuild_spec (lo := fun level => bbLo dim bbs (level % dim)) (hi := fun level => bbHi dim bbs (level % dim))
    (lo' := fun level => boxLo dim bbs (level % dim)) (hi' := fun level => boxHi dim bbs (level % dim)) (right := fun v m => decide (v > m))
    (pad := |eps|) (big := big) 22 0 (btElems elems nb) (by omega) (fun lev e he => bbLo_ok (hm lev) (hv e he)) (by omega)
  refine ⟨t, e1, ?_, fun bb hb => ?_, fun xx hx => ?_⟩
  · rw [BT.size_elems, e2.length_eq]
  · have := btCollect_spec (lo := fun level => boxLo dim bbs (level % dim)) (hi := fun level => boxHi dim bbs (level % dim)) (pad := |eps|)
      (onlyLeft := bbOnlyLeft dim bb) (onlyRight := bbOnlyRight dim bb) (test := bbTest dim bbs bb eps)
      (P := fun e => decide (Meets dim bbs eps bb e)) (V := fun e => (e + 1) * dim * 2 ≤ bbs.length) (by
        intro lev m
        have h1 : (lev % dim) * 2 + 1 < bb.length := by have := hm lev; omega
        unfold bbOnlyLeft
        rw [rd_getD h1, ok_bind]
        refine ⟨_, rfl, fun hb e he hle => decide_eq_false fun hM => ?_⟩
        have hb := of_decide_eq_true hb
        have h2 := (hM _ (hm lev)).1
        rw [show boxHi dim bb (lev % dim) 0 = bb.getD (lev % dim * 2 + 1) 0 by simp [boxHi]] at h2
        have := neg_abs_le eps
        linarith) (by
        intro lev m
        have h1 : (lev % dim) * 2 < bb.length := by have := hm lev; omega
        unfold bbOnlyRight
        rw [rd_getD h1, ok_bind]
        refine ⟨_, rfl, fun hb e he hle => decide_eq_false fun hM => ?_⟩
        have hb := of_decide_eq_true hb
        have h2 := (hM _ (hm lev)).2
        rw [show boxLo dim bb (lev % dim) 0 = bb.getD (lev % dim * 2) 0 by simp [boxLo]] at h2
        have := neg_abs_le eps
        linarith) (fun e he => bbTest_ok he hb) t e3 (fun e he => hv e (e2.mem_iff.mp he))
    exact ⟨_, e2.filter _, fun out => (this out).1, (this []).2⟩
  · have := btCollect_spec (lo := fun level => boxLo dim bbs (level % dim)) (hi := fun level => boxHi dim bbs (level % dim)) (pad := |eps|)
      (onlyLeft := ptOnlyLeft dim xx) (onlyRight := ptOnlyRight dim xx) (test := bbPtTest dim bbs xx eps)
      (P := fun e => decide (Contains dim bbs eps xx e)) (V := fun e => (e + 1) * dim * 2 ≤ bbs.length) (by
        intro lev m
        have h1 : lev % dim < xx.length := by have := hm lev; omega
        unfold ptOnlyLeft
        rw [rd_getD h1, ok_bind]
        refine ⟨_, rfl, fun hb e he hle => decide_eq_false fun hM => ?_⟩
        have hb := of_decide_eq_true hb
        have h2 := (hM _ (hm lev)).1
        have := le_abs_self eps
        linarith) (by
        intro lev m
        have h1 : lev % dim < xx.length := by have := hm lev; omega
        unfold ptOnlyRight
        rw [rd_getD h1, ok_bind]
        refine ⟨_, rfl, fun hb e he hle => decide_eq_false fun hM => ?_⟩
        have hb := of_decide_eq_true hb
        have h2 := (hM _ (hm lev)).2
        have := le_abs_self eps
        linarith) (fun e he => bbPtTest_ok he hx) t e3 (fun e he => hv e (e2.mem_iff.mp he))
    exact ⟨_, e2.filter _, fun out => (this out).1⟩

/-- C77 (finding): the constructor documents that a positive epsilon enlarges the box of the request and returns more elements.  For the
requests by box it is the contrary: the greater epsilon, the fewer elements, and a positive epsilon loses the boxes which touch the
given one.  For the requests by point the documentation holds. -/
theorem C77_epsilon : (∀ (dim : Nat) (bbs : List K) (eps eps' : K) (bb : List K) (e : Nat), eps ≤ eps' → Meets dim bbs eps' bb e → Meets dim bbs eps bb e) ∧
    (∀ (dim : Nat) (bbs : List K) (eps eps' : K) (x : List K) (e : Nat), eps ≤ eps' → Contains dim bbs eps x e → Contains dim bbs eps' x e) ∧
    getIntersectingElems 1 ([0, 10] : List Int) 1 (.leaf [0]) [10, 20] [] = .ok [] ∧
    getIntersectingElems 1 ([0, 10] : List Int) 0 (.leaf [0]) [10, 20] [] = .ok [0] ∧
    getIntersectingElems 1 ([0, 10] : List Int) (-1) (.leaf [0]) [11, 20] [] = .ok [0] := by
  refine ⟨fun dim bbs eps eps' bb e h hm d hd => ?_, fun dim bbs eps eps' bb e h hm d hd => ?_, by decide, by decide, by decide⟩
  · have := hm d hd
    exact ⟨by linarith [this.1], by linarith [this.2]⟩
  · have := hm d hd
    exact ⟨by linarith [this.1], by linarith [this.2]⟩

/-- sixteen boxes of one dimension, `[0, 3], [1, 4], ..., [15, 18]`: the tree has two terminal nodes -/
example : (do
    let t ← bbTree 1 ((List.range 16).flatMap fun i => [(i : Int), i + 3]) none 16 0 1000
    getIntersectingElems 1 ((List.range 16).flatMap fun i => [(i : Int), i + 3]) 0 t [5, 7] []) = .ok [2, 3, 4, 5, 6, 7] := by decide

/-! ## Points -/

/-- coordinate `d` of point `e` -/
def ptC (dim : Nat) (pts : List K) (d e : Nat) : K := pts.getD (e * dim + d) 0

omit [LinearOrder K] [IsStrictOrderedRing K] in
theorem ptAt_ok {dim : Nat} {pts : List K} {d e : Nat} (hd : d < dim) (he : (e + 1) * dim ≤ pts.length) :
    ptAt dim pts d e = .ok (ptC dim pts d e) := by
  have : (e + 1) * dim = e * dim + dim := by ring
  exact rd_getD (by omega)

/-- point `e` is at a distance at most `eps` of `x` along each axis -/
def Near (dim : Nat) (pts : List K) (eps : K) (x : List K) (e : Nat) : Prop := ∀ d, d < dim → |ptC dim pts d e - x.getD d 0| ≤ eps

/-- point `e` is `x` -/
def SamePt (dim : Nat) (pts : List K) (x : List K) (e : Nat) : Prop := ∀ d, d < dim → ptC dim pts d e = x.getD d 0

instance (dim : Nat) (pts : List K) (eps : K) (x : List K) (e : Nat) : Decidable (Near dim pts eps x e) :=
  inferInstanceAs (Decidable (∀ d, d < dim → _))

instance (dim : Nat) (pts : List K) (x : List K) (e : Nat) : Decidable (SamePt dim pts x e) :=
  inferInstanceAs (Decidable (∀ d, d < dim → _))

omit [IsStrictOrderedRing K] in
theorem ptsTest_ok {dim : Nat} {pts xx : List K} {eps : K} {e : Nat} (he : (e + 1) * dim ≤ pts.length) (hx : dim ≤ xx.length) :
    ptsTest dim pts xx eps e = .ok (decide (Near dim pts |eps| xx e)) := by
  unfold ptsTest
  rw [loop_all (P := fun d => decide (|ptC dim pts d e - xx.getD d 0| ≤ |eps|))]
  · congr 1
    rw [Bool.eq_iff_iff, List.all_eq_true, decide_eq_true_iff]
    simp [Near]
  · intro d hd ok
    rw [ptAt_ok hd he, rd_getD (by omega)]
    cases ok <;> simp [ok_bind]

omit [IsStrictOrderedRing K] in
theorem discreteTest_ok {dim : Nat} {pts xx : List K} {e : Nat} (he : (e + 1) * dim ≤ pts.length) (hx : dim ≤ xx.length) :
    discreteTest dim pts xx e = .ok (decide (SamePt dim pts xx e)) := by
  unfold discreteTest
  rw [loop_all (P := fun d => decide (ptC dim pts d e = xx.getD d 0))]
  · congr 1
    rw [Bool.eq_iff_iff, List.all_eq_true, decide_eq_true_iff]
    simp [SamePt]
  · intro d hd ok
    rw [ptAt_ok hd he, rd_getD (by omega), ok_bind, ok_bind]
    by_cases h : ptC dim pts d e = xx.getD d 0 <;> simp [h]

/-- the squared Euclidean distance between point `e` and `x` -/
def dist2 (dim : Nat) (pts : List K) (x : List K) (e : Nat) : K :=
  ((List.range dim).map fun d => (ptC dim pts d e - x.getD d 0) * (ptC dim pts d e - x.getD d 0)).sum

omit [LinearOrder K] [IsStrictOrderedRing K] in
theorem ptsDist2_ok {dim : Nat} {pts xx : List K} {e : Nat} (he : (e + 1) * dim ≤ pts.length) (hx : dim ≤ xx.length) :
    ptsDist2 dim pts xx e = .ok (dist2 dim pts xx e) := by
  have : ∀ n, n ≤ dim → loop n (0 : K) (fun d acc => do
      let p ← ptAt dim pts d e
      let x ← rd xx d
      (.ok (acc + (p - x) * (p - x)) : M K)) = .ok ((List.range n).map fun d => (ptC dim pts d e - xx.getD d 0) * (ptC dim pts d e - xx.getD d 0)).sum := by
    intro n
    induction n with
    | zero => intro _; rfl
    | succ n ih =>
      intro hn
      rw [loop_succ, ih (by omega), ok_bind, ptAt_ok (by omega) he, rd_getD (by omega), ok_bind, ok_bind, List.range_succ, List.map_append,
        List.sum_append]
      simp
  exact this dim (le_refl _)

theorem sq_le_dist2 {dim : Nat} (pts xx : List K) (e : Nat) {d : Nat} (hd : d < dim) :
    (ptC dim pts d e - xx.getD d 0) * (ptC dim pts d e - xx.getD d 0) ≤ dist2 dim pts xx e := by
  unfold dist2
  apply List.single_le_sum
  · intro x hx
    obtain ⟨k, -, rfl⟩ := List.mem_map.mp hx
    exact mul_self_nonneg _
  · exact List.mem_map.mpr ⟨d, List.mem_range.mpr hd, rfl⟩

/-- what `getElementsAroundPoint2` must return: the closest point among the ones under the threshold -/
def IsClosest (dim : Nat) (pts xx : List K) (threshold big : K) (elems : List Nat) (r : K × Option Nat) : Prop :=
  (∀ e ∈ elems, dist2 dim pts xx e < threshold → r.1 ≤ dist2 dim pts xx e ∨ big ≤ dist2 dim pts xx e) ∧
    ((r = (big, none)) ∨ ∃ e ∈ elems, r = (dist2 dim pts xx e, some e) ∧ dist2 dim pts xx e < threshold ∧ dist2 dim pts xx e < big)

omit [IsStrictOrderedRing K] in
theorem closest_leaf {dim : Nat} {pts xx : List K} {threshold big : K} (hx : dim ≤ xx.length) : ∀ (es pre : List Nat) (s : K × Option Nat),
    (∀ e ∈ es, (e + 1) * dim ≤ pts.length) → IsClosest dim pts xx threshold big pre s →
    ∃ s', es.foldlM (fun (s : K × Option Nat) e => do
      let tmp ← ptsDist2 dim pts xx e
      (.ok (if tmp < threshold then (if tmp < s.1 then (tmp, some e) else s) else s) : M (K × Option Nat))) s = .ok s' ∧
        IsClosest dim pts xx threshold big (pre ++ es) s'
  | [], pre, s, _, h => ⟨s, rfl, by simpa using h⟩
  | e :: es, pre, s, hv, h => by
    rw [List.foldlM_cons, ptsDist2_ok (hv e List.mem_cons_self) hx, ok_bind, ok_bind]
    obtain ⟨s', a1, a2⟩ := closest_leaf hx es (pre ++ [e])
      (if dist2 dim pts xx e < threshold then (if dist2 dim pts xx e < s.1 then (dist2 dim pts xx e, some e) else s) else s)
      (fun x hx => hv x (List.mem_cons_of_mem _ hx)) (by
        have hle : s.1 ≤ big := by
          rcases h.2 with h2 | ⟨e', -, h2, -, h3⟩ <;> rw [h2]
          exact h3.le
        by_cases h1 : dist2 dim pts xx e < threshold
        · rw [if_pos h1]
          by_cases h2 : dist2 dim pts xx e < s.1
          · rw [if_pos h2]
            refine ⟨fun e' he' ht => ?_, Or.inr ⟨e, by simp, rfl, h1, lt_of_lt_of_le h2 hle⟩⟩
            rcases List.mem_append.mp he' with h' | h'
            · rcases h.1 e' h' ht with h3 | h3
              · exact Or.inl (le_trans h2.le h3)
              · exact Or.inr h3
            · rw [List.mem_singleton.mp h']; exact Or.inl (le_refl _)
          · rw [if_neg h2]
            refine ⟨fun e' he' ht => ?_, ?_⟩
            · rcases List.mem_append.mp he' with h' | h'
              · exact h.1 e' h' ht
              · rw [List.mem_singleton.mp h']; exact Or.inl (not_lt.mp h2)
            · rcases h.2 with h3 | ⟨e', h3, h4⟩
              · exact Or.inl h3
              · exact Or.inr ⟨e', List.mem_append_left _ h3, h4⟩
        · rw [if_neg h1]
          refine ⟨fun e' he' ht => ?_, ?_⟩
          · rcases List.mem_append.mp he' with h' | h'
            · exact h.1 e' h' ht
            · rw [List.mem_singleton.mp h'] at ht; exact absurd ht h1
          · rcases h.2 with h3 | ⟨e', h3, h4⟩
            · exact Or.inl h3
            · exact Or.inr ⟨e', List.mem_append_left _ h3, h4⟩)
    exact ⟨s', a1, by simpa using a2⟩

/-- the pruning of `getElementsAroundPoint2` is safe -/
theorem closest_prune {dim : Nat} (hd : 0 < dim) {sqrtF : K → K} (hs : ∀ x, 0 ≤ x → 0 ≤ sqrtF x ∧ sqrtF x * sqrtF x = x) {threshold : K} (ht : 0 ≤ threshold)
    {pts xx : List K} {e d : Nat} (hdd : d < dim) (h : sqrtF (threshold * dim) < |ptC dim pts d e - xx.getD d 0|) : threshold ≤ dist2 dim pts xx e := by
  have h1 : (1 : K) ≤ (dim : K) := by exact_mod_cast hd
  have h2 : threshold ≤ threshold * dim := by nlinarith
  obtain ⟨s0, s1⟩ := hs (threshold * dim) (le_trans ht h2)
  have h3 := sq_le_dist2 pts xx e hdd
  rw [← abs_mul_abs_self (ptC dim pts d e - xx.getD d 0)] at h3
  nlinarith

theorem closest_spec {dim : Nat} (hd : 0 < dim) {sqrtF : K → K} (hs : ∀ x, 0 ≤ x → 0 ≤ sqrtF x ∧ sqrtF x * sqrtF x = x) {threshold big pad : K}
    (ht : 0 ≤ threshold) (hp : 0 ≤ pad) {pts xx : List K} (hx : dim ≤ xx.length) : ∀ t : BT K, (∀ e ∈ t.elems, (e + 1) * dim ≤ pts.length) →
    t.Inv (fun level => ptC dim pts (level % dim)) (fun level => ptC dim pts (level % dim)) pad →
    ∃ r, ptsAroundPoint2 dim pts sqrtF big xx threshold t = .ok r ∧ IsClosest dim pts xx threshold big t.elems r
  | .leaf es, hv, _ => closest_leaf hx es [] (big, none) hv ⟨by simp, Or.inl rfl⟩
  | .node lev ml mr l r, hv, hi => by
    obtain ⟨i1, i2, i3, i4⟩ := hi
    have hvl : ∀ e ∈ l.elems, (e + 1) * dim ≤ pts.length := fun e he => hv e (List.mem_append_left _ he)
    have hvr : ∀ e ∈ r.elems, (e + 1) * dim ≤ pts.length := fun e he => hv e (List.mem_append_right _ he)
    obtain ⟨a, ea, ha⟩ := closest_spec hd hs ht hp hx l hvl i3
    obtain ⟨b, eb, hb⟩ := closest_spec hd hs ht hp hx r hvr i4
    have hm : lev % dim < dim := Nat.mod_lt _ hd
    rw [ptsAroundPoint2, rd_getD (by omega), ok_bind]
    have skip : ∀ {es es' : List Nat} {v : K × Option Nat}, IsClosest dim pts xx threshold big es v → (∀ e ∈ es', threshold ≤ dist2 dim pts xx e) →
        (∀ q : List Nat, q = es ++ es' ∨ q = es' ++ es → IsClosest dim pts xx threshold big q v) := by
      intro es es' v h h' q hq
      have hmem : ∀ e, e ∈ q ↔ e ∈ es ∨ e ∈ es' := by
        rcases hq with rfl | rfl
        · intro e; rw [List.mem_append]
        · intro e; rw [List.mem_append, or_comm]
      refine ⟨fun e he hte => ?_, ?_⟩
      · rcases (hmem e).mp he with h1 | h1
        · exact h.1 e h1 hte
        · exact absurd hte (not_lt.mpr (h' e h1))
      · rcases h.2 with h3 | ⟨e', h3, h4⟩
        · exact Or.inl h3
        · exact Or.inr ⟨e', (hmem e').mpr (Or.inl h3), h4⟩
    by_cases c1 : xx.getD (lev % dim) 0 + sqrtF (threshold * dim) < mr
    · rw [if_pos c1]
      refine ⟨a, ea, skip ha (es' := r.elems) (fun e he => ?_) _ (Or.inl rfl)⟩
      refine closest_prune hd hs ht hm ?_
      have := i2 e he
      exact lt_of_lt_of_le (by linarith) (le_abs_self _)
    · rw [if_neg c1]
      by_cases c2 : xx.getD (lev % dim) 0 - sqrtF (threshold * dim) > ml
      · rw [if_pos c2]
        refine ⟨b, eb, skip hb (es' := l.elems) (fun e he => ?_) _ (Or.inr rfl)⟩
        refine closest_prune hd hs ht hm ?_
        have := i1 e he
        exact lt_of_lt_of_le (by linarith) (neg_le_abs _)
      · rw [if_neg c2, ea, eb, ok_bind, ok_bind]
        refine ⟨_, rfl, ?_⟩
        have hle : ∀ {es : List Nat} {v : K × Option Nat}, IsClosest dim pts xx threshold big es v → v.1 ≤ big := by
          intro es v h
          rcases h.2 with h2 | ⟨e', -, h2, -, h3⟩ <;> rw [h2]
          exact h3.le
        by_cases c3 : a.1 < b.1
        · rw [if_pos c3]
          refine ⟨fun e he hte => ?_, ?_⟩
          · rcases List.mem_append.mp he with h1 | h1
            · exact ha.1 e h1 hte
            · rcases hb.1 e h1 hte with h2 | h2
              · exact Or.inl (le_trans c3.le h2)
              · exact Or.inr h2
          · rcases ha.2 with h3 | ⟨e', h3, h4⟩
            · exact Or.inl h3
            · exact Or.inr ⟨e', List.mem_append_left _ h3, h4⟩
        · rw [if_neg c3]
          refine ⟨fun e he hte => ?_, ?_⟩
          · rcases List.mem_append.mp he with h1 | h1
            · rcases ha.1 e h1 hte with h2 | h2
              · exact Or.inl (le_trans (not_lt.mp c3) h2)
              · exact Or.inr h2
            · exact hb.1 e h1 hte
          · rcases hb.2 with h3 | ⟨e', h3, h4⟩
            · exact Or.inl h3
            · exact Or.inr ⟨e', List.mem_append_right _ h3, h4⟩

/-- C77: the tree of points is built without error and holds each point once; it returns exactly the points within epsilon of the given
one along each axis, and the closest of the points whose squared distance is under the threshold. -/
theorem C77_points {dim : Nat} (hd : 0 < dim) {pts : List K} (elems : Option (List Nat)) (nb : Nat) (eps big : K)
    (hv : ∀ e ∈ btElems elems nb, (e + 1) * dim ≤ pts.length) {sqrtF : K → K} (hs : ∀ x, 0 ≤ x → 0 ≤ sqrtF x ∧ sqrtF x * sqrtF x = x) :
    ∃ t, bbTreePts dim pts elems nb eps big = .ok t ∧ t.size = (btElems elems nb).length ∧
      (∀ xx : List K, dim ≤ xx.length → ∃ found : List Nat, found.Perm ((btElems elems nb).filter fun e => decide (Near dim pts |eps| xx e)) ∧
        ∀ out, ptsAroundPoint dim pts eps t xx out = .ok (out ++ found)) ∧
      (∀ (xx : List K) (threshold : K), dim ≤ xx.length → 0 ≤ threshold →
        ∃ r, ptsAroundPoint2 dim pts sqrtF big xx threshold t = .ok r ∧ IsClosest dim pts xx threshold big (btElems elems nb) r) := by
  have hm : ∀ lev, lev % dim < dim := fun lev => Nat.mod_lt _ hd
  obtain ⟨t, e1, e2, e3⟩ := btBuild_spec (lo := fun level => ptAt dim pts (level % dim)) (hi := fun level => ptAt dim pts (level % dim))
    (lo' := fun level => ptC dim pts (level % dim)) (hi' := fun level => ptC dim pts (level % dim)) (right := fun v m => decide (v > m))
    (pad := |eps|) (big := big) 22 0 (btElems elems nb) (by omega) (fun lev e he => ⟨ptAt_ok (hm lev) (hv e he), ptAt_ok (hm lev) (hv e he)⟩) (by omega)
  refine ⟨t, e1, ?_, fun xx hx => ?_, fun xx th hx ht => ?_⟩
  · rw [BT.size_elems, e2.length_eq]
  · have := btCollect_spec (lo := fun level => ptC dim pts (level % dim)) (hi := fun level => ptC dim pts (level % dim)) (pad := |eps|)
      (onlyLeft := ptOnlyLeft dim xx) (onlyRight := ptOnlyRight dim xx) (test := ptsTest dim pts xx eps)
      (P := fun e => decide (Near dim pts |eps| xx e)) (V := fun e => (e + 1) * dim ≤ pts.length) (by
        intro lev m
        have h1 : lev % dim < xx.length := by have := hm lev; omega
        unfold ptOnlyLeft
        rw [rd_getD h1, ok_bind]
        refine ⟨_, rfl, fun hb e he hle => decide_eq_false fun hM => ?_⟩
        have hb := of_decide_eq_true hb
        have h2 := (abs_le.mp (hM _ (hm lev))).2
        linarith) (by
        intro lev m
        have h1 : lev % dim < xx.length := by have := hm lev; omega
        unfold ptOnlyRight
        rw [rd_getD h1, ok_bind]
        refine ⟨_, rfl, fun hb e he hle => decide_eq_false fun hM => ?_⟩
        have hb := of_decide_eq_true hb
        have h2 := (abs_le.mp (hM _ (hm lev))).1
        linarith) (fun e he => ptsTest_ok he hx) t e3 (fun e he => hv e (e2.mem_iff.mp he))
    exact ⟨_, e2.filter _, fun out => (this out).1⟩
  · obtain ⟨r, r1, r2, r3⟩ := closest_spec hd hs (big := big) ht (abs_nonneg eps) hx t (fun e he => hv e (e2.mem_iff.mp he)) e3
    refine ⟨r, r1, fun e he => r2 e (e2.mem_iff.mpr he), ?_⟩
    rcases r3 with h | ⟨e, h1, h2⟩
    · exact Or.inl h
    · exact Or.inr ⟨e, e2.mem_iff.mp h1, h2⟩

/-- the real square root meets the hypothesis made on the parameter `sqrtF` -/
example : ∀ x : ℝ, 0 ≤ x → 0 ≤ Real.sqrt x ∧ Real.sqrt x * Real.sqrt x = x := fun x hx => ⟨Real.sqrt_nonneg x, Real.mul_self_sqrt hx⟩

/-- C77: the discrete tree returns exactly the elements equal to the given one. -/
theorem C77_discrete {dim : Nat} (hd : 0 < dim) {bbs : List K} (elems : Option (List Nat)) (nb : Nat) (big : K)
    (hv : ∀ e ∈ btElems elems nb, (e + 1) * dim ≤ bbs.length) :
    ∃ t, bbTreeDiscrete dim bbs elems nb big = .ok t ∧ t.size = (btElems elems nb).length ∧
      ∀ bb : List K, dim ≤ bb.length → ∃ found : List Nat, found.Perm ((btElems elems nb).filter fun e => decide (SamePt dim bbs bb e)) ∧
        ∀ out, discreteElems dim bbs t bb out = .ok (out ++ found) := by
  have hm : ∀ lev, lev % dim < dim := fun lev => Nat.mod_lt _ hd
  obtain ⟨t, e1, e2, e3⟩ := btBuild_spec (lo := fun level => ptAt dim bbs (level % dim)) (hi := fun level => ptAt dim bbs (level % dim))
    (lo' := fun level => ptC dim bbs (level % dim)) (hi' := fun level => ptC dim bbs (level % dim)) (right := fun v m => decide (v ≥ m))
    (pad := 0) (big := big) 22 0 (btElems elems nb) (by omega) (fun lev e he => ⟨ptAt_ok (hm lev) (hv e he), ptAt_ok (hm lev) (hv e he)⟩) (by omega)
  refine ⟨t, e1, ?_, fun xx hx => ?_⟩
  · rw [BT.size_elems, e2.length_eq]
  · have := btCollect_spec (lo := fun level => ptC dim bbs (level % dim)) (hi := fun level => ptC dim bbs (level % dim)) (pad := 0)
      (onlyLeft := ptOnlyLeft dim xx) (onlyRight := ptOnlyRight dim xx) (test := discreteTest dim bbs xx)
      (P := fun e => decide (SamePt dim bbs xx e)) (V := fun e => (e + 1) * dim ≤ bbs.length) (by
        intro lev m
        have h1 : lev % dim < xx.length := by have := hm lev; omega
        unfold ptOnlyLeft
        rw [rd_getD h1, ok_bind]
        refine ⟨_, rfl, fun hb e he hle => decide_eq_false fun hM => ?_⟩
        have hb := of_decide_eq_true hb
        have h2 := hM _ (hm lev)
        linarith) (by
        intro lev m
        have h1 : lev % dim < xx.length := by have := hm lev; omega
        unfold ptOnlyRight
        rw [rd_getD h1, ok_bind]
        refine ⟨_, rfl, fun hb e he hle => decide_eq_false fun hM => ?_⟩
        have hb := of_decide_eq_true hb
        have h2 := hM _ (hm lev)
        linarith) (fun e he => discreteTest_ok he hx) t e3 (fun e he => hv e (e2.mem_iff.mp he))
    exact ⟨_, e2.filter _, fun out => (this out).1⟩

example : (do
    let t ← bbTreeDiscrete 1 ((List.range 20).map fun i => ((i * 7 % 5 : Nat) : Int)) none 20 1000
    discreteElems 1 ((List.range 20).map fun i => ((i * 7 % 5 : Nat) : Int)) t [3] []) = .ok [4, 9, 14, 19] := by decide

end
end MC
