import Verif.StructDec
import Verif.BlockTopoThm

/-!
# Lemmas on `StructuredCoincidentDEC`

The buffers are pieces put end to end: one piece per processor, with its elements in the order of their global numbers.
-/

namespace MC
variable {V : Type}

theorem loop_congr_dec {σ : Type} {n : Nat} {s : σ} {f g : Nat → σ → M σ} (h : ∀ i < n, ∀ s, f i s = g i s) : loop n s f = loop n s g := by
  induction n with
  | zero => rfl
  | succ n ih =>
    unfold loop
    rw [ih fun i hi => h i (by omega)]
    congr 1
    funext s
    exact h n (by omega) s

theorem vset_ok {α : Type} {l : List α} {i : Nat} (h : i < l.length) (x : α) : vset l i x = .ok (l.set i x) := if_pos h

/-! ## Buckets -/

/-- the numbers below `n` of bkt `j` -/
def bkt (b : Nat → Nat) (n j : Nat) : List Nat := (List.range n).filter fun i => b i = j

theorem bucket_succ (b : Nat → Nat) (n j : Nat) : bkt b (n + 1) j = bkt b n j ++ if b n = j then [n] else [] := by
  unfold bkt
  rw [List.range_succ, List.filter_append]
  congr 1
  by_cases h : b n = j <;> simp [h]

theorem bucket_length_le (b : Nat → Nat) {i n : Nat} (h : i ≤ n) (j : Nat) : (bkt b i j).length ≤ (bkt b n j).length := by
  induction n with
  | zero => have : i = 0 := by omega
            subst this; exact le_rfl
  | succ n ih =>
    rcases Nat.lt_or_ge i (n + 1) with hi | hi
    · rw [bucket_succ, List.length_append]; have := ih (by omega); omega
    · have : i = n + 1 := by omega
      subst this; exact le_rfl

theorem bucket_length_lt (b : Nat → Nat) {i n : Nat} (h : i < n) : (bkt b i (b i)).length < (bkt b n (b i)).length := by
  have h1 := bucket_length_le b (show i + 1 ≤ n from h) (b i)
  rw [bucket_succ, if_pos rfl, List.length_append] at h1
  simpa using h1

theorem bucket_get (b : Nat → Nat) {i n : Nat} (h : i < n) : (bkt b n (b i))[(bkt b i (b i)).length]? = some i := by
  induction n with
  | zero => omega
  | succ n ih =>
    rw [bucket_succ]
    rcases Nat.lt_or_ge i n with hi | hi
    · rw [List.getElem?_append_left (bucket_length_lt b hi)]
      exact ih hi
    · have : i = n := by omega
      subst this
      simp

/-- the counters when the first `i` of `n` numbers have been seen -/
def counterAt (b : Nat → Nat) (n K i : Nat) : List Nat :=
  (List.range K).map fun j => (cat j (bkt b n)).length + (bkt b i j).length

theorem counterAt_get (b : Nat → Nat) (n : Nat) {K i j : Nat} (h : j < K) :
    (counterAt b n K i)[j]? = some ((cat j (bkt b n)).length + (bkt b i j).length) := by
  unfold counterAt
  rw [List.getElem?_map, List.getElem?_range h]; rfl

theorem counterAt_set (b : Nat → Nat) (n : Nat) {K i : Nat} (h : b i < K) :
    (counterAt b n K i).set (b i) ((cat (b i) (bkt b n)).length + (bkt b i (b i)).length + 1) = counterAt b n K (i + 1) := by
  apply List.ext_getElem?
  intro k
  by_cases hk : k < K
  · rw [counterAt_get b n hk]
    by_cases hbk : b i = k
    · subst hbk
      rw [List.getElem?_set_self (by simpa [counterAt] using h), bucket_succ]
      simp; omega
    · rw [List.getElem?_set_ne hbk, counterAt_get b n hk, bucket_succ, if_neg hbk]; simp
  · rw [List.getElem?_eq_none (by simp [counterAt]; omega), List.getElem?_eq_none (by simp [counterAt]; omega)]

/-- cells of a buffer filled bkt by bkt, after the first `i` of `n` numbers -/
def fillAt (b : Nat → Nat) (cell : Nat → Option V) (n i j : Nat) : List (Option V) :=
  (bkt b i j).map cell ++ List.replicate ((bkt b n j).length - (bkt b i j).length) none

theorem fillAt_length (b : Nat → Nat) (cell : Nat → Option V) {n i : Nat} (h : i ≤ n) (j : Nat) : (fillAt b cell n i j).length = (bkt b n j).length := by
  have := bucket_length_le b h j
  simp [fillAt]; omega

theorem cat_fill_length (b : Nat → Nat) (cell : Nat → Option V) {n i : Nat} (h : i ≤ n) (k : Nat) :
    (cat k (fillAt b cell n i)).length = (cat k (bkt b n)).length := by
  rw [cat_length, cat_length]
  congr 1
  apply List.map_congr_left
  intro j _
  exact fillAt_length b cell h j

theorem bucketFill {n K : Nat} (b : Nat → Nat) (hb : ∀ i < n, b i < K) (value : List V) (hv : value.length = n) (hlen : (cat K (bkt b n)).length = n) :
    loop n (List.replicate n (none : Option V), counterAt b n K 0) (fun i (buf, cnt) => do
      let c ← vget cnt (b i)
      let v ← vget value i
      let buf ← vset buf c (some v)
      let cnt ← vset cnt (b i) (c + 1)
      return (buf, cnt)) = .ok (cat K fun j => (bkt b n j).map fun i => value[i]?, counterAt b n K n) := by
  have key : ∀ i, i ≤ n → loop i (List.replicate n (none : Option V), counterAt b n K 0) (fun i (buf, cnt) => do
      let c ← vget cnt (b i)
      let v ← vget value i
      let buf ← vset buf c (some v)
      let cnt ← vset cnt (b i) (c + 1)
      return (buf, cnt)) = .ok (cat K (fillAt b (fun i => value[i]?) n i), counterAt b n K i) := by
    intro i
    induction i with
    | zero =>
      intro _
      simp only [loop]
      congr 2
      have : cat K (fillAt b (fun i => value[i]?) n 0) = cat K fun j => (bkt b n j).map fun _ => (none : Option V) := by
        apply cat_congr
        intro j _
        simp [fillAt, bkt]
      rw [this, ← cat_map, List.map_const', hlen]
    | succ i ih =>
      intro hi
      unfold loop
      rw [ih (by omega), ok_bind]
      have hbi := hb i (by omega)
      have hvi : value[i]? = some value[i] := List.getElem?_eq_getElem (by omega)
      have hlt := bucket_length_lt b (show i < n by omega)
      simp only [vget_ok (counterAt_get b n hbi), vget_ok hvi, ok_bind]
      have hpos : (cat (b i) (bkt b n)).length + (bkt b i (b i)).length < (cat K (fillAt b (fun i => value[i]?) n i)).length := by
        rw [cat_fill_length b _ (by omega)]
        have := cat_length_mono (bkt b n) hbi
        omega
      rw [vset_ok hpos, ok_bind, vset_ok (by simpa [counterAt] using hbi), ok_bind, counterAt_set b n hbi]
      show Except.ok _ = _
      congr 2
      rw [← cat_fill_length b (fun i => value[i]?) (show i ≤ n by omega) (b i),
        cat_set _ hbi (by rw [fillAt_length b _ (by omega)]; exact hlt)]
      apply cat_congr
      intro j _
      by_cases hj : j = b i
      · subst hj
        rw [if_pos rfl]
        unfold fillAt
        rw [List.set_append_right _ _ (by simp)]
        have hk : (bkt b n (b i)).length - (bkt b i (b i)).length = ((bkt b n (b i)).length - (bkt b (i + 1) (b i)).length) + 1 := by
          rw [bucket_succ, if_pos rfl, List.length_append]; simp; omega
        rw [hk, bucket_succ, if_pos rfl]
        simp [List.replicate_succ, hvi]
      · rw [if_neg hj]
        unfold fillAt
        rw [bucket_succ, if_neg fun h => hj h.symm]
        simp
  rw [key n le_rfl]
  congr 2
  apply cat_congr
  intro j _
  simp [fillAt]

theorem bucketRead {n K : Nat} (b : Nat → Nat) (hb : ∀ i < n, b i < K) (cell : Nat → Option V) (hc : ∀ i < n, ∃ v, cell i = some v) (old : List V)
    (ho : old.length = n) : ∃ res,
    loop n (old, counterAt b n K 0) (fun i (value, cnt) => do
      let c ← vget cnt (b i)
      let x ← known (← vget (cat K fun j => (bkt b n j).map cell) c)
      let cnt ← vset cnt (b i) (c + 1)
      let value ← vset value i x
      return (value, cnt)) = .ok (res, counterAt b n K n) ∧ res.map some = (List.range n).map cell := by
  have key : ∀ i, i ≤ n → ∃ res, loop i (old, counterAt b n K 0) (fun i (value, cnt) => do
      let c ← vget cnt (b i)
      let x ← known (← vget (cat K fun j => (bkt b n j).map cell) c)
      let cnt ← vset cnt (b i) (c + 1)
      let value ← vset value i x
      return (value, cnt)) = .ok (res, counterAt b n K i) ∧ res.map some = (List.range i).map cell ++ (old.drop i).map some := by
    intro i
    induction i with
    | zero => intro _; exact ⟨old, by simp [loop], by simp⟩
    | succ i ih =>
      intro hi
      obtain ⟨res, h1, h2⟩ := ih (by omega)
      obtain ⟨v, hv⟩ := hc i (by omega)
      have hbi := hb i (by omega)
      have hlt := bucket_length_lt b (show i < n by omega)
      have hlen : res.length = n := by
        have := congrArg List.length h2
        simp at this; omega
      refine ⟨res.set i v, ?_, ?_⟩
      · unfold loop
        rw [h1, ok_bind]
        have hg : (cat K fun j => (bkt b n j).map cell)[(cat (b i) (bkt b n)).length + (bkt b i (b i)).length]? = some (some v) := by
          have := cat_get (K := K) (fun j => (bkt b n j).map cell) hbi (k := (bkt b i (b i)).length) (by simpa using hlt)
          simp only [← cat_map, List.length_map] at this ⊢
          rw [this, List.getElem?_map, bucket_get b (by omega)]; simp [hv]
        simp only [vget_ok (counterAt_get b n hbi), vget_ok hg, ok_bind, known]
        rw [vset_ok (by simpa [counterAt] using hbi), ok_bind, vset_ok (by omega), ok_bind, counterAt_set b n hbi]
        rfl
      · rw [List.map_set, h2, List.set_append_right _ _ (by simp), List.range_succ]
        rw [List.drop_eq_getElem_cons (show i < old.length by omega), List.map_cons, List.length_map, List.length_range, Nat.sub_self,
          List.set_cons_zero, List.map_append, List.append_assoc, List.map_singleton, hv]
        rfl
  obtain ⟨res, h1, h2⟩ := key n le_rfl
  refine ⟨res, h1, ?_⟩
  rw [h2, List.drop_of_length_le (by omega)]
  simp

/-! ## Where the elements are -/

/-- The elements of processor `p`, in the order of their numbers. -/
def ownList (owner : Nat → Nat) (nb p : Nat) : List Nat := (List.range nb).filter fun g => owner g = p

/-- `owner g` is the processor of element `g` -/
structure Owns (t : BTopo) (owner : Nat → Nat) : Prop where
  lt : ∀ g < t.nbElems, owner g < t.group.length
  nbl : ∀ p < t.group.length, t.nbLocal p = .ok (ownList owner t.nbElems p).length
  ltg : ∀ p < t.group.length, ∀ l g, (ownList owner t.nbElems p)[l]? = some g → t.localToGlobal p p l = .ok g
  gtl : ∀ g < t.nbElems, ∃ l, t.globalToLocal g = .ok (owner g, l) ∧ (ownList owner t.nbElems (owner g))[l]? = some g

theorem ownList_sorted (owner : Nat → Nat) (nb p : Nat) : (ownList owner nb p).Pairwise (· < ·) := List.pairwise_lt_range.filter _

theorem mem_ownList {owner : Nat → Nat} {nb p g : Nat} : g ∈ ownList owner nb p ↔ g < nb ∧ owner g = p := by
  simp [ownList]

theorem Built.owns {t : BTopo} (h : Built t) : ∃ owner, Owns t owner := by
  obtain ⟨cnt, h1, _, h3, h4, h5⟩ := C85_inverse h
  let owner : Nat → Nat := fun g => match t.globalToLocal g with
    | .ok (p, _) => p
    | .error _ => 0
  have hown : ∀ g p l, t.globalToLocal g = .ok (p, l) → owner g = p := by
    intro g p l hg; simp only [owner, hg]
  have hlist : ∀ p < t.group.length, ∃ f : Nat → Nat, (∀ l < cnt p, t.localToGlobal p p l = .ok (f l) ∧ t.globalToLocal (f l) = .ok (p, l)) ∧
      (List.range (cnt p)).map f = ownList owner t.nbElems p := by
    intro p hp
    have := h4 p hp
    choose! f hf using this
    refine ⟨f, fun l hl => ⟨(hf l hl).2.1, (hf l hl).2.2⟩, ?_⟩
    refine StrictSorted.ext ?_ (ownList_sorted _ _ _) ?_
    · rw [StrictSorted, List.pairwise_map]
      rw [List.pairwise_iff_getElem]
      intro i j hi hj hij
      simp only [List.length_range] at hi hj
      simp only [List.getElem_range]
      exact h5 p hp i j _ _ hij hj (hf i hi).2.1 (hf j hj).2.1
    · intro g
      rw [mem_ownList, List.mem_map]
      constructor
      · rintro ⟨l, hl, rfl⟩
        rw [List.mem_range] at hl
        exact ⟨(hf l hl).1, hown _ _ _ (hf l hl).2.2⟩
      · rintro ⟨hg, ho⟩
        obtain ⟨p', l, hp', hl, hgl, hlg⟩ := h3 g hg
        have := hown _ _ _ hgl
        rw [ho] at this
        subst this
        refine ⟨l, List.mem_range.2 hl, ?_⟩
        have := (hf l hl).2.1
        rw [hlg] at this
        cases this; rfl
  refine ⟨owner, ?_, ?_, ?_, ?_⟩
  · intro g hg
    obtain ⟨p, l, hp, hl, hgl, _⟩ := h3 g hg
    rw [hown _ _ _ hgl]; exact hp
  · intro p hp
    obtain ⟨f, _, hf2⟩ := hlist p hp
    rw [h1 p hp, ← hf2]; simp
  · intro p hp l g hg
    obtain ⟨f, hf1, hf2⟩ := hlist p hp
    rw [← hf2, List.getElem?_map] at hg
    obtain ⟨l', hl', rfl⟩ := Option.map_eq_some_iff.1 hg
    obtain ⟨hl, rfl⟩ := List.getElem?_eq_some_iff.1 hl'
    simp only [List.length_range] at hl
    simp only [List.getElem_range]
    exact (hf1 l hl).1
  · intro g hg
    obtain ⟨p, l, hp, hl, hgl, hlg⟩ := h3 g hg
    rw [hown _ _ _ hgl]
    refine ⟨l, hgl, ?_⟩
    obtain ⟨f, hf1, hf2⟩ := hlist p hp
    rw [← hf2, List.getElem?_map, List.getElem?_range hl]
    have := (hf1 l hl).1
    rw [hlg] at this
    cases this; rfl

/-! ## Ranks in a group and in the world -/

/-- A group of a world of `W` processors, in the order of the world ranks. -/
structure GroupIn (W : Nat) (g : List Nat) : Prop where
  sorted : g.Pairwise (· < ·)
  lt : ∀ w ∈ g, w < W

theorem GroupIn.inj {W : Nat} {g : List Nat} (h : GroupIn W g) {i j w : Nat} (hi : g[i]? = some w) (hj : g[j]? = some w) : i = j := by
  obtain ⟨hi1, hi2⟩ := List.getElem?_eq_some_iff.1 hi
  obtain ⟨hj1, hj2⟩ := List.getElem?_eq_some_iff.1 hj
  have hn : g.Nodup := StrictSorted.nodup h.sorted
  exact (List.Nodup.getElem_inj_iff hn).1 (hi2.trans hj2.symm)

theorem GroupIn.filter {W : Nat} {g : List Nat} (h : GroupIn W g) : (List.range W).filter (fun w => w ∈ g) = g := by
  refine StrictSorted.ext (List.pairwise_lt_range.filter _) h.sorted ?_
  intro x
  simp only [List.mem_filter, List.mem_range, decide_eq_true_eq]
  exact ⟨fun hx => hx.2, fun hx => ⟨h.lt x hx, hx⟩⟩

theorem flatten_filter {β : Type} (l : List Nat) (P : Nat → Bool) (X : Nat → List β) (h : ∀ w ∈ l, P w = false → X w = []) :
    ((l.filter P).map X).flatten = (l.map X).flatten := by
  induction l with
  | nil => rfl
  | cons a l ih =>
    have ih' := ih fun w hw => h w (by simp [hw])
    rw [List.filter_cons]
    cases hP : P a with
    | true => simp [ih']
    | false => simp [ih', h a (by simp) hP]

/-- pieces in the order of a group or in the order of the world -/
theorem GroupIn.cat {β : Type} {W : Nat} {g : List Nat} (h : GroupIn W g) (X : Nat → List β) (hX : ∀ w, w ∉ g → X w = []) :
    MC.cat g.length (fun j => X (g.getD j 0)) = MC.cat W X := by
  have h1 : (List.range g.length).map (fun j => X (g.getD j 0)) = g.map X := by
    apply List.ext_getElem
    · simp
    · intro n h1 h2
      have hn : n < g.length := by simpa using h2
      simp [List.getD, List.getElem?_eq_getElem hn]
  unfold MC.cat
  rw [h1]
  have h2 := flatten_filter (List.range W) (fun w => decide (w ∈ g)) X (fun w _ hw => hX w (by simpa using hw))
  rw [h.filter] at h2
  exact h2

/-! ## Preparing the buffers -/

/-- the `i`-th element of a processor is with processor `b i` in the other topology -/
def otherOf (owner' : Nat → Nat) (L : List Nat) (i : Nat) : Nat := owner' (L.getD i 0)

theorem bucket_map_get (owner' : Nat → Nat) (L : List Nat) (j : Nat) :
    (bkt (otherOf owner' L) L.length j).map (fun i => L.getD i 0) = L.filter fun g => owner' g = j := by
  have hL : (List.range L.length).map (fun i => L.getD i 0) = L := by
    apply List.ext_getElem
    · simp
    · intro n h1 h2
      simp [List.getD, List.getElem?_eq_getElem h2]
  conv_rhs => rw [← hL]
  rw [List.filter_map]
  rfl

theorem otherSide_ok {t u : BTopo} {o o' : Nat → Nat} (ht : Owns t o) (hu : Owns u o') (hnb : t.nbElems = u.nbElems) {p : Nat} (hp : p < t.group.length) :
    ∃ arrs, otherSide t u p = .ok ((ownList o t.nbElems p).length, arrs) ∧ arrs.length = u.group.length ∧
      ∀ j < u.group.length, ∃ a, arrs[j]? = some a ∧ a.length = (bkt (otherOf o' (ownList o t.nbElems p)) (ownList o t.nbElems p).length j).length := by
  set L := ownList o t.nbElems p with hL
  have key : ∀ i, i ≤ L.length → ∃ arrs, loop i (List.replicate u.group.length ([] : List Nat)) (fun i arrs => do
      let g ← t.localToGlobal p p i
      let (p, l) ← u.globalToLocal g
      pushAt arrs p l) = .ok arrs ∧ arrs.length = u.group.length ∧
      ∀ j < u.group.length, ∃ a, arrs[j]? = some a ∧ a.length = (bkt (otherOf o' L) i j).length := by
    intro i
    induction i with
    | zero =>
      intro _
      refine ⟨_, rfl, by simp, ?_⟩
      intro j hj
      exact ⟨[], by simp [hj], by simp [bkt]⟩
    | succ i ih =>
      intro hi
      obtain ⟨arrs, h1, h2, h3⟩ := ih (by omega)
      have hLi : L[i]? = some L[i] := List.getElem?_eq_getElem (by omega)
      have hg : L[i] < t.nbElems := (mem_ownList.1 (List.getElem_mem (show i < L.length by omega))).1
      obtain ⟨l, hl, _⟩ := hu.gtl L[i] (by omega)
      have ho' := hu.lt L[i] (by omega)
      obtain ⟨a, ha1, ha2⟩ := h3 _ ho'
      have hoth : otherOf o' L i = o' L[i] := by simp [otherOf, List.getD, hLi]
      refine ⟨arrs.set (o' L[i]) (a ++ [l]), ?_, by simpa using h2, ?_⟩
      · unfold loop
        rw [h1, ok_bind]
        beta_reduce
        rw [ht.ltg p hp i _ hLi, ok_bind, hl, ok_bind]
        simp only [pushAt, vget_ok ha1, ok_bind]
        rfl
      · intro j hj
        rw [bucket_succ, hoth]
        by_cases hjo : o' L[i] = j
        · subst hjo
          refine ⟨a ++ [l], by rw [List.getElem?_set_self (by omega)], by simp [ha2]⟩
        · obtain ⟨a', h4, h5⟩ := h3 j hj
          refine ⟨a', by rw [List.getElem?_set_ne hjo]; exact h4, by simp [hjo, h5]⟩
  obtain ⟨arrs, h1, h2, h3⟩ := key L.length le_rfl
  refine ⟨arrs, ?_, h2, h3⟩
  unfold otherSide
  rw [ht.nbl p hp, ok_bind, ← hL, h1, ok_bind]
  rfl

theorem worldCounts_ok {W : Nat} {g : List Nat} (hg : GroupIn W g) {arrs : List (List Nat)} (c : Nat → Nat) (hc : ∀ w, w ∉ g → c w = 0)
    (ha : ∀ j w : Nat, g[j]? = some w → ∃ a, arrs[j]? = some a ∧ a.length = c w) : worldCounts W g arrs = .ok ((List.range W).map c) := by
  have key : ∀ i, i ≤ g.length → loop i (List.replicate W 0) (fun i cnt => do
      let w ← vget g i
      let a ← vget arrs i
      vset cnt w a.length) = .ok ((List.range W).map fun w => if w ∈ g.take i then c w else 0) := by
    intro i
    induction i with
    | zero => intro _; simp [loop]
    | succ i ih =>
      intro hi
      unfold loop
      have hgi : g[i]? = some g[i] := List.getElem?_eq_getElem (by omega)
      obtain ⟨a, h1, h2⟩ := ha i _ hgi
      have hlt := hg.lt g[i] (List.getElem_mem _)
      rw [ih (by omega), ok_bind]
      simp only [vget_ok hgi, vget_ok h1, ok_bind]
      rw [vset_ok (by simpa using hlt)]
      have hmem : ∀ w, w ∈ g.take (i + 1) ↔ w ∈ g.take i ∨ w = g[i] := by
        intro w
        rw [List.take_add_one, hgi, List.mem_append]
        simp only [Option.toList_some, List.mem_singleton]
      congr 1
      apply List.ext_getElem?
      intro w
      by_cases hw : w < W
      · rw [List.getElem?_map, List.getElem?_range hw]
        simp only [Option.map_some]
        by_cases hwi : g[i] = w
        · rw [← hwi, List.getElem?_set_self (by simpa using hlt), if_pos ((hmem _).2 (Or.inr rfl)), h2]
        · rw [List.getElem?_set_ne hwi, List.getElem?_map, List.getElem?_range hw]
          simp only [hmem, Ne.symm hwi, or_false, Option.map_some]
      · rw [List.getElem?_eq_none (by simp; omega), List.getElem?_eq_none (by simp; omega)]
  unfold worldCounts
  rw [key _ le_rfl, List.take_length]
  congr 1
  apply List.map_congr_left
  intro w _
  split
  · rfl
  · rw [hc w ‹_›]

/-- partial sums -/
def psum (c : Nat → Nat) (n : Nat) : Nat := ((List.range n).map c).sum

theorem psum_succ (c : Nat → Nat) (n : Nat) : psum c (n + 1) = psum c n + c n := by
  simp [psum, List.range_succ]

theorem worldDispls_ok {W : Nat} (hW : 0 < W) (c : Nat → Nat) : worldDispls W ((List.range W).map c) = .ok ((List.range W).map (psum c)) := by
  have key : ∀ k, k < W → loop k [0] (fun k ds => do
      let i := k + 1
      let p ← vget ds (i - 1)
      let x ← vget ((List.range W).map c) (i - 1)
      return ds ++ [p + x]) = (.ok ((List.range (k + 1)).map (psum c)) : M (List Nat)) := by
    intro k
    induction k with
    | zero => intro _; simp [loop, psum]
    | succ k ih =>
      intro hk
      unfold loop
      have h1 : vget ((List.range (k + 1)).map (psum c)) (k + 1 - 1) = .ok (psum c k) := by apply vget_ok; simp
      have h2 : vget ((List.range W).map c) (k + 1 - 1) = .ok (c k) := by
        apply vget_ok
        rw [Nat.add_sub_cancel, List.getElem?_map, List.getElem?_range (by omega)]; rfl
      rw [ih (by omega), ok_bind]
      simp only [h1, h2, ok_bind]
      show Except.ok _ = _
      rw [List.range_succ (n := k + 1), List.map_append, List.map_singleton, psum_succ]
  have := key (W - 1) (by omega)
  rw [Nat.sub_add_cancel hW] at this
  exact this

theorem startCounters_ok {K : Nat} (hK : 0 < K) {arrs : List (List Nat)} (hl : arrs.length = K) (c : Nat → Nat)
    (ha : ∀ j < K, ∃ a, arrs[j]? = some a ∧ a.length = c j) : startCounters arrs = .ok ((List.range K).map (psum c)) := by
  have key : ∀ k, k < K → loop k [0] (fun k cs => do
      let i := k + 1
      let p ← vget cs (i - 1)
      let a ← vget arrs (i - 1)
      return cs ++ [p + a.length]) = (.ok ((List.range (k + 1)).map (psum c)) : M (List Nat)) := by
    intro k
    induction k with
    | zero => intro _; simp [loop, psum]
    | succ k ih =>
      intro hk
      unfold loop
      obtain ⟨a, h3, h4⟩ := ha k (by omega)
      have h1 : vget ((List.range (k + 1)).map (psum c)) (k + 1 - 1) = .ok (psum c k) := by apply vget_ok; simp
      have h2 : vget arrs (k + 1 - 1) = .ok a := vget_ok h3
      rw [ih (by omega), ok_bind]
      simp only [h1, h2, ok_bind, h4]
      show Except.ok _ = _
      rw [List.range_succ (n := k + 1), List.map_append, List.map_singleton, psum_succ]
  have := key (K - 1) (by omega)
  rw [Nat.sub_add_cancel hK] at this
  unfold startCounters
  rw [hl]; exact this

theorem recvCounters_ok {W : Nat} {g : List Nat} (hg : GroupIn W g) (hne : 0 < g.length) (c : Nat → Nat) :
    recvCounters g ((List.range W).map c) = .ok ((List.range g.length).map (psum fun j => c (g.getD j 0))) := by
  have key : ∀ k, k < g.length → loop k [0] (fun i cs => do
      let w ← vget g i
      let p ← vget cs i
      let x ← vget ((List.range W).map c) w
      return cs ++ [p + x]) = (.ok ((List.range (k + 1)).map (psum fun j => c (g.getD j 0))) : M (List Nat)) := by
    intro k
    induction k with
    | zero => intro _; simp [loop, psum]
    | succ k ih =>
      intro hk
      unfold loop
      have hgk : g[k]? = some g[k] := List.getElem?_eq_getElem (by omega)
      have h1 : vget ((List.range (k + 1)).map (psum fun j => c (g.getD j 0))) k = .ok (psum (fun j => c (g.getD j 0)) k) := by apply vget_ok; simp
      have h2 : vget ((List.range W).map c) g[k] = .ok (c g[k]) := by
        apply vget_ok
        rw [List.getElem?_map, List.getElem?_range (hg.lt _ (List.getElem_mem _))]; rfl
      rw [ih (by omega), ok_bind]
      simp only [vget_ok hgk, h1, h2, ok_bind]
      show Except.ok _ = _
      rw [List.range_succ (n := k + 1), List.map_append, List.map_singleton, psum_succ]
      simp [List.getD, hgk]
  have := key (g.length - 1) (by omega)
  rw [Nat.sub_add_cancel hne] at this
  exact this

theorem psum_cat {β : Type} (F : Nat → List β) (n : Nat) : psum (fun j => (F j).length) n = (cat n F).length := by
  rw [cat_length]; rfl

theorem counterAt_zero (b : Nat → Nat) (n K : Nat) : counterAt b n K 0 = (List.range K).map (psum fun j => (bkt b n j).length) := by
  unfold counterAt
  apply List.map_congr_left
  intro j _
  rw [psum_cat]; simp [bkt]

/-! ## The pieces for the processors of the world -/

/-- the numbers below `n` whose processor, in a group, is `w` in the world -/
def wpiece (grp : List Nat) (b : Nat → Nat) (n w : Nat) : List Nat := (List.range n).filter fun i => grp[b i]? = some w

theorem wpiece_bucket {W : Nat} {grp : List Nat} (hg : GroupIn W grp) (b : Nat → Nat) (n : Nat) {j w : Nat} (hj : grp[j]? = some w) :
    wpiece grp b n w = bkt b n j := by
  unfold wpiece bkt
  apply List.filter_congr
  intro i _
  rw [decide_eq_decide]
  exact ⟨fun h => hg.inj h hj, fun h => h ▸ hj⟩

theorem wpiece_out {grp : List Nat} (b : Nat → Nat) (n : Nat) {w : Nat} (hw : w ∉ grp) : wpiece grp b n w = [] := by
  unfold wpiece
  rw [List.filter_eq_nil_iff]
  intro i _
  simp only [decide_eq_true_eq]
  intro h
  exact hw (List.mem_of_getElem? h)

theorem wpiece_cat {β : Type} {W : Nat} {grp : List Nat} (hg : GroupIn W grp) (b : Nat → Nat) (n : Nat) (cell : Nat → β) :
    cat grp.length (fun j => (bkt b n j).map cell) = cat W fun w => (wpiece grp b n w).map cell := by
  rw [← hg.cat (fun w => (wpiece grp b n w).map cell) (fun w hw => by rw [wpiece_out b n hw]; rfl)]
  apply cat_congr
  intro j hj
  rw [wpiece_bucket hg b n (j := j)]
  simp [List.getD, List.getElem?_eq_getElem hj]

theorem psum_add_one (c : Nat → Nat) (k K : Nat) : psum (fun j => c j + if k = j then 1 else 0) K = psum c K + if k < K then 1 else 0 := by
  induction K with
  | zero => simp [psum]
  | succ K ih =>
    rw [psum_succ, psum_succ, ih]
    by_cases h1 : k < K
    · rw [if_pos h1, if_neg (by omega), if_pos (by omega)]; omega
    · by_cases h2 : k = K
      · rw [if_neg h1, if_pos h2, if_pos (by omega)]; omega
      · rw [if_neg h1, if_neg h2, if_neg (by omega)]; omega

theorem bucket_total (b : Nat → Nat) {n K : Nat} (hb : ∀ i < n, b i < K) : (cat K (bkt b n)).length = n := by
  have key : ∀ m, m ≤ n → psum (fun j => (bkt b m j).length) K = m := by
    intro m
    induction m with
    | zero =>
      intro _
      rw [psum_cat]
      have : cat K (bkt b 0) = cat K fun _ => ([] : List Nat) := cat_congr fun i _ => by simp [bkt]
      rw [this, cat_length]; simp
    | succ m ih =>
      intro hm
      have h1 : (fun j => (bkt b (m + 1) j).length) = fun j => (bkt b m j).length + if b m = j then 1 else 0 := by
        funext j
        rw [bucket_succ, List.length_append]
        congr 1
        split <;> rfl
      rw [h1, psum_add_one, ih (by omega), if_pos (hb m (by omega))]
  rw [← psum_cat]; exact key n le_rfl

variable {t u : BTopo} {o o' : Nat → Nat} {W p : Nat}

theorem Owns.other_lt (hu : Owns u o') (hnb : t.nbElems = u.nbElems) :
    ∀ i < (ownList o t.nbElems p).length, otherOf o' (ownList o t.nbElems p) i < u.group.length := by
  intro i hi
  have hLi : (ownList o t.nbElems p)[i]? = some (ownList o t.nbElems p)[i] := List.getElem?_eq_getElem hi
  have := (mem_ownList.1 (List.getElem_mem hi)).1
  have h := hu.lt (ownList o t.nbElems p)[i] (by omega)
  simpa [otherOf, List.getD, hLi] using h

/-- the pieces of processor `p` of topology `t` -/
def pieceOf (grp : List Nat) (o' : Nat → Nat) (L : List Nat) (w : Nat) : List Nat := wpiece grp (otherOf o' L) L.length w

theorem counts_displs_ok (ht : Owns t o) (hu : Owns u o') (hnb : t.nbElems = u.nbElems) (hp : p < t.group.length) (hg : GroupIn W u.group) (hW : 0 < W) :
    ∃ arrs, otherSide t u p = .ok ((ownList o t.nbElems p).length, arrs) ∧ arrs.length = u.group.length ∧
      (∀ j < u.group.length, ∃ a, arrs[j]? = some a ∧ a.length = (bkt (otherOf o' (ownList o t.nbElems p)) (ownList o t.nbElems p).length j).length) ∧
      worldCounts W u.group arrs = .ok ((List.range W).map fun w => (pieceOf u.group o' (ownList o t.nbElems p) w).length) ∧
      worldDispls W ((List.range W).map fun w => (pieceOf u.group o' (ownList o t.nbElems p) w).length) =
        .ok ((List.range W).map fun w => (cat w (pieceOf u.group o' (ownList o t.nbElems p))).length) := by
  obtain ⟨arrs, h1, h2, h3⟩ := otherSide_ok ht hu hnb hp
  refine ⟨arrs, h1, h2, h3, ?_, ?_⟩
  · refine worldCounts_ok hg _ (fun w hw => by simp [pieceOf, wpiece_out _ _ hw]) ?_
    intro j w hj
    obtain ⟨a, h4, h5⟩ := h3 j (List.getElem?_eq_some_iff.1 hj).1
    exact ⟨a, h4, by rw [h5, pieceOf, wpiece_bucket hg _ _ hj]⟩
  · rw [worldDispls_ok hW]
    congr 1
    apply List.map_congr_left
    intro w _
    exact psum_cat _ w

theorem prepareSource_ok (ht : Owns t o) (hu : Owns u o') (hnb : t.nbElems = u.nbElems) (hp : p < t.group.length) (hg : GroupIn W u.group) (hK : 0 < u.group.length) (hW : 0 < W)
    (value : List V) (hv : value.length = (ownList o t.nbElems p).length) :
    prepareSource W t u p value = .ok {
      buf := cat W fun w => (pieceOf u.group o' (ownList o t.nbElems p) w).map fun i => value[i]?
      counts := (List.range W).map fun w => (pieceOf u.group o' (ownList o t.nbElems p) w).length
      displs := (List.range W).map fun w => some (cat w (pieceOf u.group o' (ownList o t.nbElems p))).length } := by
  obtain ⟨arrs, h1, h2, h3, h4, h5⟩ := counts_displs_ok ht hu hnb hp hg hW
  set L := ownList o t.nbElems p with hL
  have hc := startCounters_ok hK h2 _ h3
  rw [← counterAt_zero] at hc
  unfold prepareSource
  rw [h1, ok_bind]
  simp only
  rw [h4, ok_bind, h5, ok_bind, hc, ok_bind]
  have hb := hu.other_lt (o := o) (p := p) hnb
  rw [← hL] at hb
  have hfill := bucketFill (otherOf o' L) hb value hv (bucket_total _ hb)
  have hcongr : loop L.length (List.replicate L.length (none : Option V), counterAt (otherOf o' L) L.length u.group.length 0) (fun i (buf, cnt) => do
      let g ← t.localToGlobal p p i
      let (p, _) ← u.globalToLocal g
      let c ← vget cnt p
      let v ← vget value i
      let buf ← vset buf c (some v)
      let cnt ← vset cnt p (c + 1)
      return (buf, cnt)) = loop L.length (List.replicate L.length (none : Option V), counterAt (otherOf o' L) L.length u.group.length 0) (fun i (buf, cnt) => do
      let c ← vget cnt (otherOf o' L i)
      let v ← vget value i
      let buf ← vset buf c (some v)
      let cnt ← vset cnt (otherOf o' L i) (c + 1)
      return (buf, cnt)) := by
    apply loop_congr_dec
    rintro i hi ⟨buf, cnt⟩
    have hLi : L[i]? = some L[i] := List.getElem?_eq_getElem hi
    have hg : L[i] < t.nbElems := (mem_ownList.1 (List.getElem_mem hi)).1
    obtain ⟨l, hl, _⟩ := hu.gtl L[i] (by omega)
    have hoth : otherOf o' L i = o' L[i] := by simp [otherOf, List.getD, hLi]
    simp only [ht.ltg p hp i _ hLi, ok_bind, hl, hoth]
  rw [hcongr, hfill, ok_bind, wpiece_cat hg]
  simp only [List.map_map]
  rfl

theorem prepareTarget_ok (ht : Owns t o) (hu : Owns u o') (hnb : t.nbElems = u.nbElems) (hp : p < t.group.length) (hg : GroupIn W u.group) (hW : 0 < W) :
    prepareTarget V W u t p = .ok {
      buf := List.replicate (ownList o t.nbElems p).length none
      counts := (List.range W).map fun w => (pieceOf u.group o' (ownList o t.nbElems p) w).length
      displs := (List.range W).map fun w => some (cat w (pieceOf u.group o' (ownList o t.nbElems p))).length } := by
  obtain ⟨arrs, h1, h2, h3, h4, h5⟩ := counts_displs_ok ht hu hnb hp hg hW
  unfold prepareTarget
  rw [h1, ok_bind]
  simp only
  rw [h4, ok_bind, h5, ok_bind]
  simp only [List.map_map]
  rfl

theorem takeValues_ok (ht : Owns t o) (hu : Owns u o') (hnb : t.nbElems = u.nbElems) (hp : p < t.group.length) (hg : GroupIn W u.group) (hK : 0 < u.group.length)
    (cell : Nat → Option V) (hc : ∀ i < (ownList o t.nbElems p).length, ∃ v, cell i = some v) (old : List V)
    (ho : old.length = (ownList o t.nbElems p).length) : ∃ res,
    takeValues u t p ((List.range W).map fun w => (pieceOf u.group o' (ownList o t.nbElems p) w).length)
      (cat W fun w => (pieceOf u.group o' (ownList o t.nbElems p) w).map cell) old = .ok res ∧
      res.map some = (List.range (ownList o t.nbElems p).length).map cell := by
  set L := ownList o t.nbElems p with hL
  have hb := hu.other_lt (o := o) (p := p) hnb
  rw [← hL] at hb
  obtain ⟨res, h1, h2⟩ := bucketRead (otherOf o' L) hb cell hc old ho
  refine ⟨res, ?_, h2⟩
  unfold takeValues
  rw [ht.nbl p hp, ok_bind, recvCounters_ok hg hK, ok_bind, ← hL]
  have hcnt : ((List.range u.group.length).map (psum fun j => (pieceOf u.group o' L (u.group.getD j 0)).length)) =
      counterAt (otherOf o' L) L.length u.group.length 0 := by
    rw [counterAt_zero]
    apply List.map_congr_left
    intro k hk
    rw [List.mem_range] at hk
    unfold psum
    congr 1
    apply List.map_congr_left
    intro j hj
    rw [List.mem_range] at hj
    rw [pieceOf, wpiece_bucket hg _ _ (j := j)]
    simp [List.getD, List.getElem?_eq_getElem (show j < u.group.length by omega)]
  rw [hcnt]
  have hbuf : (cat W fun w => (pieceOf u.group o' L w).map cell) = cat u.group.length fun j => (bkt (otherOf o' L) L.length j).map cell := by
    rw [wpiece_cat hg]; rfl
  rw [hbuf]
  have hcongr : loop L.length (old, counterAt (otherOf o' L) L.length u.group.length 0) (fun i (value, cnt) => do
      let g ← t.localToGlobal p p i
      let (p, _) ← u.globalToLocal g
      let c ← vget cnt p
      let x ← known (← vget (cat u.group.length fun j => (bkt (otherOf o' L) L.length j).map cell) c)
      let cnt ← vset cnt p (c + 1)
      let value ← vset value i x
      return (value, cnt)) = loop L.length (old, counterAt (otherOf o' L) L.length u.group.length 0) (fun i (value, cnt) => do
      let c ← vget cnt (otherOf o' L i)
      let x ← known (← vget (cat u.group.length fun j => (bkt (otherOf o' L) L.length j).map cell) c)
      let cnt ← vset cnt (otherOf o' L i) (c + 1)
      let value ← vset value i x
      return (value, cnt)) := by
    apply loop_congr_dec
    rintro i hi ⟨buf, cnt⟩
    have hLi : L[i]? = some L[i] := List.getElem?_eq_getElem hi
    have hg : L[i] < t.nbElems := (mem_ownList.1 (List.getElem_mem hi)).1
    obtain ⟨l, hl, _⟩ := hu.gtl L[i] (by omega)
    have hoth : otherOf o' L i = o' L[i] := by simp [otherOf, List.getD, hLi]
    simp only [ht.ltg p hp i _ hLi, ok_bind, hl, hoth]
  rw [hcongr, h1, ok_bind]
  rfl

end MC
