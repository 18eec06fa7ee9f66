import Verif.OverlapLocProps
import Mathlib.Tactic.NormNum
import Mathlib.Algebra.Order.Ring.Rat

/-!
# Work sharing and exchange of meshes of `OverlapDEC`: theorems (C87, C88)
-/

namespace MC

section boxes
variable {K : Type} [Field K] [LinearOrder K] [IsStrictOrderedRing K]

/-- a mesh is given by its box, one interval per direction -/
abbrev Box (K : Type) := List (K × K)

/-- the boxes of all processors, put end to end (`MPI_Allgather`) -/
def gathered (dim : Nat) (big : K) (B : List (Option (Box K) × Option (Box K))) : List K := (B.map fun b => localBoxes dim big b.1 b.2).flatten

/-- the intervals used for a mesh which may be missing -/
def boxOrEmpty (dim : Nat) (big : K) (b : Option (Box K)) : Box K := b.getD (List.replicate dim (big, -big))

theorem localBoxes_eq (dim : Nat) (big : K) (s t : Option (Box K)) :
    localBoxes dim big s t = ((boxOrEmpty dim big s ++ boxOrEmpty dim big t).map fun x => [x.1, x.2]).flatten := by
  unfold localBoxes boxOrEmpty
  rw [List.map_append, List.flatten_append]
  cases s <;> cases t <;> simp

theorem flat2_get {α : Type} : ∀ (l : List (α × α)) (k : Nat) (x : α × α), l[k]? = some x →
    ((l.map fun x => [x.1, x.2]).flatten)[k * 2]? = some x.1 ∧ ((l.map fun x => [x.1, x.2]).flatten)[k * 2 + 1]? = some x.2
  | [], k, x, h => by simp at h
  | y :: l, 0, x, h => by simp at h; subst h; simp
  | y :: l, k + 1, x, h => by
    have := flat2_get l k x (by simpa using h)
    rw [show (k + 1) * 2 = k * 2 + 2 by ring]
    simpa using this

theorem flatN_get {α : Type} (w : Nat) : ∀ (L : List (List α)) (i k : Nat) (l : List α), (∀ l ∈ L, l.length = w) → L[i]? = some l → k < w → L.flatten[i * w + k]? = l[k]?
  | [], i, k, l, _, h, _ => by simp at h
  | y :: L, 0, k, l, hw, h, hk => by
    simp at h; subst h
    rw [List.flatten_cons, Nat.zero_mul, Nat.zero_add, List.getElem?_append_left (by rw [hw y (by simp)]; exact hk)]
  | y :: L, i + 1, k, l, hw, h, hk => by
    rw [List.flatten_cons, List.getElem?_append_right (by rw [hw y (by simp), Nat.succ_mul]; omega), hw y (by simp),
      show (i + 1) * w + k - w = i * w + k by rw [Nat.succ_mul]; omega]
    exact flatN_get w L i k l (fun l hl => hw l (by simp [hl])) (by simpa using h) hk

theorem flat2_length {α : Type} (l : List (α × α)) : ((l.map fun x => [x.1, x.2]).flatten).length = l.length * 2 := by
  induction l with
  | nil => rfl
  | cons x l ih => simp [ih]; ring

/-- every box has `dim` intervals -/
def BoxesOk (dim : Nat) (B : List (Option (Box K) × Option (Box K))) : Prop := ∀ b ∈ B, (∀ s, b.1 = some s → s.length = dim) ∧ ∀ t, b.2 = some t → t.length = dim

theorem boxOrEmpty_length {dim : Nat} {big : K} {b : Option (Box K)} (h : ∀ s, b = some s → s.length = dim) : (boxOrEmpty dim big b).length = dim := by
  unfold boxOrEmpty
  cases b with
  | none => simp
  | some s => simpa using h s rfl

theorem gathered_get {dim : Nat} {big : K} {B : List (Option (Box K) × Option (Box K))} (hB : BoxesOk dim B) {i : Nat} {b : Option (Box K) × Option (Box K)} (hi : B[i]? = some b)
    {d : Nat} {x y : K × K} (hx : (boxOrEmpty dim big b.1)[d]? = some x) (hy : (boxOrEmpty dim big b.2)[d]? = some y) :
    (gathered dim big B)[i * 2 * 2 * dim + d * 2]? = some x.1 ∧ (gathered dim big B)[i * 2 * 2 * dim + d * 2 + 1]? = some x.2 ∧
    (gathered dim big B)[i * 2 * 2 * dim + 2 * dim + d * 2]? = some y.1 ∧ (gathered dim big B)[i * 2 * 2 * dim + 2 * dim + d * 2 + 1]? = some y.2 := by
  have hb := hB b (List.mem_of_getElem? hi)
  have hlen : ∀ l ∈ B.map (fun b => localBoxes dim big b.1 b.2), l.length = dim * 2 * 2 := by
    intro l hl
    obtain ⟨c, hc, rfl⟩ := List.mem_map.1 hl
    rw [localBoxes_eq, flat2_length, List.length_append, boxOrEmpty_length (hB c hc).1, boxOrEmpty_length (hB c hc).2]
    ring
  have hl1 := boxOrEmpty_length (big := big) hb.1
  have hd : d < dim := by rw [← hl1]; exact (List.getElem?_eq_some_iff.1 hx).1
  have hg : ∀ k, k < dim * 2 * 2 → (gathered dim big B)[i * (dim * 2 * 2) + k]? = (((boxOrEmpty dim big b.1 ++ boxOrEmpty dim big b.2).map fun x => [x.1, x.2]).flatten)[k]? := by
    intro k hk
    rw [← localBoxes_eq]
    exact flatN_get _ _ i k _ hlen (by rw [List.getElem?_map, hi]; rfl) hk
  have e1 := flat2_get (boxOrEmpty dim big b.1 ++ boxOrEmpty dim big b.2) d x (by rw [List.getElem?_append_left (by omega)]; exact hx)
  have e2 := flat2_get (boxOrEmpty dim big b.1 ++ boxOrEmpty dim big b.2) (dim + d) y (by
    rw [List.getElem?_append_right (by omega), hl1, show dim + d - dim = d by omega]; exact hy)
  have hi4 : i * 2 * 2 * dim = i * (dim * 2 * 2) := by ring
  rw [hi4]
  refine ⟨?_, ?_, ?_, ?_⟩
  · rw [hg _ (by omega)]; exact e1.1
  · rw [Nat.add_assoc, hg _ (by omega)]; exact e1.2
  · rw [Nat.add_assoc, show 2 * dim + d * 2 = (dim + d) * 2 by ring, hg _ (by omega)]; exact e2.1
  · rw [Nat.add_assoc (i * (dim * 2 * 2)), Nat.add_assoc, show 2 * dim + d * 2 = (dim + d) * 2 by ring, hg _ (by omega)]; exact e2.2

/-- the boxes come within `eps` of each other in every direction -/
def BoxNear (dim : Nat) (eps : K) (s t : Box K) : Prop := ∀ d < dim, ∀ x y, s[d]? = some x → t[d]? = some y → y.1 < x.2 + eps ∧ x.1 < y.2 + eps

theorem intersectsBB_ok {dim : Nat} {big eps : K} {B : List (Option (Box K) × Option (Box K))} (hB : BoxesOk dim B) {i j : Nat} {b c : Option (Box K) × Option (Box K)}
    (hi : B[i]? = some b) (hj : B[j]? = some c) :
    ∃ r, intersectsBB dim eps (gathered dim big B) i j = .ok r ∧ (r = true ↔ BoxNear dim eps (boxOrEmpty dim big b.1) (boxOrEmpty dim big c.2)) := by
  have hb := hB b (List.mem_of_getElem? hi)
  have hc := hB c (List.mem_of_getElem? hj)
  have hb1 := boxOrEmpty_length (big := big) hb.1
  have hb2 := boxOrEmpty_length (big := big) hb.2
  have hc1 := boxOrEmpty_length (big := big) hc.1
  have hc2 := boxOrEmpty_length (big := big) hc.2
  have key : ∀ n, n ≤ dim → ∃ r, loop n true (fun d r => do
      if r then
        let tmin ← vget (gathered dim big B) (j * 2 * 2 * dim + 2 * dim + d * 2)
        let smax ← vget (gathered dim big B) (i * 2 * 2 * dim + d * 2 + 1)
        if tmin < smax + eps then
          let smin ← vget (gathered dim big B) (i * 2 * 2 * dim + d * 2)
          let tmax ← vget (gathered dim big B) (j * 2 * 2 * dim + 2 * dim + d * 2 + 1)
          return decide (smin < tmax + eps)
        else return false
      else return false) = .ok r ∧ (r = true ↔ BoxNear n eps (boxOrEmpty dim big b.1) (boxOrEmpty dim big c.2)) := by
    intro n
    induction n with
    | zero => intro _; exact ⟨true, rfl, by simp [BoxNear]⟩
    | succ n ih =>
      intro hn
      obtain ⟨r, h1, h2⟩ := ih (by omega)
      have x1 : (boxOrEmpty dim big b.1)[n]? = some (boxOrEmpty dim big b.1)[n] := List.getElem?_eq_getElem (by omega)
      have x2 : (boxOrEmpty dim big b.2)[n]? = some (boxOrEmpty dim big b.2)[n] := List.getElem?_eq_getElem (by omega)
      have y1 : (boxOrEmpty dim big c.1)[n]? = some (boxOrEmpty dim big c.1)[n] := List.getElem?_eq_getElem (by omega)
      have y2 : (boxOrEmpty dim big c.2)[n]? = some (boxOrEmpty dim big c.2)[n] := List.getElem?_eq_getElem (by omega)
      obtain ⟨g1, g2, _, _⟩ := gathered_get hB hi x1 x2
      obtain ⟨_, _, g3, g4⟩ := gathered_get hB hj y1 y2
      have hnear : BoxNear (n + 1) eps (boxOrEmpty dim big b.1) (boxOrEmpty dim big c.2) ↔ BoxNear n eps (boxOrEmpty dim big b.1) (boxOrEmpty dim big c.2) ∧
          ((boxOrEmpty dim big c.2)[n].1 < (boxOrEmpty dim big b.1)[n].2 + eps ∧ (boxOrEmpty dim big b.1)[n].1 < (boxOrEmpty dim big c.2)[n].2 + eps) := by
        constructor
        · intro h
          exact ⟨fun d hd => h d (by omega), h n (by omega) _ _ x1 y2⟩
        · rintro ⟨h, h'⟩ d hd x y hx hy
          by_cases hdn : d = n
          · subst hdn
            rw [x1] at hx; rw [y2] at hy
            cases hx; cases hy
            exact h'
          · exact h d (by omega) x y hx hy
      unfold loop
      rw [h1, ok_bind]
      simp only [vget_ok g1, vget_ok g2, vget_ok g3, vget_ok g4, ok_bind]
      rw [hnear]
      by_cases hr : r = true
      · rw [if_pos hr]
        by_cases hlt : (boxOrEmpty dim big c.2)[n].1 < (boxOrEmpty dim big b.1)[n].2 + eps
        · rw [if_pos hlt]
          exact ⟨_, rfl, by simp [h2.1 hr, hlt]⟩
        · rw [if_neg hlt]
          exact ⟨_, rfl, by simp [hlt]⟩
      · rw [if_neg hr]
        refine ⟨_, rfl, ?_⟩
        rw [← h2]
        simp [hr]
  exact key dim le_rfl

theorem loop_filter {N : Nat} {f : Nat → M Bool} {g : Nat → Bool} (h : ∀ j < N, f j = .ok (g j)) : loop N ([] : List Nat) (fun j l => do
    if ← f j then return l ++ [j] else return l) = .ok ((List.range N).filter g) := by
  induction N with
  | zero => rfl
  | succ n ih =>
    unfold loop
    rw [ih fun j hj => h j (by omega), ok_bind]
    simp only [h n (by omega), ok_bind]
    rw [List.range_succ, List.filter_append]
    cases hg : g n <;> simp [hg] <;> rfl

theorem mapM_range_ok {α : Type} {N : Nat} {f : Nat → M α} {g : Nat → α} (h : ∀ i < N, f i = .ok (g i)) : (List.range N).mapM f = .ok ((List.range N).map g) := by
  have : ∀ l : List Nat, (∀ i ∈ l, i < N) → l.mapM f = .ok (l.map g) := by
    intro l
    induction l with
    | nil => intro _; rfl
    | cons a l ih =>
      intro hl
      rw [List.mapM_cons, h a (hl a (by simp)), ok_bind, ih fun i hi => hl i (by simp [hi]), ok_bind]
      rfl
  exact this _ fun i hi => List.mem_range.1 hi

theorem procPairs_ok {dim : Nat} {big eps : K} {B : List (Option (Box K) × Option (Box K))} (hB : BoxesOk dim B) :
    ∃ inter : Nat → Nat → Bool, procPairs B.length dim eps (gathered dim big B) = .ok (pairsOf B.length inter) ∧
    ∀ (i j : Nat) b c, B[i]? = some b → B[j]? = some c → (inter i j = true ↔ BoxNear dim eps (boxOrEmpty dim big b.1) (boxOrEmpty dim big c.2)) := by
  set f : Nat → Nat → Bool := fun i j => match intersectsBB dim eps (gathered dim big B) i j with | .ok r => r | .error _ => false with hf
  have hrun : ∀ (i j : Nat), i < B.length → j < B.length → intersectsBB dim eps (gathered dim big B) i j = .ok (f i j) := by
    intro i j hi hj
    obtain ⟨r, h1, _⟩ := intersectsBB_ok (big := big) (eps := eps) hB (List.getElem?_eq_getElem hi) (List.getElem?_eq_getElem hj)
    simp only [hf, h1]
  refine ⟨f, ?_, ?_⟩
  · unfold procPairs pairsOf
    exact mapM_range_ok fun i hi => loop_filter fun j hj => hrun i j hi hj
  · intro i j b c hi hj
    obtain ⟨r, h1, h2⟩ := intersectsBB_ok (big := big) (eps := eps) hB hi hj
    simp only [hf, h1]
    exact h2

/-- a mesh which is missing comes near no other, when the coordinates are far enough from the largest number -/
theorem near_empty {dim : Nat} {big eps : K} (hd : 0 < dim) (h0 : eps ≤ big + big) {s t : Option (Box K)} (hs : ∀ b, s = some b → b.length = dim ∧ ∀ x ∈ b, x.2 + eps ≤ big)
    (ht : ∀ b, t = some b → b.length = dim ∧ ∀ x ∈ b, -big + eps ≤ x.1) (h : BoxNear dim eps (boxOrEmpty dim big s) (boxOrEmpty dim big t)) : s.isSome ∧ t.isSome := by
  have hrep : (List.replicate dim (big, -big))[0]? = some (big, -big) := by rw [List.getElem?_replicate, if_pos hd]
  cases s with
  | none =>
    exfalso
    cases t with
    | none =>
      have := (h 0 hd (big, -big) (big, -big) hrep hrep).1
      simp only at this
      linarith
    | some b =>
      obtain ⟨h1, h2⟩ := ht b rfl
      have hb : b[0]? = some (b[0]'(by omega)) := List.getElem?_eq_getElem _
      have h3 := (h 0 hd (big, -big) _ hrep hb).1
      have h4 := h2 _ (List.getElem_mem (by omega : 0 < b.length))
      simp only at h3
      linarith
  | some b =>
    cases t with
    | none =>
      exfalso
      obtain ⟨h1, h2⟩ := hs b rfl
      have hb : b[0]? = some (b[0]'(by omega)) := List.getElem?_eq_getElem _
      have h3 := (h 0 hd _ (big, -big) hb hrep).1
      have h4 := h2 _ (List.getElem_mem (by omega : 0 < b.length))
      simp only at h3
      linarith
    | some c => exact ⟨rfl, rfl⟩

/-- **C87, who works with whom.**  The processors whose meshes may overlap are found: for boxes of any sizes on any number of processors, processor `i` is paired with processor
`j` when the box of the source mesh of `i` and the box of the target mesh of `j` come within the adjustment in every direction.  Two boxes which share a point are always
paired; two boxes which are apart by the adjustment in some direction are not; a processor without mesh is not paired. -/
theorem C87_pairs {dim : Nat} {big eps : K} (hd : 0 < dim) (he : 0 < eps) (hbig : eps ≤ big + big) {B : List (Option (Box K) × Option (Box K))}
    (hB : BoxesOk dim B) (hfar : ∀ b ∈ B, (∀ s, b.1 = some s → ∀ x ∈ s, x.2 + eps ≤ big) ∧ ∀ t, b.2 = some t → ∀ x ∈ t, -big + eps ≤ x.1) :
    ∃ pairs, procPairs B.length dim eps (gathered dim big B) = .ok pairs ∧ pairs.length = B.length ∧ ∀ (i : Nat) (l : List Nat), pairs[i]? = some l →
      l.Pairwise (· < ·) ∧ (∀ j ∈ l, ∃ s t : Box K, (∃ x, B[i]? = some (some s, x)) ∧ (∃ x, B[j]? = some (x, some t)) ∧ BoxNear dim eps s t) ∧
      ∀ (j : Nat) (s t : Box K), (∃ x, B[i]? = some (some s, x)) → (∃ x, B[j]? = some (x, some t)) →
        (∃ pt : Nat → K, ∀ d < dim, ∀ x y, s[d]? = some x → t[d]? = some y → x.1 ≤ pt d ∧ pt d ≤ x.2 ∧ y.1 ≤ pt d ∧ pt d ≤ y.2) → j ∈ l := by
  obtain ⟨inter, h1, h2⟩ := procPairs_ok (big := big) (eps := eps) hB
  refine ⟨_, h1, by simp [pairsOf], ?_⟩
  intro i l hl
  have hi : i < B.length := by
    have := (List.getElem?_eq_some_iff.1 hl).1
    simpa [pairsOf] using this
  rw [pairsOf_get inter hi] at hl
  cases hl
  have ebi : B[i]? = some B[i] := List.getElem?_eq_getElem hi
  have hbi := hB B[i] (List.getElem_mem hi)
  refine ⟨List.pairwise_lt_range.filter _, ?_, ?_⟩
  · intro j hj
    rw [List.mem_filter, List.mem_range] at hj
    have ebj : B[j]? = some B[j] := List.getElem?_eq_getElem hj.1
    have hnear := (h2 i j _ _ ebi ebj).1 hj.2
    have hbj := hB B[j] (List.getElem_mem hj.1)
    obtain ⟨hs, ht⟩ := near_empty hd hbig (fun b hb => ⟨hbi.1 b hb, (hfar _ (List.getElem_mem hi)).1 b hb⟩) (fun b hb => ⟨hbj.2 b hb, (hfar _ (List.getElem_mem hj.1)).2 b hb⟩) hnear
    obtain ⟨s, hs⟩ := Option.isSome_iff_exists.1 hs
    obtain ⟨t, ht⟩ := Option.isSome_iff_exists.1 ht
    rw [hs, ht] at hnear
    exact ⟨s, t, ⟨B[i].2, by rw [ebi, ← hs]⟩, ⟨B[j].1, by rw [ebj, ← ht]⟩, hnear⟩
  · rintro j s t ⟨x, hx⟩ ⟨y, hy⟩ ⟨pt, hpt⟩
    rw [List.mem_filter, List.mem_range]
    refine ⟨(List.getElem?_eq_some_iff.1 hy).1, (h2 i j _ _ hx hy).2 ?_⟩
    intro d hdd a b ha hb
    obtain ⟨p1, p2, p3, p4⟩ := hpt d hdd a b ha hb
    constructor <;> linarith

end boxes

/-- **C87, sharing the work.**  For any number of processors (`int` can hold twice that number) and any pairs, each of the three algorithms ends, and shares the pairs: every
pair is in exactly one list, the one of its source or the one of its target processor, once; nothing else is in the lists; every list is in increasing order. -/
theorem C87_shared {algo : Int} (ha : algo = 0 ∨ algo = 1 ∨ algo = 2) {N : Nat} (hN : 2 * N < 2147483647) {pairs : List (List Nat)} (hl : pairs.length = N)
    (hp : ∀ l ∈ pairs, l.Pairwise (· < ·) ∧ ∀ j ∈ l, j < N) :
    ∃ (todo : List (List Couple)) (n : Nat), (∀ fuel, n ≤ fuel → todoLists algo fuel N pairs = .ok (some todo)) ∧ todo.length = N ∧
      (∀ (p : Nat) (l : List Couple), todo[p]? = some l → l.Pairwise (· < ·) ∧
        ∀ c ∈ l, (c.src = p ∨ c.tgt = p) ∧ ∃ js, pairs[c.src]? = some js ∧ c.tgt ∈ js) ∧
      ∀ (i j : Nat) (js : List Nat), pairs[i]? = some js → j ∈ js → ∃ p l, todo[p]? = some l ∧ cpl i j ∈ l ∧
        ∀ (p' : Nat) (l' : List Couple), todo[p']? = some l' → cpl i j ∈ l' → p' = p := by
  set inter : Nat → Nat → Bool := fun i j => decide (∃ js, pairs[i]? = some js ∧ j ∈ js) with hinter
  have hpairs : pairs = pairsOf N inter := by
    apply List.ext_getElem?
    intro i
    by_cases hi : i < N
    · have e : pairs[i]? = some (pairs[i]'(by omega)) := List.getElem?_eq_getElem _
      rw [pairsOf_get inter hi, e]
      congr 1
      obtain ⟨h1, h2⟩ := hp _ (List.getElem_mem (by omega : i < pairs.length))
      refine StrictSorted.ext h1 (List.pairwise_lt_range.filter _) ?_
      intro j
      rw [List.mem_filter, List.mem_range]
      simp only [hinter, decide_eq_true_eq, e, Option.some.injEq, exists_eq_left']
      exact ⟨fun h => ⟨h2 j h, h⟩, fun h => h.2⟩
    · rw [List.getElem?_eq_none (by omega), List.getElem?_eq_none (by simp [pairsOf]; omega)]
  have hsh : ∃ todo n, (∀ fuel, n ≤ fuel → todoLists algo fuel N (pairsOf N inter) = .ok (some todo)) ∧ Shared N (couplesOf N inter) todo := by
    unfold todoLists
    rcases ha with rfl | rfl | rfl
    · obtain ⟨t, h1, h2⟩ := todoOriginal_ok N inter
      refine ⟨t, 0, ?_, h2⟩
      intro fuel _
      simp only [if_true]
      rw [h1, ok_bind]; rfl
    · obtain ⟨t, n, h1, h2⟩ := todoNew_ok false N hN inter
      exact ⟨t, n, fun fuel hf => by simpa using h1 fuel hf, h2⟩
    · obtain ⟨t, n, h1, h2⟩ := todoNew_ok true N hN inter
      exact ⟨t, n, fun fuel hf => by simpa using h1 fuel hf, h2⟩
  obtain ⟨todo, n, h1, h2⟩ := hsh
  have hmem : ∀ c : Couple, c ∈ couplesOf N inter ↔ ∃ js, pairs[c.src]? = some js ∧ c.tgt ∈ js := by
    intro c
    rw [mem_couplesOf]
    simp only [hinter, decide_eq_true_eq]
    constructor
    · exact fun h => h.2.2
    · rintro ⟨js, h3, h4⟩
      have h5 := (List.getElem?_eq_some_iff.1 h3).1
      exact ⟨by omega, (hp js (List.mem_of_getElem? h3)).2 _ h4, js, h3, h4⟩
  refine ⟨todo, n, by rw [hpairs]; exact h1, h2.len, ?_, ?_⟩
  · intro p l hpl
    refine ⟨h2.sorted p l hpl, ?_⟩
    intro c hc
    obtain ⟨h3, h4⟩ := h2.own p l c hpl hc
    exact ⟨h4, (hmem c).1 h3⟩
  · intro i j js h3 h4
    exact h2.once (cpl i j) ((hmem _).2 ⟨js, h3, h4⟩)

/-- **C87, other choices are refused.** -/
theorem C87_refused {algo : Int} (ha : algo ≠ 0 ∧ algo ≠ 1 ∧ algo ≠ 2) (fuel N : Nat) (pairs : List (List Nat)) : todoLists algo fuel N pairs = throwX := by
  unfold todoLists
  rw [if_neg ha.1, if_neg ha.2.1, if_neg ha.2.2]

/-- three processors; all pairs but (2, 0) -/
example : todoLists 0 0 3 [[0, 1, 2], [0, 1], [1, 2]] = .ok (some [[cpl 0 0], [cpl 0 1, cpl 1 0, cpl 1 1], [cpl 0 2, cpl 2 1, cpl 2 2]]) := by decide +kernel
example : todoLists 1 30 3 [[0, 1, 2], [0, 1], [1, 2]] = .ok (some [[cpl 0 0, cpl 0 1], [cpl 1 0, cpl 1 1], [cpl 0 2, cpl 2 1, cpl 2 2]]) := by decide +kernel
example : todoLists 2 30 3 [[0, 1, 2], [0, 1], [1, 2]] = .ok (some [[cpl 0 0, cpl 0 1], [cpl 1 0, cpl 1 1], [cpl 0 2, cpl 2 1, cpl 2 2]]) := by decide +kernel

/-- on the line: processor 0 has `[0, 1]` as source and target, processor 1 has `[1, 2]` as source and no target, processor 2 has no source and `[3/2, 2]` as target -/
example : procPairs 3 1 (1 / 100 : ℚ) (gathered 1 1000 [(some [(0, 1)], some [(0, 1)]), (some [(1, 2)], none), (none, some [(3 / 2, 2)])]) = .ok [[0], [0, 2], []] := by
  decide +kernel

end MC
