import Verif.SetAlg

/-! # C12–C14: set operations on id arrays – theorems -/

namespace MC

/-! ## C12 -/

/-- **C12.** The union is the strictly increasing list of the values found in at least one (non null) array. -/
theorem C12_union (arrs : List (Option (List Int))) :
    StrictSorted (buildUnion arrs) ∧ ∀ x, x ∈ buildUnion arrs ↔ ∃ a, some a ∈ arrs ∧ x ∈ a := by
  unfold buildUnion
  have key : ∀ (ls : List (List Int)) (s : List Int), StrictSorted s →
      StrictSorted (ls.foldl setInsertAll s) ∧ ∀ x, x ∈ ls.foldl setInsertAll s ↔ x ∈ s ∨ ∃ a ∈ ls, x ∈ a := by
    intro ls
    induction ls with
    | nil => intro s hs; exact ⟨hs, by simp⟩
    | cons a ls ih =>
      intro s hs
      obtain ⟨h1, h2⟩ := ih (setInsertAll s a) (sorted_setInsertAll hs)
      refine ⟨h1, fun x => ?_⟩
      simp only [List.foldl_cons]
      rw [h2 x, mem_setInsertAll]
      simp only [List.mem_cons, exists_eq_or_imp]
      tauto
  obtain ⟨h1, h2⟩ := key (arrs.filterMap id) [] List.Pairwise.nil
  refine ⟨h1, fun x => ?_⟩
  rw [h2 x]
  simp [List.mem_filterMap]

example : buildUnion [some [5, 1, 5], none, some [3, 1]] = [1, 3, 5] := by decide

/-- **C12.** The intersection of two or more (non null) arrays is the strictly increasing list of the common values.
With exactly one non null array it throws. -/
theorem C12_intersection (arrs : List (Option (List Int))) :
    (2 ≤ (arrs.filter Option.isSome).length →
      ∃ r, buildIntersection arrs = .ok r ∧ StrictSorted r ∧ ∀ x, x ∈ r ↔ ∀ a, some a ∈ arrs → x ∈ a) ∧
    ((arrs.filter Option.isSome).length = 1 → buildIntersection arrs = .error .exn) := by
  have hlen : (arrs.filterMap id).length = (arrs.filter Option.isSome).length := by
    induction arrs with
    | nil => rfl
    | cons a l ih => cases a <;> simpa using ih
  have hmem : ∀ a, a ∈ arrs.filterMap id ↔ some a ∈ arrs := by simp [List.mem_filterMap]
  have key : ∀ (ls : List (List Int)) (s : List Int), StrictSorted s →
      StrictSorted (ls.foldl (fun r y => setIntersection r (setInsertAll [] y)) s) ∧
      ∀ x, x ∈ ls.foldl (fun r y => setIntersection r (setInsertAll [] y)) s ↔ x ∈ s ∧ ∀ a ∈ ls, x ∈ a := by
    intro ls
    induction ls with
    | nil => intro s hs; exact ⟨hs, by simp⟩
    | cons a ls ih =>
      intro s hs
      have ha : StrictSorted (setInsertAll ([] : List Int) a) := sorted_setInsertAll List.Pairwise.nil
      obtain ⟨h1, h2⟩ := ih (setIntersection s (setInsertAll [] a)) (hs.sublist (setIntersection_sublist _ _))
      refine ⟨h1, fun x => ?_⟩
      simp only [List.foldl_cons]
      rw [h2 x, mem_setIntersection hs ha, mem_setInsertAll]
      simp only [List.mem_cons, forall_eq_or_imp, List.not_mem_nil, false_or]
      tauto
  unfold buildIntersection
  constructor
  · intro h2
    rw [← hlen] at h2
    simp only
    rw [if_neg (by omega)]
    cases ha : arrs.filterMap id with
    | nil => rw [ha] at h2; simp at h2
    | cons x rest =>
      rw [ha] at hmem
      have hx : StrictSorted (setInsertAll ([] : List Int) x) := sorted_setInsertAll List.Pairwise.nil
      obtain ⟨h3, h4⟩ := key rest _ hx
      refine ⟨_, rfl, h3, fun y => ?_⟩
      rw [h4 y, mem_setInsertAll]
      simp only [← hmem, List.mem_cons, forall_eq_or_imp, List.not_mem_nil, false_or]
  · intro h1
    rw [← hlen] at h1
    simp only
    rw [if_pos h1]; rfl

example : buildIntersection [some [5, 1, 5, 3], none, some [3, 5], some [9, 5, 3]] = .ok [3, 5] := by decide

/-! ## C13 -/

/-- **C13.** `buildComplement`: throws exactly when an id is out of `[0,nb)`, otherwise returns the increasing list of
the ids of `[0,nb)` which are absent; the result buffer is exactly filled. -/
theorem C13_complement (l : List Int) (nb : Nat) :
    ((∀ v ∈ l, 0 ≤ v ∧ v < nb) → ∃ r : List Int, buildComplement l nb = .ok (r.map some) ∧ StrictSorted r ∧
        ∀ x, x ∈ r ↔ (0 ≤ x ∧ x < nb) ∧ x ∉ l) ∧
    ((∃ v ∈ l, ¬ (0 ≤ v ∧ v < nb)) → buildComplement l nb = .error .exn) := by
  have marks : ∀ E : Prop, ((∃ v ∈ l, ¬ (0 ≤ v ∧ v < nb)) → E) →
      wp (complementMarks l nb) (fun tmp => (∀ v ∈ l, 0 ≤ v ∧ v < nb) ∧ tmp.length = nb ∧
        ∀ i : Nat, i < nb → tmp[i]? = some (decide ((i : Int) ∈ l))) E := by
    intro E hE
    unfold complementMarks
    refine wp_foldlM (fun (pre : List Int) (tmp : List Bool) => (∀ v ∈ pre, 0 ≤ v ∧ v < nb) ∧ tmp.length = nb ∧
        ∀ i : Nat, i < nb → tmp[i]? = some (decide ((i : Int) ∈ pre))) ?_ ?_
    · exact ⟨by simp, by simp, fun i hi => by simp [hi]⟩
    · rintro pre x suf hl tmp ⟨h0, h1, h2⟩
      by_cases hx : 0 ≤ x ∧ x < nb
      · rw [if_pos hx]
        apply wp_wr hx.1 (by omega)
        refine ⟨?_, by simp [h1], fun i hi => ?_⟩
        · intro v hv
          rcases List.mem_append.mp hv with hv | hv
          · exact h0 v hv
          · simp at hv; subst hv; exact hx
        · by_cases hix : (i : Int) = x
          · subst hix; simp [h1, hi]
          · rw [List.getElem?_set_ne (by omega), h2 i hi]
            simp [hix]
      · rw [if_neg hx]
        exact hE ⟨x, by rw [hl]; simp, hx⟩
  have hnn : ¬ ((nb : Int) < 0) := by omega
  constructor
  · intro hall
    have hno : ¬ ∃ v ∈ l, ¬ (0 ≤ v ∧ v < (nb : Int)) := by rintro ⟨v, hv, hn⟩; exact hn (hall v hv)
    obtain ⟨tmp, ht, _, ht1, ht2⟩ := wp_exists (marks False hno)
    let r : List Int := ((List.range nb).filter fun i : Nat => decide ((i : Int) ∉ l)).map Int.ofNat
    have cnt : tmp.count false = ((List.range nb).filter fun i : Nat => decide ((i : Int) ∉ l)).length := by
      have : tmp = (List.range nb).map fun i : Nat => decide ((i : Int) ∈ l) := by
        apply List.ext_getElem?
        intro i
        by_cases hi : i < nb
        · rw [ht2 i hi]; simp [hi]
        · rw [List.getElem?_eq_none (by omega), List.getElem?_eq_none (by simp; omega)]
      rw [this, List.count_eq_countP, List.countP_map, List.countP_eq_length_filter]
      congr 1
      apply List.filter_congr
      intro i _
      simp
    have fill : wp (complementFill tmp nb) (fun st => st.2 = r.map some) False := by
      unfold complementFill
      refine wp_mono (wp_loop (E := False) (fun k st =>
        st.1 = ((List.range k).filter fun i : Nat => decide ((i : Int) ∉ l)).length ∧
        st.2 = (((List.range k).filter fun i : Nat => decide ((i : Int) ∉ l)).map (some ∘ Int.ofNat)) ++
          List.replicate (tmp.count false - st.1) none) ?_ ?_) ?_ id
      · exact ⟨by simp, by simp [mallocN]⟩
      · rintro k hk ⟨j, o⟩ ⟨h1, h2⟩
        simp only at h1 h2 ⊢
        rw [rd_of_getElem? (by omega) (by simpa using ht2 k hk)]
        show wp (if (!decide ((k : Int) ∈ l)) = true then _ else _) _ _
        have hle : ((List.range (k+1)).filter fun i : Nat => decide ((i : Int) ∉ l)).length ≤ tmp.count false := by
          rw [cnt]
          exact ((List.range_sublist.mpr hk).filter _).length_le
        by_cases hkl : (k : Int) ∈ l
        · simp only [hkl, decide_true, Bool.not_true, Bool.false_eq_true, if_false]
          rw [wp_ok]
          simp only [List.range_succ, List.filter_append, List.filter_cons, hkl, not_true_eq_false, decide_false,
            Bool.false_eq_true, if_false, List.filter_nil, List.append_nil]
          exact ⟨h1, h2⟩
        · simp only [hkl, decide_false, Bool.not_false, if_true]
          have hfil : ((List.range (k+1)).filter fun i : Nat => decide ((i : Int) ∉ l)) =
              ((List.range k).filter fun i : Nat => decide ((i : Int) ∉ l)) ++ [k] := by
            simp [List.range_succ, List.filter_append, hkl]
          rw [hfil] at hle ⊢
          simp only [List.length_append, List.length_singleton] at hle ⊢
          rw [h2, ← List.map_map (f := Int.ofNat) (g := some), wr_push (by simp [h1]) (by omega)]
          show _ ∧ _
          refine ⟨by omega, ?_⟩
          simp [Nat.sub_sub]
      · rintro ⟨j, o⟩ ⟨h1, h2⟩
        simp only at h1 h2 ⊢
        rw [h2, cnt, h1]; simp [r]
    obtain ⟨st, hst, hst2⟩ := wp_exists fill
    refine ⟨r, ?_, ?_, ?_⟩
    · unfold buildComplement
      rw [if_neg hnn, Int.toNat_natCast, ht]
      show (do let r ← complementFill tmp nb; _) = _
      rw [hst, ← hst2]; rfl
    · simp only [r, StrictSorted, List.pairwise_map]
      exact (List.pairwise_lt_range.filter _).imp fun h => by simpa using h
    · intro x
      simp only [r, List.mem_map, List.mem_filter, List.mem_range, decide_eq_true_eq]
      constructor
      · rintro ⟨i, ⟨h1, h2⟩, rfl⟩
        simp only [Int.ofNat_eq_natCast]
        exact ⟨⟨by omega, by omega⟩, h2⟩
      · rintro ⟨⟨h1, h2⟩, h3⟩
        refine ⟨x.toNat, ⟨by omega, ?_⟩, by simp; omega⟩
        rwa [Int.toNat_of_nonneg h1]
  · rintro ⟨v, hv, hn⟩
    have : complementMarks l nb = .error .exn :=
      wp_throws (wp_mono (marks True fun _ => trivial) (fun _ h => hn (h.1 v hv)) id)
    unfold buildComplement
    rw [if_neg hnn, Int.toNat_natCast, this]; rfl

example : buildComplement [3, 0, 3] 6 = .ok [some 1, some 2, some 4, some 5] := by decide

/-- **C13.** `buildSubstraction`: increasing list of the values of `a` that are not in `b`. -/
theorem C13_substraction (a b : List Int) :
    StrictSorted (buildSubstraction a b) ∧ ∀ x, x ∈ buildSubstraction a b ↔ x ∈ a ∧ x ∉ b := by
  have ha : StrictSorted (setInsertAll ([] : List Int) a) := sorted_setInsertAll List.Pairwise.nil
  have hb : StrictSorted (setInsertAll ([] : List Int) b) := sorted_setInsertAll List.Pairwise.nil
  refine ⟨ha.sublist (setDifference_sublist _ _), fun x => ?_⟩
  unfold buildSubstraction
  rw [mem_setDifference ha hb, mem_setInsertAll, mem_setInsertAll]
  simp

example : buildSubstraction [9, 1, 4, 4, 7] [4, 2] = [1, 7, 9] := by decide

/-- **C13.** `buildSubstractionOptimized`: when both arrays are strictly increasing and `b` is a part of `a`, the result
is exactly `a` filtered by absence from `b`. -/
theorem C13_substraction_optimized (a b : List Int) (ha : StrictSorted a) (hb : StrictSorted b)
    (hsub : ∀ x ∈ b, x ∈ a) :
    buildSubstractionOptimized a b = a.filter (fun x => decide (x ∉ b)) := by
  induction a generalizing b with
  | nil => simp [buildSubstractionOptimized]
  | cons x s ih =>
    rw [StrictSorted, List.pairwise_cons] at ha
    cases b with
    | nil =>
      rw [buildSubstractionOptimized, ih [] ha.2 List.Pairwise.nil (by simp)]
      simp
    | cons y t =>
      have hb' := hb
      rw [StrictSorted, List.pairwise_cons] at hb
      unfold buildSubstractionOptimized
      split
      · rename_i hxy
        subst hxy
        have hsub' : ∀ z ∈ t, z ∈ s := fun z hz => by
          rcases List.mem_cons.mp (hsub z (List.mem_cons_of_mem _ hz)) with rfl | h
          · exact absurd (hb.1 z hz) (lt_irrefl _)
          · exact h
        rw [ih t ha.2 hb.2 hsub', List.filter_cons_of_neg (by simp)]
        apply List.filter_congr
        intro z hz
        have := ha.1 z hz
        have hne : z ≠ x := by omega
        simp [hne]
      · rename_i hxy
        have hxs : y ∈ s := by
          rcases List.mem_cons.mp (hsub y (by simp)) with h | h
          · exact absurd h.symm hxy
          · exact h
        have hlt := ha.1 y hxs
        have hxb : x ∉ y :: t := by
          intro h
          rcases List.mem_cons.mp h with h | h
          · omega
          · have := hb.1 x h; omega
        have hsub' : ∀ z ∈ y :: t, z ∈ s := fun z hz => by
          rcases List.mem_cons.mp (hsub z hz) with rfl | h
          · exact absurd hz hxb
          · exact h
        rw [ih (y :: t) ha.2 hb' hsub', List.filter_cons_of_pos (by simpa using hxb)]

example : StrictSorted [1, 4, 6, 9] ∧ StrictSorted [4, 9] ∧ buildSubstractionOptimized [1, 4, 6, 9] [4, 9] = [1, 6] := by
  decide

/-- Outside of its documented precondition the optimised version differs from `buildSubstraction`. -/
theorem C13_optimized_needs_part :
    buildSubstractionOptimized [1, 2, 3] [0, 2] = [1, 2, 3] ∧ buildSubstraction [1, 2, 3] [0, 2] = [1, 3] := by decide

/-! ## C14 -/

/-- `r` lists each value of `l` once, ordered by first occurrence in `l`.  (This determines `r`.) -/
def FirstOccurrences (l r : List Int) : Prop :=
  (∀ x, x ∈ r ↔ x ∈ l) ∧ r.Pairwise fun x y => l.idxOf x < l.idxOf y

/-- Equal values are consecutive. -/
def Grouped (l : List Int) : Prop :=
  ∀ i j k : Nat, i < j → j < k → ∀ x, l[i]? = some x → l[k]? = some x → l[j]? = some x

theorem grouped_tail {a : Int} {l : List Int} (h : Grouped (a :: l)) : Grouped l := by
  intro i j k hij hjk x hi hk
  have := h (i+1) (j+1) (k+1) (by omega) (by omega) x (by simpa using hi) (by simpa using hk)
  simpa using this

theorem idxOf_cons_lt {a x y : Int} {l : List Int} (hx : x ≠ a) (hy : y ≠ a) (h : l.idxOf x < l.idxOf y) :
    (a :: l).idxOf x < (a :: l).idxOf y := by
  rw [List.idxOf_cons_ne _ (Ne.symm hx), List.idxOf_cons_ne _ (Ne.symm hy)]; omega

theorem uniqueFrom_firstOcc (a : Int) (l : List Int) (h : Grouped (a :: l)) :
    FirstOccurrences (a :: l) (a :: uniqueFrom a l) ∧ a ∉ uniqueFrom a l := by
  induction l generalizing a with
  | nil => exact ⟨⟨by simp [uniqueFrom], by simp [uniqueFrom]⟩, by simp [uniqueFrom]⟩
  | cons b l ih =>
    unfold uniqueFrom
    by_cases hab : a = b
    · subst hab
      rw [if_pos rfl]
      obtain ⟨⟨h1, h2⟩, h3⟩ := ih a (grouped_tail h)
      refine ⟨⟨fun x => ?_, ?_⟩, h3⟩
      · rw [h1]; simp
      · rw [List.pairwise_cons] at h2 ⊢
        refine ⟨fun x hx => ?_, h2.2.imp_of_mem fun {x y} hx hy hxy => ?_⟩
        · have hne : x ≠ a := fun h => h3 (h ▸ hx)
          rw [List.idxOf_cons_self, List.idxOf_cons_ne _ (Ne.symm hne)]; omega
        · exact idxOf_cons_lt (fun h => h3 (h ▸ hx)) (fun h => h3 (h ▸ hy)) hxy
    · rw [if_neg hab]
      obtain ⟨⟨h1, h2⟩, h3⟩ := ih b (grouped_tail h)
      have hal : a ∉ b :: l := by
        intro ha
        obtain ⟨k, hk⟩ := List.mem_iff_getElem?.mp ha
        have hk0 : k ≠ 0 := by
          rintro rfl; simp at hk; exact hab hk.symm
        have := h 0 1 (k+1) (by omega) (by omega) a (by simp) (by simpa using hk)
        simp at this
        exact hab this.symm
      have hau : a ∉ b :: uniqueFrom b l := fun ha => hal ((h1 a).mp ha)
      refine ⟨⟨fun x => ?_, ?_⟩, hau⟩
      · rw [List.mem_cons, h1, List.mem_cons (l := b :: l)]
      · rw [List.pairwise_cons]
        refine ⟨fun x hx => ?_, h2.imp_of_mem fun {x y} hx hy hxy => ?_⟩
        · have hne : x ≠ a := fun h => hau (h ▸ hx)
          rw [List.idxOf_cons_self, List.idxOf_cons_ne _ (Ne.symm hne)]; omega
        · exact idxOf_cons_lt (fun h => hau (h ▸ hx)) (fun h => hau (h ▸ hy)) hxy

/-- **C14.** `buildUnique` on an array whose equal values are consecutive. -/
theorem C14_unique (l : List Int) (h : Grouped l) : FirstOccurrences l (buildUnique l) := by
  cases l with
  | nil => exact ⟨by simp [buildUnique, stdUnique], by simp [buildUnique, stdUnique]⟩
  | cons a l => exact (uniqueFrom_firstOcc a l h).1

/-- On any array `buildUnique` keeps exactly one element per run of equal elements. -/
theorem C14_unique_runs (l : List Int) :
    ∃ cs : List Nat, cs.length = (buildUnique l).length ∧ (∀ c ∈ cs, 1 ≤ c) ∧
      l = (((buildUnique l).zip cs).map fun p => List.replicate p.2 p.1).flatten ∧
      (buildUnique l).IsChain (· ≠ ·) := by
  cases l with
  | nil => exact ⟨[], by simp [buildUnique, stdUnique]⟩
  | cons a l =>
    show ∃ cs : List Nat, cs.length = (a :: uniqueFrom a l).length ∧ (∀ c ∈ cs, 1 ≤ c) ∧
      a :: l = (((a :: uniqueFrom a l).zip cs).map fun p => List.replicate p.2 p.1).flatten ∧
      (a :: uniqueFrom a l).IsChain (· ≠ ·)
    induction l generalizing a with
    | nil => exact ⟨[1], by simp [uniqueFrom]⟩
    | cons b l ih =>
      unfold uniqueFrom
      by_cases hab : a = b
      · subst hab
        rw [if_pos rfl]
        obtain ⟨cs, h1, h2, h3, h4⟩ := ih a
        cases cs with
        | nil => simp at h1
        | cons c cs =>
          refine ⟨(c + 1) :: cs, by simpa using h1, ?_, ?_, h4⟩
          · intro d hd
            rcases List.mem_cons.mp hd with rfl | hd
            · omega
            · exact h2 d (List.mem_cons_of_mem _ hd)
          · simp only [List.zip_cons_cons, List.map_cons, List.flatten_cons, List.replicate_succ, List.cons_append]
            congr 1
      · rw [if_neg hab]
        obtain ⟨cs, h1, h2, h3, h4⟩ := ih b
        refine ⟨1 :: cs, by simpa using h1, ?_, ?_, ?_⟩
        · intro d hd
          rcases List.mem_cons.mp hd with rfl | hd
          · omega
          · exact h2 d hd
        · simp only [List.zip_cons_cons, List.map_cons, List.flatten_cons, List.replicate_one, List.cons_append,
            List.nil_append]
          rw [← h3]
        · exact List.isChain_cons_cons.mpr ⟨hab, h4⟩

example : buildUnique [1, 2, 2, 3, 3, 1] = [1, 2, 3, 1] := by decide

/-- **C14.** `buildUniqueNotSorted`: for a non empty array whose value span fits in the element type. -/
theorem C14_unique_not_sorted (tmax : Int) (l : List Int) (hne : l ≠ [])
    (hrange : ∀ v ∈ l, -tmax ≤ v ∧ v ≤ tmax) (hspan : ∀ v ∈ l, ∀ w ∈ l, v - w + 1 ≤ tmax) :
    ∃ r, buildUniqueNotSorted tmax l = .ok r ∧ FirstOccurrences l r := by
  -- the min/max loop
  have mm : ∀ (s : List Int) (a b : Int), (∀ v ∈ s, -tmax ≤ v ∧ v ≤ tmax) →
      let p := s.foldl (fun mm v => (if v < mm.1 then v else mm.1, if v > mm.2 then v else mm.2)) (a, b)
      (p.1 ≤ a ∧ b ≤ p.2 ∧ (∀ v ∈ s, p.1 ≤ v ∧ v ≤ p.2) ∧ (p.1 = a ∨ p.1 ∈ s) ∧ (p.2 = b ∨ p.2 ∈ s)) := by
    intro s
    induction s with
    | nil => intro a b _; simp
    | cons x s ih =>
      intro a b hs
      have hx := hs x (by simp)
      have := ih (if x < a then x else a) (if x > b then x else b) (fun v hv => hs v (List.mem_cons_of_mem _ hv))
      simp only [List.foldl_cons] at this ⊢
      obtain ⟨h1, h2, h3, h4, h5⟩ := this
      have e1 : (if x < a then x else a) ≤ a ∧ (if x < a then x else a) ≤ x := by split <;> omega
      have e2 : b ≤ (if x > b then x else b) ∧ x ≤ (if x > b then x else b) := by split <;> omega
      refine ⟨by omega, by omega, ?_, ?_, ?_⟩
      · intro v hv
        rcases List.mem_cons.mp hv with rfl | hv
        · omega
        · exact h3 v hv
      · rcases h4 with h4 | h4
        · by_cases hxa : x < a
          · rw [if_pos hxa] at h4; right; rw [List.mem_cons]; left
            simp only [if_pos hxa]; exact h4
          · rw [if_neg hxa] at h4; left
            simp only [if_neg hxa]; exact h4
        · right; exact List.mem_cons_of_mem _ h4
      · rcases h5 with h5 | h5
        · by_cases hxa : x > b
          · rw [if_pos hxa] at h5; right; rw [List.mem_cons]; left
            simp only [if_pos hxa]; exact h5
          · rw [if_neg hxa] at h5; left
            simp only [if_neg hxa]; exact h5
        · right; exact List.mem_cons_of_mem _ h5
  have hmm := mm l tmax (-tmax) hrange
  change (getMinMaxValues tmax l).1 ≤ tmax ∧ -tmax ≤ (getMinMaxValues tmax l).2 ∧
    (∀ v ∈ l, (getMinMaxValues tmax l).1 ≤ v ∧ v ≤ (getMinMaxValues tmax l).2) ∧
    ((getMinMaxValues tmax l).1 = tmax ∨ (getMinMaxValues tmax l).1 ∈ l) ∧
    ((getMinMaxValues tmax l).2 = -tmax ∨ (getMinMaxValues tmax l).2 ∈ l) at hmm
  obtain ⟨lo, hi⟩ : ∃ p, p = getMinMaxValues tmax l := ⟨_, rfl⟩
  unfold buildUniqueNotSorted
  simp only
  generalize getMinMaxValues tmax l = mmv at hmm
  clear hi lo mm
  obtain ⟨lo, hi⟩ := mmv
  simp only at hmm ⊢
  obtain ⟨x0, hx0⟩ := List.exists_mem_of_ne_nil l hne
  obtain ⟨g1, g2, g3, g4, g5⟩ := hmm
  have hlo : lo ∈ l := by
    rcases g4 with h | h
    · have := g3 x0 hx0; have := hrange x0 hx0
      have : x0 = lo := by omega
      rw [← this]; exact hx0
    · exact h
  have hhi : hi ∈ l := by
    rcases g5 with h | h
    · have := g3 x0 hx0; have := hrange x0 hx0
      have : x0 = hi := by omega
      rw [← this]; exact hx0
    · exact h
  have hspan' := hspan hi hhi lo hlo
  have hle := (g3 x0 hx0)
  rw [if_neg (by omega), if_neg (by omega)]
  apply wp_exists
  rw [wp_bind]
  refine wp_mono (wp_foldlM (E := False) (fun pre st => st.1.length = (hi - lo + 1).toNat ∧
    (∀ i : Nat, i < (hi - lo + 1).toNat → st.1[i]? = some (decide (lo + i ∈ pre))) ∧ FirstOccurrences pre st.2) ?_ ?_)
    (fun st h => show FirstOccurrences l st.2 from h.2.2) id
  · exact ⟨by simp, fun i hi => by simp [hi], by simp [FirstOccurrences]⟩
  · rintro pre x suf hl ⟨bs, o⟩ ⟨h1, h2, h3, h4⟩
    simp only at h1 h2 h3 h4 ⊢
    have hx := g3 x (by rw [hl]; simp)
    unfold uniqueNotSortedStep
    have hget := h2 (x - lo).toNat (by omega)
    rw [show lo + ((x - lo).toNat : Int) = x by omega] at hget
    rw [wp_bind]
    apply wp_rd' (by omega) hget
    have keep : ∀ i : Nat, lo + i ∈ pre ++ [x] ↔ (lo + i ∈ pre ∨ lo + i = x) := by simp
    by_cases hxp : x ∈ pre
    · simp only [hxp, decide_true, Bool.not_true, Bool.false_eq_true, if_false]
      rw [wp_ok]
      refine ⟨h1, fun i hi => ?_, ?_, ?_⟩
      · rw [h2 i hi]
        congr 1
        rw [decide_eq_decide, keep]
        constructor
        · exact Or.inl
        · rintro (h | h)
          · exact h
          · rw [h]; exact hxp
      · intro y; rw [h3 y]; simp
        rintro rfl; exact hxp
      · refine h4.imp_of_mem fun {y z} hy hz hyz => ?_
        rw [List.idxOf_append_of_mem ((h3 y).mp hy), List.idxOf_append_of_mem ((h3 z).mp hz)]; exact hyz
    · simp only [hxp, decide_false, Bool.not_false, if_true]
      rw [wp_bind]
      apply wp_wr (by omega) (by omega)
      rw [wp_ok]
      refine ⟨by simp [h1], fun i hi => ?_, ?_, ?_⟩
      · by_cases hix : lo + i = x
        · have : (x - lo).toNat = i := by omega
          rw [this]; simp [h1, hi, hix]
        · rw [List.getElem?_set_ne (by omega), h2 i hi]
          congr 1
          rw [decide_eq_decide, keep]
          simp [hix]
      · intro y; simp [h3 y]
      · rw [List.pairwise_append]
        refine ⟨?_, by simp, ?_⟩
        · refine h4.imp_of_mem fun {y z} hy hz hyz => ?_
          rw [List.idxOf_append_of_mem ((h3 y).mp hy), List.idxOf_append_of_mem ((h3 z).mp hz)]; exact hyz
        · intro y hy z hz
          simp at hz; subst hz
          have hyp := (h3 y).mp hy
          rw [List.idxOf_append_of_mem hyp, List.idxOf_append_of_notMem hxp]
          have := List.idxOf_lt_length_of_mem hyp
          omega

example : buildUniqueNotSorted 127 [5, -3, 5, 7, -3] = .ok [5, -3, 7] := by decide

/-- Finding: on an empty array the computation of the span overflows (for every integer type), undefined behaviour. -/
theorem C14_unique_not_sorted_empty (tmax : Int) (h : 1 < tmax) : buildUniqueNotSorted tmax [] = .error .ub := by
  have e : getMinMaxValues tmax [] = (tmax, -tmax) := rfl
  unfold buildUniqueNotSorted
  exact if_pos (by rw [e]; simp only; omega)

/-- **C14.** `getDifferentValues` is the strictly increasing list of the values; `hasUniqueValues` tells whether
all values are distinct. -/
theorem C14_different_values (l : List Int) :
    StrictSorted (getDifferentValues l) ∧ ∀ x, x ∈ getDifferentValues l ↔ x ∈ l := by
  refine ⟨sorted_setInsertAll List.Pairwise.nil, fun x => ?_⟩
  unfold getDifferentValues
  rw [mem_setInsertAll]; simp

theorem C14_has_unique_values (l : List Int) : hasUniqueValues l = true ↔ l.Nodup := by
  obtain ⟨h1, h2⟩ := C14_different_values l
  unfold hasUniqueValues
  rw [decide_eq_true_eq]
  change (getDifferentValues l).length = l.length ↔ _
  constructor
  · intro h
    have hsub : (getDifferentValues l).Subperm l := List.subperm_of_subset h1.nodup fun x hx => (h2 x).mp hx
    have hp : (getDifferentValues l).Perm l := hsub.perm_of_length_le (by omega)
    exact hp.nodup_iff.mp h1.nodup
  · intro h
    exact ((List.perm_ext_iff_of_nodup h1.nodup h).mpr h2).length_eq

example : getDifferentValues [4, 1, 4] = [1, 4] ∧ hasUniqueValues [4, 1, 4] = false ∧ hasUniqueValues [4, 1] = true := by
  decide

end MC
