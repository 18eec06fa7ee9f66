import Verif.PermsProps

/-! # C09 (with duplicates) and C22 (partition by value, runs) – theorems -/

namespace MC

/-! ## C09: `FindPermutationFromFirstToSecondDuplicate` -/

theorem occ_snoc (l : List Int) (x : Int) :
    occurenceRankInThis (l ++ [x]) = occurenceRankInThis l ++ [(l.count x : Int)] := by
  apply List.ext_getElem?
  intro i
  obtain ⟨h1, h2⟩ := C22_occurrence_rank (l ++ [x])
  obtain ⟨h3, h4⟩ := C22_occurrence_rank l
  by_cases hi : i < l.length
  · rw [List.getElem?_append_left (by omega), h4 i l[i] (by simp),
      h2 i l[i] (by rw [List.getElem?_append_left hi]; simp), List.take_append_of_le_length (by omega)]
  · by_cases hi' : i = l.length
    · subst hi'
      rw [h2 l.length x (by simp), List.getElem?_append_right (by omega)]
      simp [h3]
    · rw [List.getElem?_eq_none (by simp [h1]; omega), List.getElem?_eq_none (by simp [h3]; omega)]

theorem occPosMap_snoc (b : List Int) (x : Int) :
    occPosMap (b ++ [x]) = mapSet (occPosMap b) (toLex (x, (b.count x : Int))) b.length := by
  unfold occPosMap
  rw [occ_snoc, List.zip_append (by rw [(C22_occurrence_rank b).1])]
  simp [List.zipIdx_append, (C22_occurrence_rank b).1]

theorem occPosMap_find (b : List Int) (v c p : Int) :
    mapFind (occPosMap b) (toLex (v, c)) = some p ↔
      ∃ k : Nat, p = k ∧ b[k]? = some v ∧ c = ((b.take k).count v : Int) := by
  induction b using List.reverseRecOn generalizing p with
  | nil => simp [occPosMap, occurenceRankInThis, mapFind]
  | append_singleton b x ih =>
    rw [occPosMap_snoc, mapFind_set]
    split
    · rename_i h
      have h := toLex.injective h
      simp only [Prod.mk.injEq] at h
      obtain ⟨rfl, rfl⟩ := h
      constructor
      · intro he
        simp at he
        exact ⟨b.length, he.symm, by simp, by simp⟩
      · rintro ⟨k, rfl, h1, h2⟩
        congr 1
        by_cases hk : k < b.length
        · exfalso
          rw [List.getElem?_append_left hk] at h1
          rw [List.take_append_of_le_length (by omega)] at h2
          have h3 : (b.take (k+1)).count v ≤ b.count v := (List.take_sublist _ _).count_le _
          rw [List.take_succ_eq_append_getElem hk, List.count_append, (List.getElem?_eq_some_iff.mp h1).2] at h3
          simp at h3
          omega
        · have := (List.getElem?_eq_some_iff.mp h1).1
          simp at this
          have : k = b.length := by omega
          rw [this]
    · rename_i h
      rw [ih]
      constructor
      · rintro ⟨k, rfl, h1, h2⟩
        have hk := (List.getElem?_eq_some_iff.mp h1).1
        exact ⟨k, rfl, by rw [List.getElem?_append_left hk]; exact h1, by rw [List.take_append_of_le_length (by omega)]; exact h2⟩
      · rintro ⟨k, rfl, h1, h2⟩
        by_cases hk : k < b.length
        · rw [List.getElem?_append_left hk] at h1
          rw [List.take_append_of_le_length (by omega)] at h2
          exact ⟨k, rfl, h1, h2⟩
        · exfalso
          have := (List.getElem?_eq_some_iff.mp h1).1
          simp at this
          have hk' : k = b.length := by omega
          subst hk'
          simp at h1 h2
          apply h
          rw [h1, h2]

theorem exists_occ (b : List Int) (v : Int) (c : Nat) (h : c < b.count v) :
    ∃ k : Nat, b[k]? = some v ∧ (b.take k).count v = c := by
  induction b using List.reverseRecOn with
  | nil => simp at h
  | append_singleton b x ih =>
    by_cases hc : c < b.count v
    · obtain ⟨k, h1, h2⟩ := ih hc
      have hk := (List.getElem?_eq_some_iff.mp h1).1
      exact ⟨k, by rw [List.getElem?_append_left hk]; exact h1, by rw [List.take_append_of_le_length (by omega)]; exact h2⟩
    · rw [List.count_append, List.count_singleton] at h
      by_cases hx : x = v
      · subst hx
        simp at h
        exact ⟨b.length, by simp, by simp; omega⟩
      · simp [hx] at h; omega

theorem count_take_lt {l : List Int} {v : Int} {i j : Nat} (hi : l[i]? = some v) (hij : i < j) :
    (l.take i).count v < (l.take j).count v := by
  obtain ⟨hil, he⟩ := List.getElem?_eq_some_iff.mp hi
  have : (l.take (i+1)).count v ≤ (l.take j).count v := by
    apply List.Sublist.count_le
    have : l.take (i+1) = (l.take j).take (i+1) := by rw [List.take_take, min_eq_left (by omega)]
    rw [this]; exact List.take_sublist _ _
  rw [List.take_succ_eq_append_getElem hil, List.count_append, he] at this
  simp at this; omega

theorem findPermDup_wp (a b : List Int) (E : Prop)
    (hE : (∃ i : Nat, ∃ v, a[i]? = some v ∧ ∀ k : Nat, b[k]? = some v → (b.take k).count v ≠ (a.take i).count v) → E) :
    wp (a.foldlM (findPermDupStep (occPosMap b)) ([], []))
      (fun st => st.2.length = a.length ∧ ∀ i : Nat, ∀ v, a[i]? = some v →
        ∃ k : Nat, st.2[i]? = some (k : Int) ∧ b[k]? = some v ∧ (b.take k).count v = (a.take i).count v) E := by
  refine wp_mono (wp_foldlM (E := E) (fun pre st =>
      (∀ v, mapFind st.1 v = if v ∈ pre then some (pre.count v : Int) else none) ∧
      st.2.length = pre.length ∧ ∀ i : Nat, ∀ v, pre[i]? = some v →
        ∃ k : Nat, st.2[i]? = some (k : Int) ∧ b[k]? = some v ∧ (b.take k).count v = (pre.take i).count v) ?_ ?_)
    (fun st h => h.2) id
  · simp [mapFind]
  · rintro pre x suf hl ⟨m, o⟩ ⟨h1, h2, h3⟩
    simp only at h1 h2 h3
    have hx := h1 x
    have hstep : findPermDupStep (occPosMap b) (m, o) x =
        match mapFind (occPosMap b) (toLex (x, (pre.count x : Int))) with
        | some p => .ok (mapSet m x ((pre.count x : Int) + 1), o ++ [p])
        | none => throwX := by
      unfold findPermDupStep
      by_cases hxp : x ∈ pre
      · rw [if_pos hxp] at hx; simp only [hx]; rfl
      · rw [if_neg hxp] at hx; simp only [hx, List.count_eq_zero.mpr hxp]; rfl
    rw [hstep]
    cases hf : mapFind (occPosMap b) (toLex (x, (pre.count x : Int))) with
    | none =>
      refine hE ⟨pre.length, x, by rw [hl]; simp, fun k hk hc => ?_⟩
      have htake : a.take pre.length = pre := by rw [hl]; simp
      rw [htake] at hc
      have := (occPosMap_find b x (pre.count x : Int) k).mpr ⟨k, rfl, hk, by rw [hc]⟩
      rw [hf] at this; simp at this
    | some p =>
      obtain ⟨k, rfl, hk1, hk2⟩ := (occPosMap_find b x _ p).mp hf
      show _ ∧ _ ∧ _
      refine ⟨fun v => ?_, by simp [h2], fun i v hv => ?_⟩
      · rw [mapFind_set]
        by_cases hv : v = x
        · subst hv; simp [List.count_append]
        · rw [if_neg hv, h1 v]
          by_cases hvp : v ∈ pre
          · simp [hvp, List.count_append, List.count_singleton, Ne.symm hv]
          · simp [hvp, hv]
      · by_cases hi : i < pre.length
        · rw [List.getElem?_append_left hi] at hv
          obtain ⟨k', e1, e2, e3⟩ := h3 i v hv
          exact ⟨k', by rw [List.getElem?_append_left (by simp only [h2]; omega)]; exact e1, e2,
            by rw [List.take_append_of_le_length (by omega)]; exact e3⟩
        · have := (List.getElem?_eq_some_iff.mp hv).1
          simp at this
          have hi' : i = pre.length := by omega
          subst hi'
          simp at hv; subst hv
          refine ⟨k, by rw [← h2]; simp, hk1, ?_⟩
          simp only [List.take_left]
          omega

/-- **C09.** `FindPermutationFromFirstToSecondDuplicate(a,b)` succeeds exactly when `b` is a rearrangement of `a`
(values may repeat); it then returns a permutation `r` with `b[r[i]] = a[i]` which preserves the order among equal
values. -/
theorem C09_find_duplicate (a b : List Int) :
    (a.Perm b → ∃ r, findPermutationDuplicate a b = .ok r ∧ IsPermArr a.length r ∧
      (∀ i : Nat, ∀ p : Int, r[i]? = some p → b[p.toNat]? = a[i]?) ∧
      (∀ i j : Nat, ∀ p q : Int, i < j → a[i]? = a[j]? → r[i]? = some p → r[j]? = some q → p < q)) ∧
    (¬ a.Perm b → findPermutationDuplicate a b = .error .exn) := by
  have post : ∀ r : List Int, r.length = a.length → a.length = b.length → (∀ i : Nat, ∀ v, a[i]? = some v →
        ∃ k : Nat, r[i]? = some (k : Int) ∧ b[k]? = some v ∧ (b.take k).count v = (a.take i).count v) →
      IsPermArr a.length r ∧ (∀ i : Nat, ∀ p : Int, r[i]? = some p → b[p.toNat]? = a[i]?) ∧
      (∀ i j : Nat, ∀ p q : Int, i < j → a[i]? = a[j]? → r[i]? = some p → r[j]? = some q → p < q) ∧ a.Perm b := by
    intro r hr hl h
    have hget : ∀ i : Nat, ∀ p : Int, r[i]? = some p → ∃ k : Nat, ∃ v, p = k ∧ a[i]? = some v ∧ b[k]? = some v ∧
        (b.take k).count v = (a.take i).count v := by
      intro i p hp
      have hi : i < a.length := by have := (List.getElem?_eq_some_iff.mp hp).1; omega
      obtain ⟨k, h1, h2, h3⟩ := h i a[i] (by simp)
      rw [hp] at h1; simp at h1
      exact ⟨k, a[i], h1, by simp, h2, h3⟩
    have hord : ∀ i j : Nat, ∀ p q : Int, i < j → a[i]? = a[j]? → r[i]? = some p → r[j]? = some q → p < q := by
      intro i j p q hij hae hp hq
      obtain ⟨k, v, rfl, h1, h2, h3⟩ := hget i p hp
      obtain ⟨k', v', rfl, h1', h2', h3'⟩ := hget j q hq
      have : v = v' := by rw [h1, h1'] at hae; simpa using hae
      subst this
      have hlt := count_take_lt h1 hij
      by_contra hge
      have : (b.take k').count v ≤ (b.take k).count v := by
        apply List.Sublist.count_le
        have : b.take k' = (b.take k).take k' := by rw [List.take_take, min_eq_left (by omega)]
        rw [this]; exact List.take_sublist _ _
      omega
    have hperm : IsPermArr a.length r := by
      refine ⟨hr, ?_, ?_⟩
      · intro p hp
        obtain ⟨i, hi⟩ := List.mem_iff_getElem?.mp hp
        obtain ⟨k, v, rfl, _, h2, _⟩ := hget i p hi
        have := (List.getElem?_eq_some_iff.mp h2).1
        omega
      · rw [List.nodup_iff_injective_getElem]
        intro ⟨i, hi⟩ ⟨j, hj⟩ he
        simp only at he
        by_contra hne
        simp at hne
        obtain ⟨k, v, e1, h1, h2, h3⟩ := hget i r[i] (by simp)
        obtain ⟨k', v', e1', h1', h2', h3'⟩ := hget j r[j] (by simp)
        have hkk : k = k' := by omega
        subst hkk
        rw [h2] at h2'; simp at h2'; subst h2'
        rcases Nat.lt_or_gt_of_ne hne with hlt | hlt
        · have := hord i j r[i] r[j] hlt (by rw [h1, h1']) (by simp) (by simp); omega
        · have := hord j i r[j] r[i] hlt (by rw [h1, h1']) (by simp) (by simp); omega
    refine ⟨hperm, ?_, hord, ?_⟩
    · intro i p hp
      obtain ⟨k, v, rfl, h1, h2, _⟩ := hget i p hp
      rw [h1]; simpa using h2
    · have e1 : a = r.map fun p => (b[p.toNat]?).getD 0 := by
        apply List.ext_getElem?
        intro i
        by_cases hi : i < a.length
        · obtain ⟨k, h1, h2, _⟩ := h i a[i] (by simp)
          rw [List.getElem?_map, h1]
          simp [h2, hi]
        · rw [List.getElem?_eq_none (by omega), List.getElem?_eq_none (by simp; omega)]
      have e2 : b = ((List.range a.length).map Int.ofNat).map fun p : Int => (b[p.toNat]?).getD 0 := by
        apply List.ext_getElem?
        intro i
        by_cases hi : i < b.length
        · simp [hi, show i < a.length by omega]
        · rw [List.getElem?_eq_none (by omega), List.getElem?_eq_none (by simp; omega)]
      have hp : r.Perm ((List.range a.length).map Int.ofNat) := hperm.perm_range
      have := hp.map fun p : Int => (b[p.toNat]?).getD 0
      rw [← e1, ← e2] at this
      exact this
  constructor
  · intro hp
    have hno : ¬ ∃ i : Nat, ∃ v, a[i]? = some v ∧ ∀ k : Nat, b[k]? = some v → (b.take k).count v ≠ (a.take i).count v := by
      rintro ⟨i, v, hi, hk⟩
      have h1 : (a.take i).count v < b.count v := by
        rw [← hp.count_eq v]
        have h3 := count_take_lt hi (show i < a.length + 1 + i by omega)
        rwa [List.take_of_length_le (i := a.length + 1 + i) (by omega)] at h3
      obtain ⟨k, h2, h3⟩ := exists_occ b v _ h1
      exact hk k h2 h3
    obtain ⟨st, hst, h1, h2⟩ := wp_exists (findPermDup_wp a b False hno)
    obtain ⟨g1, g2, g3, _⟩ := post st.2 h1 hp.length_eq h2
    refine ⟨st.2, ?_, g1, g2, g3⟩
    unfold findPermutationDuplicate
    rw [if_neg (by simpa using hp.length_eq), hst]; rfl
  · intro hp
    unfold findPermutationDuplicate
    by_cases hl : a.length = b.length
    · rw [if_neg (by simpa using hl)]
      rw [wp_throws (wp_mono (findPermDup_wp a b True fun _ => trivial) (fun st h => hp (post st.2 h.1 hl h.2).2.2.2) id)]
      rfl
    · rw [if_pos hl]; rfl

example : findPermutationDuplicate [5, 3, 2, 1, 4, 5, 2, 1, 0, 11, 5] [0, 1, 1, 2, 2, 3, 4, 5, 5, 5, 11] =
    .ok [7, 5, 3, 1, 6, 8, 4, 2, 0, 10, 9] := by decide

/-! ## C22: partition by value -/

theorem countMap_inv (l : List Int) :
    mapKeys (countMap l) = setInsertAll [] l ∧
    ∀ v, mapFind (countMap l) v = if v ∈ l then some (l.count v : Int) else none := by
  induction l using List.reverseRecOn with
  | nil => simp [countMap, mapFind, setInsertAll]
  | append_singleton l x ih =>
    obtain ⟨h1, h2⟩ := ih
    have hs : countMap (l ++ [x]) = mapSet (countMap l) x (mapAt (countMap l) 0 x + 1) := by
      simp [countMap]
    have hx : mapAt (countMap l) 0 x = (l.count x : Int) := by
      unfold mapAt
      rw [h2 x]
      by_cases hx : x ∈ l
      · simp [hx]
      · simp [hx, List.count_eq_zero.mpr hx]
    rw [hs, hx]
    refine ⟨by rw [mapKeys_set, h1]; simp [setInsertAll], fun v => ?_⟩
    rw [mapFind_set, h2 v]
    by_cases hv : v = x
    · subst hv; simp [List.count_append]
    · by_cases hvl : v ∈ l
      · simp [hv, hvl, List.count_append, List.count_singleton, Ne.symm hv]
      · simp [hv, hvl]

/-- **C22.** `partitionByDifferentValues` returns the strictly increasing list of the values and, for each of them, the
increasing list of its positions (completely filled, no out-of-bounds write). -/
theorem C22_partition (l : List Int) :
    ∃ ds : List Int, partitionByDifferentValues l = .ok (ds, ds.map fun d => (positionsOf l d).map some) ∧
      StrictSorted ds ∧ ∀ x, x ∈ ds ↔ x ∈ l := by
  obtain ⟨hk, hc⟩ := countMap_inv l
  let ds := mapKeys (countMap l)
  have hds : StrictSorted ds := by
    show StrictSorted (mapKeys (countMap l)); rw [hk]; exact sorted_setInsertAll List.Pairwise.nil
  have hmem : ∀ x, x ∈ ds ↔ x ∈ l := fun x => by
    show x ∈ mapKeys (countMap l) ↔ _; rw [hk, mem_setInsertAll]; simp
  have hsizes : (countMap l).map (fun p => mallocN Int p.2.toNat) = ds.map fun d => mallocN Int (l.count d) := by
    show _ = (mapKeys (countMap l)).map _
    rw [mapKeys, List.map_map]
    apply List.map_congr_left
    intro p hp
    have h1 := mapFind_of_mem hds (k := p.1) (v := p.2) hp
    rw [hc p.1] at h1
    split at h1
    · simp at h1; simp [← h1]
    · simp at h1
  have main : wp (l.zipIdx.foldlM (partStep (indexMap ds)) ([], ds.map fun d => mallocN Int (l.count d)))
      (fun st => st.2 = ds.map fun d => (positionsOf l d).map some) False := by
    refine wp_mono (wp_foldlM (E := False) (fun (pre : List (Int × Nat)) st =>
      (∀ v, mapAt st.1 0 v = ((pre.map Prod.fst).count v : Int)) ∧
      st.2 = ds.map fun d => (positionsOf (pre.map Prod.fst) d).map some ++
        List.replicate (l.count d - (pre.map Prod.fst).count d) none) ?_ ?_) ?_ id
    · exact ⟨by simp [mapAt, mapFind], by simp [mallocN, positionsOf]⟩
    · rintro pre ⟨x, i⟩ suf hl ⟨m, r⟩ ⟨h1, h2⟩
      simp only at h1 h2
      have hpre : (pre.map Prod.fst).length = i := by
        have := congrArg (fun t => t[pre.length]?) hl
        simp only [List.getElem?_zipIdx] at this
        simp at this
        obtain ⟨_, _, h⟩ := this
        simpa using h
      have hz : l = pre.map Prod.fst ++ x :: suf.map Prod.fst := by
        have := congrArg (List.map Prod.fst) hl
        rw [List.zipIdx_map_fst] at this
        simpa using this
      generalize hlp : pre.map Prod.fst = lp at *
      have hxl : x ∈ l := by rw [hz]; simp
      have hcx : lp.count x < l.count x := by
        rw [hz, List.count_append]; simp
      obtain ⟨k, hkx⟩ := List.mem_iff_getElem?.mp ((hmem x).mpr hxl)
      have hk' := (List.getElem?_eq_some_iff.mp hkx).1
      have hm2 : mapAt (indexMap ds) 0 x = k := by simp [mapAt, indexMap_nodup hds.nodup hkx]
      unfold partStep
      simp only
      rw [hm2, h1 x, wp_bind]
      have hrk : r[(k : Int).toNat]? = some ((positionsOf lp x).map some ++ List.replicate (l.count x - lp.count x) none) := by
        rw [Int.toNat_natCast, h2, List.getElem?_map, hkx]; simp
      apply wp_rd' (by omega) hrk
      rw [wp_bind, wr_push (by rw [positionsOf_length]) (by omega)]
      show wp (wr r k _ >>= _) _ _
      rw [wp_bind]
      apply wp_wr (by omega) (by rw [h2]; simpa using hk')
      rw [wp_ok]
      refine ⟨fun v => ?_, ?_⟩
      · simp only [mapAt, mapFind_set, List.map_append, List.map_cons, List.map_nil, hlp]
        by_cases hv : v = x
        · subst hv; simp [List.count_append]
        · rw [if_neg hv]
          have := h1 v
          simp only [mapAt] at this
          rw [this]
          simp [List.count_append, List.count_singleton, Ne.symm hv]
      · simp only [List.map_append, List.map_cons, List.map_nil, hlp]
        apply List.ext_getElem
        · simp [h2]
        · intro j hj1 hj2
          simp only [List.length_map] at hj2
          rw [List.getElem_set]
          simp only [Int.toNat_natCast, List.getElem_map]
          have hdk : ds[k] = x := (List.getElem?_eq_some_iff.mp hkx).2
          by_cases hkj : k = j
          · subst hkj
            rw [if_pos rfl, hdk, positionsOf_snoc, if_pos rfl, hpre]
            simp [List.count_append, Nat.sub_sub]
          · rw [if_neg hkj]
            have hne : x ≠ ds[j] := by
              intro he
              rw [← hdk] at he
              exact hkj ((List.Nodup.getElem_inj_iff hds.nodup).mp he)
            rw [positionsOf_snoc, if_neg hne]
            simp [h2, List.count_append, List.count_singleton, hne]
    · rintro ⟨m, r⟩ ⟨_, h2⟩
      simp only at h2 ⊢
      have hz : l.zipIdx.map Prod.fst = l := List.zipIdx_map_fst 0 l
      rw [h2, hz]
      simp
  obtain ⟨st, hst, h⟩ := wp_exists main
  refine ⟨ds, ?_, hds, hmem⟩
  unfold partitionByDifferentValues
  simp only
  rw [hsizes]
  show (do let r ← l.zipIdx.foldlM (partStep (indexMap ds)) ([], ds.map fun d => mallocN Int (l.count d)); _) = _
  rw [hst]
  show Except.ok (ds, st.2) = _
  rw [h]

example : partitionByDifferentValues [7, 2, 7, 2, 2] = .ok ([2, 7], [[some 1, some 3, some 4], [some 0, some 2]]) := by decide

/-! ## C22: maximal runs -/

theorem runEnds_spec (a : Int) (pos : Int) (l : List Int) :
    StrictSorted (runEnds a pos l) ∧ ∀ m, m ∈ runEnds a pos l ↔
      ∃ i : Nat, m = pos + i ∧ i ≤ l.length ∧ (a :: l)[i]? ≠ (a :: l)[i + 1]? := by
  induction l generalizing a pos with
  | nil =>
    refine ⟨by simp [runEnds], fun m => ?_⟩
    simp only [runEnds, List.mem_singleton, List.length_nil]
    constructor
    · rintro rfl; exact ⟨0, by simp, by simp, by simp⟩
    · rintro ⟨i, rfl, h, _⟩; simp at h; simp [h]
  | cons b l ih =>
    unfold runEnds
    by_cases hab : a = b
    · subst hab
      rw [if_neg (by simp)]
      obtain ⟨h1, h2⟩ := ih a (pos + 1)
      refine ⟨h1, fun m => ?_⟩
      rw [h2]
      constructor
      · rintro ⟨i, rfl, h3, h4⟩
        refine ⟨i + 1, by push_cast; omega, by simp; omega, ?_⟩
        simpa using h4
      · rintro ⟨i, rfl, h3, h4⟩
        cases i with
        | zero => simp at h4
        | succ i =>
          refine ⟨i, by push_cast; omega, by simp at h3; omega, ?_⟩
          simpa using h4
    · rw [if_pos hab]
      obtain ⟨h1, h2⟩ := ih b (pos + 1)
      refine ⟨?_, fun m => ?_⟩
      · rw [StrictSorted, List.pairwise_cons]
        refine ⟨fun m hm => ?_, h1⟩
        obtain ⟨i, rfl, _⟩ := (h2 m).mp hm
        omega
      · rw [List.mem_cons, h2]
        constructor
        · rintro (rfl | ⟨i, rfl, h3, h4⟩)
          · exact ⟨0, by simp, by simp, by simpa using hab⟩
          · refine ⟨i + 1, by push_cast; omega, by simp; omega, ?_⟩
            simpa using h4
        · rintro ⟨i, rfl, h3, h4⟩
          cases i with
          | zero => left; simp
          | succ i =>
            right
            refine ⟨i, by push_cast; omega, by simp at h3; omega, ?_⟩
            simpa using h4

/-- **C22.** `indexOfSameConsecutiveValueGroups` is the strictly increasing list of the boundaries of the maximal runs of
equal values: 0, the size, and every position whose value differs from the previous one. -/
theorem C22_runs (l : List Int) :
    StrictSorted (indexOfSameConsecutiveValueGroups l) ∧
    ∀ m, m ∈ indexOfSameConsecutiveValueGroups l ↔
      ∃ i : Nat, m = i ∧ i ≤ l.length ∧ (i = 0 ∨ l[i - 1]? ≠ l[i]?) := by
  cases l with
  | nil =>
    refine ⟨by simp [indexOfSameConsecutiveValueGroups], fun m => ?_⟩
    simp [indexOfSameConsecutiveValueGroups]
  | cons a l =>
    obtain ⟨h1, h2⟩ := runEnds_spec a 1 l
    unfold indexOfSameConsecutiveValueGroups
    refine ⟨?_, fun m => ?_⟩
    · rw [StrictSorted, List.pairwise_cons]
      refine ⟨fun m hm => ?_, h1⟩
      obtain ⟨i, rfl, _⟩ := (h2 m).mp hm
      omega
    · rw [List.mem_cons, h2]
      constructor
      · rintro (rfl | ⟨i, rfl, h3, h4⟩)
        · exact ⟨0, by simp, by simp, Or.inl rfl⟩
        · exact ⟨i + 1, by push_cast; omega, by simp; omega, Or.inr (by simpa using h4)⟩
      · rintro ⟨i, rfl, h3, h4⟩
        cases i with
        | zero => left; simp
        | succ i =>
          right
          refine ⟨i, by push_cast; omega, by simp at h3; omega, ?_⟩
          rcases h4 with h4 | h4
          · omega
          · simpa using h4

example : indexOfSameConsecutiveValueGroups [3, 3, 1, 1, 1, 3] = [0, 2, 5, 6] := by decide

end MC
