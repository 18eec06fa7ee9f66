import Verif.Perms
import Verif.RenumberProps
import Verif.SetAlgProps
import Verif.Sky

/-! # C09, C10, C11, C22, C24 – theorems -/

namespace MC

/-! ## Lemmas -/

theorem indexMap_snoc (l : List Int) (x : Int) : indexMap (l ++ [x]) = mapSet (indexMap l) x l.length := by
  simp [indexMap, List.zipIdx_append]

theorem indexMap_keys (l : List Int) : mapKeys (indexMap l) = setInsertAll [] l := by
  induction l using List.reverseRecOn with
  | nil => rfl
  | append_singleton l x ih =>
    rw [indexMap_snoc, mapKeys_set, ih]; simp [setInsertAll]

theorem indexMap_none {l : List Int} {v : Int} : mapFind (indexMap l) v = none ↔ v ∉ l := by
  rw [mapFind_eq_none, indexMap_keys, mem_setInsertAll]; simp

theorem indexMap_some {l : List Int} {v i : Int} (h : mapFind (indexMap l) v = some i) :
    ∃ k : Nat, i = k ∧ l[k]? = some v ∧ ∀ j, k < j → l[j]? ≠ some v := by
  induction l using List.reverseRecOn with
  | nil => simp [indexMap, mapFind] at h
  | append_singleton l x ih =>
    rw [indexMap_snoc, mapFind_set] at h
    split at h
    · rename_i hv; subst hv
      simp at h; subst h
      refine ⟨l.length, rfl, by simp, fun j hj => ?_⟩
      rw [List.getElem?_eq_none (by simp; omega)]; simp
    · rename_i hv
      obtain ⟨k, h1, h2, h3⟩ := ih h
      have hk := (List.getElem?_eq_some_iff.mp h2).1
      refine ⟨k, h1, by rw [List.getElem?_append_left hk]; exact h2, fun j hj => ?_⟩
      by_cases hjl : j < l.length
      · rw [List.getElem?_append_left hjl]; exact h3 j hj
      · rw [List.getElem?_append_right (by omega)]
        intro hx
        obtain ⟨hh, he⟩ := List.getElem?_eq_some_iff.mp hx
        simp at he; exact hv he.symm

/-- With distinct values the map gives the position. -/
theorem indexMap_nodup {l : List Int} (hn : l.Nodup) {k : Nat} {v : Int} (h : l[k]? = some v) :
    mapFind (indexMap l) v = some (k : Int) := by
  cases hf : mapFind (indexMap l) v with
  | none => exact absurd (List.mem_of_getElem? h) (indexMap_none.mp hf)
  | some i =>
    obtain ⟨k', h1, h2, _⟩ := indexMap_some hf
    obtain ⟨hk, e⟩ := List.getElem?_eq_some_iff.mp h
    obtain ⟨hk', e'⟩ := List.getElem?_eq_some_iff.mp h2
    have := (List.Nodup.getElem_inj_iff hn).mp (e.trans e'.symm)
    subst this; rw [h1]

theorem forall₂_get {α β : Type} {R : α → β → Prop} {l : List α} {r : List β} (h : List.Forall₂ R l r) :
    r.length = l.length ∧ ∀ (i : Nat) x y, l[i]? = some x → r[i]? = some y → R x y := by
  refine ⟨h.length_eq.symm, ?_⟩
  induction h with
  | nil => simp
  | cons h1 h2 ih =>
    intro i x y hx hy
    cases i with
    | zero => simp at hx hy; subst hx; subst hy; exact h1
    | succ i => exact ih i x y (by simpa using hx) (by simpa using hy)

theorem selectSafe1_eq {α : Type} (l : List α) (ids : List Int) :
    selectByTupleIdSafe ⟨l.length, 1, l, by simp⟩ ids = (selectSafe1 l ids).map (·.map some) := by
  have main : ∀ E : Prop, (¬ AllIn l.length ids → E) → wp (selectSafe1 l ids)
      (List.Forall₂ (fun (v : Int) x => (0 ≤ v ∧ v < l.length) ∧ l[v.toNat]? = some x) ids) E := by
    intro E hE
    unfold selectSafe1
    apply wp_mapM
    intro v hv
    by_cases h : 0 ≤ v ∧ v < l.length
    · rw [if_pos h]
      exact wp_rd h.1 (by omega) ⟨h, by simp⟩
    · rw [if_neg h]; exact hE fun ha => h (ha v hv)
  by_cases ha : AllIn l.length ids
  · obtain ⟨r, hr, hg1, hg2⟩ := (C08_selectSafe ⟨l.length, 1, l, by simp⟩ ids).1 ha
    obtain ⟨s, hs, hf⟩ := wp_exists (main False fun h => h ha)
    obtain ⟨hl, hget⟩ := forall₂_get hf
    rw [hr, hs]
    show _ = Except.ok (s.map some)
    congr 1
    apply List.ext_getElem?
    intro i
    simp at hg1
    by_cases hi : i < ids.length
    · have h1 := hg2 i hi
      have h2 := hget i ids[i] s[i] (by simp) (by simp)
      have h3 := congrArg (fun t => t[0]?) h1
      simp only [tup_getElem?, List.getElem?_map, Nat.one_pos, if_true, Nat.mul_one, Nat.add_zero] at h3
      rw [h3, h2.2]; simp [hi, hl]
    · rw [List.getElem?_eq_none (by omega), List.getElem?_eq_none (by simp; omega)]
  · rw [(C08_selectSafe ⟨l.length, 1, l, by simp⟩ ids).2 ha]
    rw [wp_throws (wp_mono (main True fun _ => trivial) (fun r hr => ha ?_) id)]
    · rfl
    · intro v hv
      obtain ⟨i, hi, rfl⟩ := List.mem_iff_getElem.mp hv
      obtain ⟨hl, hget⟩ := forall₂_get hr
      exact (hget i ids[i] r[i] (by simp) (by simp)).1

/-- Strictly sorted lists are strictly increasing functions of the position. -/
theorem strictSorted_lt_iff {s : List Int} (h : StrictSorted s) {i j : Nat} {x y : Int}
    (hi : s[i]? = some x) (hj : s[j]? = some y) : x < y ↔ i < j := by
  obtain ⟨hi', rfl⟩ := List.getElem?_eq_some_iff.mp hi
  obtain ⟨hj', rfl⟩ := List.getElem?_eq_some_iff.mp hj
  rw [StrictSorted, List.pairwise_iff_getElem] at h
  constructor
  · intro hlt
    by_contra hge
    rcases Nat.lt_or_eq_of_le (not_lt.mp hge) with h1 | h1
    · have := h j i hj' hi' h1; omega
    · subst h1; omega
  · exact fun hlt => h i j hi' hj' hlt

/-! ## C09 -/

/-- **C09.** With pairwise distinct values `checkAndPreparePermutation` returns a permutation which ranks the values
(so it is the old-to-new array of the sort); it throws exactly when two values are equal. -/
theorem C09_rank (l : List Int) :
    (l.Nodup → ∃ r, checkAndPreparePermutation l = .ok r ∧ IsPermArr l.length r ∧
      (∀ i j : Nat, ∀ x y p q : Int, l[i]? = some x → l[j]? = some y → r[i]? = some p → r[j]? = some q →
        (x < y ↔ p < q)) ∧
      ∀ i : Nat, ∀ x p : Int, l[i]? = some x → r[i]? = some p → (stdSort l)[p.toNat]? = some x) ∧
    (¬ l.Nodup → checkAndPreparePermutation l = .error .exn) := by
  have hn' : ((stdUnique (stdSort l)).length = (stdSort l).length ↔ l.Nodup) := by
    rw [stdUnique_length_eq_iff (stdSort_sorted l)]; exact (stdSort_perm l).nodup_iff
  constructor
  · intro hn
    have hsn : (stdSort l).Nodup := (stdSort_perm l).nodup_iff.mpr hn
    have hss : StrictSorted (stdSort l) :=
      ((stdSort_sorted l).and hsn).imp fun ⟨h1, h2⟩ => lt_of_le_of_ne h1 h2
    have hget : ∀ x ∈ l, ∃ k : Nat, k < l.length ∧ (stdSort l)[k]? = some x ∧ mapAt (indexMap (stdSort l)) 0 x = k := by
      intro x hx
      obtain ⟨k, hk⟩ := List.mem_iff_getElem?.mp (mem_stdSort.mpr hx)
      refine ⟨k, ?_, hk, ?_⟩
      · have := (List.getElem?_eq_some_iff.mp hk).1; simpa using this
      · simp [mapAt, indexMap_nodup hsn hk]
    have hr : ∀ i : Nat, ∀ x p : Int, l[i]? = some x → (l.map (mapAt (indexMap (stdSort l)) 0))[i]? = some p →
        ∃ k : Nat, k < l.length ∧ (stdSort l)[k]? = some x ∧ p = k := by
      intro i x p hx hp
      rw [List.getElem?_map, hx] at hp
      simp at hp
      obtain ⟨k, h1, h2, h3⟩ := hget x (List.mem_of_getElem? hx)
      exact ⟨k, h1, h2, by rw [← hp, h3]⟩
    refine ⟨l.map (mapAt (indexMap (stdSort l)) 0), ?_, ⟨by simp, ?_, ?_⟩, ?_, ?_⟩
    · unfold checkAndPreparePermutation
      simp only
      rw [if_neg (by simpa using hn'.mpr hn)]
    · intro v hv
      obtain ⟨x, hx, rfl⟩ := List.mem_map.mp hv
      obtain ⟨k, h1, _, h3⟩ := hget x hx
      rw [h3]; omega
    · refine List.Nodup.map_on ?_ hn
      intro x hx y hy hxy
      obtain ⟨k, h1, h2, h3⟩ := hget x hx
      obtain ⟨k', h1', h2', h3'⟩ := hget y hy
      have : k = k' := by omega
      subst this
      rw [h2] at h2'; simpa using h2'
    · intro i j x y p q hx hy hp hq
      obtain ⟨k, h1, h2, h3⟩ := hr i x p hx hp
      obtain ⟨k', h1', h2', h3'⟩ := hr j y q hy hq
      rw [strictSorted_lt_iff hss h2 h2']; omega
    · intro i x p hx hp
      obtain ⟨k, h1, h2, h3⟩ := hr i x p hx hp
      rw [h3]; simpa using h2
  · intro hn
    unfold checkAndPreparePermutation
    simp only
    rw [if_pos (by simpa using mt hn'.mp hn)]; rfl

example : checkAndPreparePermutation [10, -3, 7] = .ok [2, 0, 1] ∧ checkAndPreparePermutation [1, 2, 1] = .error .exn := by
  decide

theorem stdSort_eq_iff {a b : List Int} : stdSort a = stdSort b ↔ a.Perm b := by
  constructor
  · intro h
    exact (stdSort_perm a).symm.trans (h ▸ stdSort_perm b)
  · intro h
    have hp : (stdSort a).Perm (stdSort b) := (stdSort_perm a).trans (h.trans (stdSort_perm b).symm)
    exact hp.eq_of_pairwise (fun x y _ _ h1 h2 => le_antisymm h1 h2) (stdSort_sorted a) (stdSort_sorted b)

/-- **C09.** `FindPermutationFromFirstToSecond(a,b)`: if the arrays have the same distinct values it returns the
(completely defined) permutation `r` with `b[r[i]] = a[i]`; in every other case it throws. -/
theorem C09_find (a b : List Int) :
    (a.Perm b ∧ a.Nodup → ∃ r : List Int, findPermutationFromFirstToSecond a b = .ok (r.map some) ∧
      IsPermArr a.length r ∧ ∀ i : Nat, ∀ p : Int, r[i]? = some p → b[p.toNat]? = a[i]?) ∧
    (¬ (a.Perm b ∧ a.Nodup) → findPermutationFromFirstToSecond a b = .error .exn) := by
  constructor
  · rintro ⟨hp, hn⟩
    have hnb : b.Nodup := hp.nodup_iff.mp hn
    have hlen := hp.length_eq
    obtain ⟨p1, e1, hp1, _, hs1⟩ := (C09_rank a).1 hn
    obtain ⟨p2, e2, hp2, _, hs2⟩ := (C09_rank b).1 hnb
    obtain ⟨q, e3, hq, hiff⟩ := C07_inverse b.length p2 hp2
    have hsort := stdSort_eq_iff.mpr hp
    have hsel : wp (selectSafe1 (q.map some) p1)
        (List.Forall₂ (fun (v : Int) x => (0 ≤ v ∧ v < (q.map some).length) ∧ (q.map some)[v.toNat]? = some x) p1) False := by
      unfold selectSafe1
      apply wp_mapM
      intro v hv
      have h1 := hp1.2.1 v hv
      have h : 0 ≤ v ∧ v < (q.map some).length := by
        rw [List.length_map, hq.1]; omega
      rw [if_pos h]
      exact wp_rd h.1 (by omega) ⟨h, by simp⟩
    obtain ⟨s, hs, hf⟩ := wp_exists hsel
    obtain ⟨hsl, hget⟩ := forall₂_get hf
    let r : List Int := p1.map fun v => (q[v.toNat]?).getD 0
    have hrs : s = r.map some := by
      apply List.ext_getElem?
      intro i
      by_cases hi : i < p1.length
      · have h1 := (hget i p1[i] s[i] (by simp) (by simp)).2
        have h2 := hp1.2.1 _ (List.getElem_mem hi)
        have h3 : p1[i].toNat < q.length := by rw [hq.1]; omega
        rw [List.getElem?_map, List.getElem?_eq_getElem h3] at h1
        simp only [Option.map_some, Option.some.injEq] at h1
        rw [List.getElem?_eq_getElem (by omega), ← h1]
        simp [r, hi, h3]
      · rw [List.getElem?_eq_none (by omega), List.getElem?_eq_none (by simp [r]; omega)]
    have hrget : ∀ i : Nat, ∀ p : Int, r[i]? = some p → ∃ k j : Nat, p1[i]? = some (k : Int) ∧ q[k]? = some (j : Int) ∧
        p = j ∧ j < b.length := by
      intro i p hp
      simp only [r, List.getElem?_map] at hp
      cases hpi : p1[i]? with
      | none => rw [hpi] at hp; simp at hp
      | some v =>
        rw [hpi] at hp
        simp at hp
        have h2 := hp1.2.1 v (List.mem_of_getElem? hpi)
        have h3 : v.toNat < q.length := by rw [hq.1]; omega
        have h4 := hq.2.1 _ (List.getElem_mem h3)
        rw [List.getElem?_eq_getElem h3] at hp
        simp at hp
        refine ⟨v.toNat, p.toNat, ?_, ?_, ?_, ?_⟩
        · congr 1; omega
        · rw [List.getElem?_eq_getElem h3, hp]; congr 1; omega
        · omega
        · omega
    have hmain : ∀ i : Nat, ∀ p : Int, r[i]? = some p → b[p.toNat]? = a[i]? := by
      intro i p hp
      obtain ⟨k, j, h1, h2, h3, h4⟩ := hrget i p hp
      have h5 := (hiff j k).mpr h2
      have hia : i < a.length := by
        have := (List.getElem?_eq_some_iff.mp h1).1; rw [hp1.1] at this; exact this
      have h6 := hs1 i a[i] k (by simp) h1
      have h7 := hs2 j b[j] k (by simp) h5
      rw [hsort] at h6
      rw [h6] at h7
      rw [h3]; simp only [Int.toNat_natCast]
      rw [List.getElem?_eq_getElem h4, List.getElem?_eq_getElem hia]
      exact h7.symm
    refine ⟨r, ?_, ⟨by simp [r, hp1.1], ?_, ?_⟩, hmain⟩
    · unfold findPermutationFromFirstToSecond
      rw [if_neg (by simpa using hlen), if_neg (by simpa using hsort), e1, e2]
      show (do let p2 ← invertArrayO2N2N2O p2 p2.length; selectSafe1 p2 p1) = _
      rw [hp2.1, e3, ← hrs]; exact hs
    · intro v hv
      obtain ⟨i, hi⟩ := List.mem_iff_getElem?.mp hv
      obtain ⟨k, j, _, _, h3, h4⟩ := hrget i v hi
      omega
    · rw [List.nodup_iff_injective_getElem]
      intro ⟨i, hi⟩ ⟨i', hi'⟩ he
      simp only at he
      have h1 := hmain i r[i] (by simp)
      have h2 := hmain i' r[i'] (by simp)
      rw [← he, h1] at h2
      have hra : r.length = a.length := by simp [r, hp1.1]
      rw [List.getElem?_eq_getElem (by omega), List.getElem?_eq_getElem (by omega)] at h2
      simp only [Option.some.injEq] at h2
      have := (List.Nodup.getElem_inj_iff hn).mp h2
      simpa using this
  · intro hn
    unfold findPermutationFromFirstToSecond
    by_cases hl : a.length = b.length
    · rw [if_neg (by simpa using hl)]
      by_cases hs : stdSort a = stdSort b
      · rw [if_neg (by simpa using hs)]
        have : ¬ a.Nodup := fun h => hn ⟨stdSort_eq_iff.mp hs, h⟩
        rw [(C09_rank a).2 this]; rfl
      · rw [if_pos hs]; rfl
    · rw [if_pos hl]; rfl

example : findPermutationFromFirstToSecond [3, 1, 103, -7] [-7, 103, 3, 1] = .ok ([2, 3, 1, 0].map some) := by decide

/-! ## C22: occurrence ranks -/

theorem occ_inv (l : List Int) :
    (l.foldl occStep ([], [])).2.length = l.length ∧
    (∀ v, mapFind (l.foldl occStep ([], [])).1 v = if v ∈ l then some (l.count v : Int) else none) ∧
    (∀ i : Nat, ∀ x, l[i]? = some x → (l.foldl occStep ([], [])).2[i]? = some ((l.take i).count x : Int)) ∧
    mapKeys (l.foldl occStep ([], [])).1 = setInsertAll [] l := by
  induction l using List.reverseRecOn with
  | nil => simp [mapFind, setInsertAll]
  | append_singleton l x ih =>
    obtain ⟨h1, h2, h3, h4⟩ := ih
    rw [List.foldl_append]
    simp only [List.foldl_cons, List.foldl_nil]
    generalize l.foldl occStep ([], []) = st at *
    have hx := h2 x
    have hstep : ∃ c : Nat, (c = l.count x) ∧ occStep st x = (mapSet st.1 x ((c : Int) + 1), st.2 ++ [(c : Int)]) := by
      unfold occStep
      by_cases hxl : x ∈ l
      · rw [if_pos hxl] at hx
        rw [hx]; exact ⟨_, rfl, rfl⟩
      · rw [if_neg hxl] at hx
        rw [hx]; exact ⟨0, (List.count_eq_zero.mpr hxl).symm, rfl⟩
    obtain ⟨c, hc, he⟩ := hstep
    rw [he]
    refine ⟨by simp [h1], fun v => ?_, fun i y hy => ?_, ?_⟩
    · simp only [mapFind_set]
      by_cases hv : v = x
      · subst hv
        rw [if_pos rfl, if_pos (by simp)]
        simp [List.count_append, hc]
      · rw [if_neg hv, h2 v]
        by_cases hvl : v ∈ l
        · rw [if_pos hvl, if_pos (by simp [hvl])]
          simp [List.count_append, List.count_singleton, Ne.symm hv]
        · rw [if_neg hvl, if_neg (by simp [hvl, hv])]
    · by_cases hil : i < l.length
      · rw [List.getElem?_append_left hil] at hy
        simp only
        rw [List.getElem?_append_left (by omega), h3 i y hy, List.take_append_of_le_length (by omega)]
      · have hi : i = l.length := by
          have := (List.getElem?_eq_some_iff.mp hy).1; simp at this; omega
        subst hi
        simp at hy; subst hy
        simp [← h1, hc]
    · simp only [mapKeys_set, h4]
      simp [setInsertAll]

/-- **C22.** `occurenceRankInThis` gives each position the number of earlier equal values. -/
theorem C22_occurrence_rank (l : List Int) :
    (occurenceRankInThis l).length = l.length ∧
    ∀ i : Nat, ∀ x, l[i]? = some x → (occurenceRankInThis l)[i]? = some ((l.take i).count x : Int) :=
  ⟨(occ_inv l).1, (occ_inv l).2.2.1⟩

example : occurenceRankInThis [5, 3, 2, 1, 4, 5, 2, 1, 0, 11, 5] = [0, 0, 0, 0, 0, 1, 1, 1, 0, 0, 2] := by decide

/-! ## C10 -/

theorem levelOffsets_find {m : List (Int × Int)} (hs : StrictSorted (mapKeys m)) (s : Int) {k : Int}
    (hk : k ∈ mapKeys m) :
    mapFind (levelOffsets s m) k = some (s + ((m.filter fun p => p.1 < k).map Prod.snd).sum) := by
  induction m generalizing s with
  | nil => simp at hk
  | cons p m ih =>
    obtain ⟨a, b⟩ := p
    simp only [mapKeys, List.map_cons] at hs hk
    rw [StrictSorted, List.pairwise_cons] at hs
    simp only [levelOffsets, mapFind]
    by_cases hka : k = a
    · subst hka
      rw [if_pos rfl, List.filter_cons_of_neg (by simp)]
      have : (m.filter fun p => decide (p.1 < k)) = [] := by
        rw [List.filter_eq_nil_iff]
        intro p hp
        have := hs.1 p.1 (List.mem_map.mpr ⟨p, hp, rfl⟩)
        simp; omega
      rw [this]; simp
    · rw [if_neg hka]
      have hkm : k ∈ mapKeys m := by
        rcases List.mem_cons.mp hk with h | h
        · exact absurd h hka
        · exact h
      have hak := hs.1 k hkm
      rw [ih hs.2 (s + b) hkm, List.filter_cons_of_pos (by simpa using hak)]
      simp only [List.map_cons, List.sum_cons]
      congr 1; omega

/-- Sum of the multiplicities of the keys smaller than `k`. -/
theorem sum_counts_lt (l ks : List Int) (hks : StrictSorted ks) (hall : ∀ x ∈ l, x ∈ ks) (k : Int) :
    ((ks.filter fun v => v < k).map fun v => (l.count v : Int)).sum = (l.countP (fun v => decide (v < k)) : Int) := by
  induction l with
  | nil => simp
  | cons x l ih =>
    have ih := ih fun y hy => hall y (List.mem_cons_of_mem _ hy)
    have hx := hall x (by simp)
    rw [List.countP_cons]
    push_cast
    rw [← ih]
    clear ih hall
    have : ∀ ks : List Int, ks.Nodup → ((ks.map fun v => ((x :: l).count v : Int)).sum =
        (ks.map fun v => (l.count v : Int)).sum + (if x ∈ ks then 1 else 0)) := by
      intro ks hn
      induction ks with
      | nil => simp
      | cons y ks ihk =>
        rw [List.nodup_cons] at hn
        rw [List.map_cons, List.sum_cons, ihk hn.2]
        simp only [List.map_cons, List.sum_cons, List.count_cons, List.mem_cons]
        by_cases hxy : x = y
        · subst hxy
          simp [hn.1]; omega
        · simp [hxy]; omega
    rw [this _ (hks.nodup.filter _)]
    congr 1
    simp [List.mem_filter, hx]

theorem perLevel_get (l : List Int) {i : Nat} {x : Int} (hx : l[i]? = some x) :
    (buildPermArrPerLevel l)[i]? = some ((l.countP (fun v => decide (v < x)) : Int) + ((l.take i).count x : Int)) := by
  obtain ⟨h1, h2, h3, h4⟩ := occ_inv l
  unfold buildPermArrPerLevel
  simp only
  generalize l.foldl occStep ([], []) = st at *
  have hss : StrictSorted (mapKeys st.1) := by rw [h4]; exact sorted_setInsertAll List.Pairwise.nil
  have hxl := List.mem_of_getElem? hx
  have hmem : x ∈ mapKeys st.1 := by rw [h4, mem_setInsertAll]; exact Or.inr hxl
  rw [List.getElem?_map, List.getElem?_zip_eq_some (z := ((((l.take i).count x : Nat) : Int), x)) |>.mpr ⟨h3 i x hx, hx⟩]
  simp only [Option.map_some, Option.some.injEq, mapAt]
  rw [levelOffsets_find hss 0 hmem]
  simp only [Option.getD_some, Int.zero_add]
  have hsum : ((st.1.filter fun p => decide (p.1 < x)).map Prod.snd) =
      ((mapKeys st.1).filter fun v => decide (v < x)).map fun v => (l.count v : Int) := by
    rw [mapKeys, List.filter_map, List.map_map]
    apply List.map_congr_left
    intro p hp
    have hp' := (List.mem_filter.mp hp).1
    have := mapFind_of_mem hss (k := p.1) (v := p.2) hp'
    rw [h2 p.1] at this
    split at this
    · simp at this; simp [this]
    · simp at this
  rw [hsum, sum_counts_lt l _ hss (fun y hy => by rw [h4, mem_setInsertAll]; exact Or.inr hy)]
  omega

theorem perLevel_length (l : List Int) : (buildPermArrPerLevel l).length = l.length := by
  simp [buildPermArrPerLevel, (occ_inv l).1]

/-- **C10.** `buildPermArrPerLevel` is the permutation of the stable sort by value: it is a permutation, increasing in
(value, position) lexicographically.  It never throws, negative values included. -/
theorem C10_perm_per_level (l : List Int) :
    IsPermArr l.length (buildPermArrPerLevel l) ∧
    ∀ i j : Nat, ∀ x y p q : Int, l[i]? = some x → l[j]? = some y → (buildPermArrPerLevel l)[i]? = some p →
      (buildPermArrPerLevel l)[j]? = some q → (x < y ∨ (x = y ∧ i < j)) → p < q := by
  have mono : ∀ i j : Nat, ∀ x y p q : Int, l[i]? = some x → l[j]? = some y → (buildPermArrPerLevel l)[i]? = some p →
      (buildPermArrPerLevel l)[j]? = some q → (x < y ∨ (x = y ∧ i < j)) → p < q := by
    intro i j x y p q hx hy hp hq h
    rw [perLevel_get l hx] at hp
    rw [perLevel_get l hy] at hq
    simp only [Option.some.injEq] at hp hq
    have hcount : ∀ i : Nat, l[i]? = some x → (l.take i).count x + 1 ≤ l.count x := by
      intro i hx
      obtain ⟨hi, he⟩ := List.getElem?_eq_some_iff.mp hx
      have : (l.take (i+1)).count x ≤ l.count x := (List.take_sublist _ _).count_le x
      rw [List.take_succ_eq_append_getElem hi, List.count_append, he] at this
      simpa using this
    rcases h with h | ⟨rfl, hij⟩
    · have h1 := hcount i hx
      have h2 : ∀ m : List Int, m.countP (fun v => decide (v < x)) + m.count x ≤ m.countP (fun v => decide (v < y)) := by
        intro m
        induction m with
        | nil => simp
        | cons z m ih =>
          rw [List.countP_cons, List.countP_cons, List.count_cons]
          by_cases hzx : z < x
          · simp [hzx, show z < y by omega, show z ≠ x by omega]; omega
          · by_cases hzx' : z = x
            · subst hzx'; simp [h]; omega
            · simp [hzx, hzx']; omega
      have := h2 l
      omega
    · obtain ⟨hi, he⟩ := List.getElem?_eq_some_iff.mp hx
      have : (l.take (i+1)).count x ≤ (l.take j).count x := by
        apply List.Sublist.count_le
        have : l.take (i+1) = (l.take j).take (i+1) := by rw [List.take_take, min_eq_left (by omega)]
        rw [this]; exact List.take_sublist _ _
      rw [List.take_succ_eq_append_getElem hi, List.count_append, he] at this
      simp at this
      omega
  refine ⟨⟨perLevel_length l, ?_, ?_⟩, mono⟩
  · intro v hv
    obtain ⟨i, hi⟩ := List.mem_iff_getElem?.mp hv
    have hil : i < l.length := by
      have := (List.getElem?_eq_some_iff.mp hi).1; rwa [perLevel_length] at this
    have hx : l[i]? = some l[i] := List.getElem?_eq_getElem hil
    rw [perLevel_get l hx] at hi
    simp only [Option.some.injEq] at hi
    have h1 : (l.take i).count l[i] + 1 ≤ l.count l[i] := by
      have : (l.take (i+1)).count l[i] ≤ l.count l[i] := (List.take_sublist _ _).count_le _
      rw [List.take_succ_eq_append_getElem hil, List.count_append] at this
      simpa using this
    have h2 : ∀ m : List Int, ∀ x : Int, m.countP (fun v => decide (v < x)) + m.count x ≤ m.length := by
      intro m x
      induction m with
      | nil => simp
      | cons z m ih =>
        rw [List.countP_cons, List.count_cons, List.length_cons]
        by_cases hzx : z < x
        · simp [hzx, show z ≠ x by omega]; omega
        · by_cases hzx' : z = x
          · subst hzx'; simp; omega
          · simp [hzx, hzx']; omega
    have := h2 l l[i]
    omega
  · rw [List.nodup_iff_injective_getElem]
    intro ⟨i, hi⟩ ⟨j, hj⟩ he
    simp only at he
    have hil : i < l.length := by rwa [perLevel_length] at hi
    have hjl : j < l.length := by rwa [perLevel_length] at hj
    by_contra hne
    simp at hne
    have hc : (l[i] < l[j] ∨ (l[i] = l[j] ∧ i < j)) ∨ (l[j] < l[i] ∨ (l[j] = l[i] ∧ j < i)) := by omega
    rcases hc with h | h
    · have := mono i j l[i] l[j] _ _ (by simp) (by simp) (List.getElem?_eq_getElem hi) (List.getElem?_eq_getElem hj) h
      omega
    · have := mono j i l[j] l[i] _ _ (by simp) (by simp) (List.getElem?_eq_getElem hj) (List.getElem?_eq_getElem hi) h
      omega

example : buildPermArrPerLevel [2, 0, 1, 1, 0, 1, 2, 0, 1, 1, 0, 0] = [10, 0, 5, 6, 1, 7, 11, 2, 8, 9, 3, 4] := by decide

/-! ## C11 -/

/-- Increasing list of the positions of `v` in `l`. -/
def positionsOf (l : List Int) (v : Int) : List Int :=
  ((List.range l.length).filter fun i => decide (l[i]? = some v)).map Int.ofNat

theorem positionsOf_snoc (l : List Int) (x v : Int) :
    positionsOf (l ++ [x]) v = if x = v then positionsOf l v ++ [(l.length : Int)] else positionsOf l v := by
  have h : ((List.range l.length).filter fun i => decide ((l ++ [x])[i]? = some v)) =
      ((List.range l.length).filter fun i => decide (l[i]? = some v)) := by
    apply List.filter_congr
    intro i hi
    rw [List.getElem?_append_left (by simpa using hi)]
  unfold positionsOf
  rw [List.length_append, List.length_singleton, List.range_succ, List.filter_append, h]
  by_cases hx : x = v <;> simp [hx]

theorem mem_positionsOf {l : List Int} {v p : Int} : p ∈ positionsOf l v ↔ 0 ≤ p ∧ l[p.toNat]? = some v := by
  simp only [positionsOf, List.mem_map, List.mem_filter, List.mem_range, decide_eq_true_eq]
  constructor
  · rintro ⟨i, ⟨_, h⟩, rfl⟩; exact ⟨by simp, by simpa using h⟩
  · rintro ⟨h0, h⟩
    exact ⟨p.toNat, ⟨(List.getElem?_eq_some_iff.mp h).1, h⟩, by simp; omega⟩

theorem positionsOf_sorted (l : List Int) (v : Int) : StrictSorted (positionsOf l v) := by
  rw [positionsOf, StrictSorted, List.pairwise_map]
  exact (List.pairwise_lt_range.filter _).imp fun h => by simpa using h

theorem positionsOf_length (l : List Int) (v : Int) : (positionsOf l v).length = l.count v := by
  induction l using List.reverseRecOn with
  | nil => simp [positionsOf]
  | append_singleton l x ih =>
    rw [positionsOf_snoc, List.count_append, List.count_singleton]
    by_cases hx : x = v <;> simp [hx, ih]

theorem sum_counts_range (l : List Int) (n : Nat) (h : ∀ v ∈ l, 0 ≤ v ∧ v < n) :
    ((List.range n).map fun j : Nat => positionsOf l (j : Int)).flatten.length = l.length := by
  rw [List.length_flatten, List.map_map]
  have : (List.length ∘ fun j : Nat => positionsOf l (j : Int)) = fun j : Nat => l.count (j : Int) := by
    funext j; simp [positionsOf_length]
  rw [this]
  clear this
  induction l with
  | nil => simp
  | cons x l ih =>
    have ih := ih fun v hv => h v (List.mem_cons_of_mem _ hv)
    have hx := h x (by simp)
    simp only [List.count_cons]
    have key : ∀ m : Nat, ((List.range m).map fun j : Nat => l.count (j : Int) + if (x == (j : Int)) = true then 1 else 0).sum =
        ((List.range m).map fun j : Nat => l.count (j : Int)).sum + if x < m then 1 else 0 := by
      intro m
      induction m with
      | zero => simp; omega
      | succ m ihm =>
        rw [List.range_succ, List.map_append, List.sum_append, ihm, List.map_append, List.sum_append]
        simp only [List.map_cons, List.map_nil, List.sum_cons, List.sum_nil, beq_iff_eq, Nat.cast_add, Nat.cast_one]
        by_cases h1 : x < m
        · simp [h1, show x < (m : Int) + 1 by omega, show x ≠ m by omega]; omega
        · by_cases h2 : x = m
          · simp [h2]; omega
          · simp [h1, h2, show ¬ x < (m : Int) + 1 by omega]
    rw [key n, ih, if_pos hx.2]; simp

/-- **C11.** `changeSurjectiveFormat(targetNb)`: with all values in range the result represents the `targetNb` preimages,
each listed in increasing order; otherwise it throws.  No out-of-bounds access. -/
theorem C11_surjective (l : List Int) (n : Nat) :
    ((∀ v ∈ l, 0 ≤ v ∧ v < n) → ∃ arr arrI, changeSurjectiveFormat l n = .ok (arr, arrI) ∧
      IsSky arr arrI ((List.range n).map fun j : Nat => positionsOf l (j : Int))) ∧
    ((∃ v ∈ l, ¬ (0 ≤ v ∧ v < n)) → changeSurjectiveFormat l n = .error .exn) := by
  have main : ∀ E : Prop, ((∃ v ∈ l, ¬ (0 ≤ v ∧ v < n)) → E) → wp (surjectiveGroups l n)
      (fun tmp => (∀ v ∈ l, 0 ≤ v ∧ v < n) ∧ tmp = (List.range n).map fun j : Nat => positionsOf l (j : Int)) E := by
    intro E hE
    unfold surjectiveGroups
    refine wp_mono (wp_foldlM (E := E) (fun (pre : List (Int × Nat)) (tmp : List (List Int)) =>
      (∀ p ∈ pre, 0 ≤ p.1 ∧ p.1 < n) ∧
        tmp = (List.range n).map fun j : Nat => positionsOf (pre.map Prod.fst) (j : Int)) ?_ ?_) ?_ id
    · refine ⟨by simp, ?_⟩
      simp [positionsOf, List.map_const']
    · rintro pre ⟨x, i⟩ suf hl tmp ⟨h1, h2⟩
      have hpre : (pre.map Prod.fst).length = i := by
        have := congrArg (fun t => t[pre.length]?) hl
        simp only [List.getElem?_zipIdx] at this
        simp at this
        obtain ⟨_, _, h⟩ := this
        simpa using h
      by_cases hx : 0 ≤ x ∧ x < n
      · simp only
        rw [if_pos hx]
        have hlen : tmp.length = n := by rw [h2]; simp
        rw [wp_bind]
        apply wp_rd hx.1 (by omega)
        apply wp_wr hx.1 (by omega)
        refine ⟨?_, ?_⟩
        · intro p hp
          rcases List.mem_append.mp hp with hp | hp
          · exact h1 p hp
          · simp at hp; subst hp; exact hx
        · apply List.ext_getElem
          · simp [hlen]
          · intro k hk1 hk2
            simp only [List.length_set] at hk1
            rw [List.getElem_set]
            have hk : tmp[k] = positionsOf (pre.map Prod.fst) (k : Int) := by simp [h2]
            have hkx : tmp[x.toNat] = positionsOf (pre.map Prod.fst) x := by
              simp [h2, Int.toNat_of_nonneg hx.1]
            simp only [List.getElem_map, List.getElem_range, List.map_append, List.map_cons, List.map_nil,
              positionsOf_snoc]
            by_cases hkx' : x.toNat = k
            · rw [if_pos hkx', if_pos (by omega), hkx, hpre]
              congr 2; omega
            · rw [if_neg hkx', if_neg (by omega), hk]
      · simp only
        rw [if_neg hx]
        refine hE ⟨x, ?_, hx⟩
        have : (x, i) ∈ l.zipIdx := by rw [hl]; simp
        exact List.fst_mem_of_mem_zipIdx this
    · rintro tmp ⟨h1, h2⟩
      have hz : l.zipIdx.map Prod.fst = l := List.zipIdx_map_fst 0 l
      rw [hz] at h2
      refine ⟨fun v hv => ?_, h2⟩
      rw [← hz] at hv
      obtain ⟨p, hp, rfl⟩ := List.mem_map.mp hv
      exact h1 p hp
  have hnn : ¬ ((n : Int) < 0) := by omega
  constructor
  · intro hall
    have hno : ¬ ∃ v ∈ l, ¬ (0 ≤ v ∧ v < (n : Int)) := by rintro ⟨v, hv, hn⟩; exact hn (hall v hv)
    obtain ⟨tmp, ht, _, htmp⟩ := wp_exists (main False hno)
    have hI : indexFromSizes (tmp.map fun g : List Int => (g.length : Int)) = skyIdx tmp := scanl_sizes tmp
    have hlen : tmp.length = n := by rw [htmp]; simp
    refine ⟨tmp.flatten, skyIdx tmp, ?_, ?_⟩
    · unfold changeSurjectiveFormat
      rw [if_neg hnn, Int.toNat_natCast, ht]
      show (do let last ← rd (indexFromSizes (tmp.map fun g : List Int => (g.length : Int))) n; _) = _
      rw [hI, rd_of_getElem? (a := (l.length : Int)) (by omega)]
      · show (if (l.length : Int) ≠ l.length then _ else _) = _
        rw [if_neg (by simp)]
      · rw [Int.toNat_natCast, skyIdx_getElem? _ (by omega), List.take_of_length_le (by omega), htmp,
          sum_counts_range l n hall]
    · rw [← htmp]; exact ⟨rfl, rfl⟩
  · rintro ⟨v, hv, hn⟩
    have : surjectiveGroups l n = .error .exn :=
      wp_throws (wp_mono (main True fun _ => trivial) (fun _ h => hn (h.1 v hv)) id)
    unfold changeSurjectiveFormat
    rw [if_neg hnn, Int.toNat_natCast, this]; rfl

example : changeSurjectiveFormat [0, 3, 2, 3, 2, 2, 1, 2] 4 = .ok ([0, 6, 2, 4, 5, 7, 1, 3], [0, 1, 2, 6, 8]) := by decide

/-! ## C24 -/

/-- `r[k]` is a position of `vals[k]` in `l`, the last one. -/
def IsLookup (l vals r : List Int) : Prop :=
  r.length = vals.length ∧ ∀ (k : Nat) (v : Int), vals[k]? = some v →
    ∃ i : Nat, r[k]? = some (i : Int) ∧ l[i]? = some v ∧ ∀ j, i < j → l[j]? ≠ some v

theorem lookup_wp (l vals : List Int) (E : Prop) (hE : (∃ v ∈ vals, v ∉ l) → E) :
    wp (vals.mapM fun v => match mapFind (indexMap l) v with
      | some i => (.ok i : M Int)
      | none => throwX) (fun r => (∀ v ∈ vals, v ∈ l) ∧ IsLookup l vals r) E := by
  refine wp_mono (wp_mapM (fun v i => ∃ k : Nat, i = (k : Int) ∧ l[k]? = some v ∧ ∀ j, k < j → l[j]? ≠ some v) ?_) ?_ id
  · intro v hv
    cases hf : mapFind (indexMap l) v with
    | none => exact hE ⟨v, hv, indexMap_none.mp hf⟩
    | some i => exact indexMap_some hf
  · intro r hr
    obtain ⟨h1, h2⟩ := forall₂_get hr
    refine ⟨fun v hv => ?_, h1, fun k v hv => ?_⟩
    · obtain ⟨i, hi, rfl⟩ := List.mem_iff_getElem.mp hv
      obtain ⟨k, _, h, _⟩ := h2 i vals[i] r[i] (by simp) (by simp)
      exact List.mem_of_getElem? h
    · have hk := (List.getElem?_eq_some_iff.mp hv).1
      obtain ⟨i, h3, h4, h5⟩ := h2 k v r[k] hv (by simp)
      exact ⟨i, by rw [List.getElem?_eq_getElem (by omega), h3], h4, h5⟩

/-- **C24.** `findIdForEach`: position of the last occurrence of each value, throws exactly when a value is missing. -/
theorem C24_findIdForEach (l vals : List Int) :
    ((∀ v ∈ vals, v ∈ l) → ∃ r, findIdForEach l vals = .ok r ∧ IsLookup l vals r) ∧
    ((∃ v ∈ vals, v ∉ l) → findIdForEach l vals = .error .exn) := by
  constructor
  · intro h
    obtain ⟨r, hr, _, h2⟩ := wp_exists (lookup_wp l vals False (by rintro ⟨v, hv, hn⟩; exact hn (h v hv)))
    exact ⟨r, hr, h2⟩
  · rintro ⟨v, hv, hn⟩
    exact wp_throws (wp_mono (lookup_wp l vals True fun _ => trivial) (fun _ h => hn (h.1 v hv)) id)

/-- **C24.** `indicesOfSubPart`: throws exactly when `this` has duplicates or a value is missing. -/
theorem C24_indicesOfSubPart (l part : List Int) :
    (l.Nodup ∧ (∀ v ∈ part, v ∈ l) → ∃ r, indicesOfSubPart l part = .ok r ∧ IsLookup l part r) ∧
    (¬ (l.Nodup ∧ ∀ v ∈ part, v ∈ l) → indicesOfSubPart l part = .error .exn) := by
  have hlen : (indexMap l).length = l.length ↔ l.Nodup := by
    rw [← C14_has_unique_values, hasUniqueValues, decide_eq_true_eq, ← indexMap_keys]; simp
  unfold indicesOfSubPart
  constructor
  · rintro ⟨hn, h⟩
    rw [if_neg (by simpa using hlen.mpr hn)]
    exact (C24_findIdForEach l part).1 h
  · intro h
    by_cases hn : l.Nodup
    · rw [if_neg (by simpa using hlen.mpr hn)]
      have : ∃ v ∈ part, v ∉ l := by
        by_contra hc
        exact h ⟨hn, fun v hv => by_contra fun hvl => hc ⟨v, hv, hvl⟩⟩
      exact (C24_findIdForEach l part).2 this
    · rw [if_pos (fun he => hn (hlen.mp he))]; rfl

/-- **C24.** `buildPermutationArr(other)`: `this[r[i]] = other[i]`; throws exactly when the sizes differ or a value of
`other` is missing. -/
theorem C24_buildPermutationArr (l other : List Int) :
    (l.length = other.length ∧ (∀ v ∈ other, v ∈ l) → ∃ r, buildPermutationArr l other = .ok r ∧ IsLookup l other r) ∧
    (¬ (l.length = other.length ∧ ∀ v ∈ other, v ∈ l) → buildPermutationArr l other = .error .exn) := by
  unfold buildPermutationArr
  constructor
  · rintro ⟨hl, h⟩
    rw [if_neg (by simpa using hl)]
    exact (C24_findIdForEach l other).1 h
  · intro h
    by_cases hl : l.length = other.length
    · rw [if_neg (by simpa using hl)]
      have : ∃ v ∈ other, v ∉ l := by
        by_contra hc
        exact h ⟨hl, fun v hv => by_contra fun hvl => hc ⟨v, hv, hvl⟩⟩
      exact (C24_findIdForEach l other).2 this
    · rw [if_pos hl]; rfl

example : findIdForEach [17, 27, 2, 10, -4, 3, 12, 27, 16] [3, 16, -4, 27, 17] = .ok [5, 8, 4, 7, 0] := by decide
example : indicesOfSubPart [9, 10, 0, 6, 4, 11, 3, 8] [6, 0, 11, 8] = .ok [3, 2, 5, 7] := by decide
example : buildPermutationArr [4, 5, 6, 7, 8] [5, 4, 8, 6, 7] = .ok [1, 0, 4, 2, 3] := by decide
/-- `buildPermutationArr` may return a non-permutation when `other` repeats a value: nothing detects it. -/
theorem C24_buildPermutationArr_not_perm : buildPermutationArr [4, 5] [4, 4] = .ok [0, 0] := by decide

end MC
