import Mathlib.Data.List.Sort
import Mathlib.Data.Int.Order.Basic
import Mathlib.Data.List.Nodup
import Mathlib.Tactic.Ring
import Mathlib.Tactic.Linarith
import Verif.Base

/-!
# The C++ standard containers and algorithms used by the modelled code

`std::set<K>` is the list of its elements in iteration (increasing) order, `std::map<K,V>` the list of its pairs in
iteration order.  These are models of the *standard* (ISO C++ [associative.reqmts], [alg.sorting]), not of `/repo`.
-/

namespace MC
section
variable {κ β : Type} [LinearOrder κ]

/-- A loop producing one output per input. -/
theorem wp_mapM {α γ : Type} {l : List α} {f : α → M γ} {E : Prop} (R : α → γ → Prop) (h : ∀ x ∈ l, wp (f x) (R x) E) :
    wp (l.mapM f) (List.Forall₂ R l) E := by
  induction l with
  | nil => exact List.Forall₂.nil
  | cons x l ih =>
    rw [List.mapM_cons, wp_bind]
    refine wp_mono (h x (by simp)) (fun y hy => ?_) id
    rw [wp_bind]
    refine wp_mono (ih fun z hz => h z (List.mem_cons_of_mem _ hz)) (fun r hr => ?_) id
    exact List.Forall₂.cons hy hr

/-! ## `std::set` -/

/-- `s.insert(x)` -/
def setInsert : List κ → κ → List κ
  | [], x => [x]
  | a :: l, x => if x < a then x :: a :: l else if x = a then a :: l else a :: setInsert l x

/-- `s.insert(first, last)` -/
def setInsertAll (s : List κ) (l : List κ) : List κ := l.foldl setInsert s

/-- strictly increasing -/
abbrev StrictSorted (l : List κ) : Prop := l.Pairwise (· < ·)

theorem mem_setInsert {l : List κ} {x y : κ} : y ∈ setInsert l x ↔ y = x ∨ y ∈ l := by
  induction l with
  | nil => simp [setInsert]
  | cons a l ih =>
    unfold setInsert
    split
    · simp
    · split
      · rename_i h; subst h; simp
      · simp [ih]; tauto

theorem sorted_setInsert {l : List κ} {x : κ} (h : StrictSorted l) : StrictSorted (setInsert l x) := by
  induction l with
  | nil => simp [setInsert]
  | cons a l ih =>
    rw [StrictSorted, List.pairwise_cons] at h
    unfold setInsert
    split
    · rename_i hx
      rw [StrictSorted, List.pairwise_cons, List.pairwise_cons]
      refine ⟨?_, h⟩
      intro b hb
      rcases List.mem_cons.mp hb with rfl | hb
      · exact hx
      · exact lt_trans hx (h.1 b hb)
    · split
      · rw [StrictSorted, List.pairwise_cons]; exact h
      · rename_i h1 h2
        rw [StrictSorted, List.pairwise_cons]
        refine ⟨fun b hb => ?_, ih h.2⟩
        rcases mem_setInsert.mp hb with rfl | hb
        · exact lt_of_le_of_ne (not_lt.mp h1) (Ne.symm h2)
        · exact h.1 b hb

theorem mem_setInsertAll {s l : List κ} {y : κ} : y ∈ setInsertAll s l ↔ y ∈ s ∨ y ∈ l := by
  induction l generalizing s with
  | nil => simp [setInsertAll]
  | cons a l ih =>
    have : setInsertAll s (a :: l) = setInsertAll (setInsert s a) l := rfl
    rw [this, ih, mem_setInsert]; simp; tauto

theorem sorted_setInsertAll {s l : List κ} (h : StrictSorted s) : StrictSorted (setInsertAll s l) := by
  induction l generalizing s with
  | nil => exact h
  | cons a l ih => exact ih (sorted_setInsert h)

theorem StrictSorted.nodup {l : List κ} (h : StrictSorted l) : l.Nodup := h.imp fun h => ne_of_lt h

theorem StrictSorted.ext {l l' : List κ} (h : StrictSorted l) (h' : StrictSorted l') (hm : ∀ x, x ∈ l ↔ x ∈ l') :
    l = l' := by
  have hp : l.Perm l' := (List.perm_ext_iff_of_nodup h.nodup h'.nodup).mpr hm
  exact hp.eq_of_pairwise (fun a b _ _ h1 h2 => absurd h1 (lt_asymm h2)) h h'

/-- `std::set_difference` of two increasing ranges (into a back inserter). -/
def setDifference : List κ → List κ → List κ
  | [], _ => []
  | a :: s, t =>
    match t.dropWhile (· < a) with
    | [] => a :: setDifference s []
    | b :: t' => if a < b then a :: setDifference s (b :: t') else setDifference s t'

/-- `std::set_intersection` of two increasing ranges. -/
def setIntersection : List κ → List κ → List κ
  | [], _ => []
  | a :: s, t =>
    match t.dropWhile (· < a) with
    | [] => []
    | b :: t' => if a < b then setIntersection s (b :: t') else a :: setIntersection s t'

theorem mem_dropWhile_lt {t : List κ} (ht : StrictSorted t) {a x : κ} : x ∈ t.dropWhile (· < a) ↔ x ∈ t ∧ a ≤ x := by
  induction t with
  | nil => simp
  | cons b t ih =>
    rw [StrictSorted, List.pairwise_cons] at ht
    by_cases h : b < a
    · rw [List.dropWhile_cons_of_pos (by simpa using h), ih ht.2]
      constructor
      · rintro ⟨h1, h2⟩; exact ⟨List.mem_cons_of_mem _ h1, h2⟩
      · rintro ⟨h1, h2⟩
        rcases List.mem_cons.mp h1 with rfl | h1
        · exact absurd h (not_lt.mpr h2)
        · exact ⟨h1, h2⟩
    · rw [List.dropWhile_cons_of_neg (by simpa using h)]
      constructor
      · intro hx
        refine ⟨hx, ?_⟩
        rcases List.mem_cons.mp hx with rfl | hx
        · exact not_lt.mp h
        · exact le_of_lt (lt_of_le_of_lt (not_lt.mp h) (ht.1 x hx))
      · exact fun hx => hx.1

theorem setDifference_nil (s : List κ) : setDifference s [] = s := by
  induction s with
  | nil => rfl
  | cons a s ih => simp [setDifference, ih]

theorem mem_setDifference {s t : List κ} (hs : StrictSorted s) (ht : StrictSorted t) {x : κ} :
    x ∈ setDifference s t ↔ x ∈ s ∧ x ∉ t := by
  induction s generalizing t with
  | nil => simp [setDifference]
  | cons a s ih =>
    rw [StrictSorted, List.pairwise_cons] at hs
    have hd : StrictSorted (t.dropWhile (· < a)) := ht.sublist (List.dropWhile_sublist _)
    have hm := fun y => mem_dropWhile_lt (a := a) (x := y) ht
    have key : ∀ y, a ≤ y → (y ∈ t ↔ y ∈ t.dropWhile (· < a)) := fun y hy => by rw [hm]; simp [hy]
    have hgt : ∀ y, y ∈ s → a < y := hs.1
    unfold setDifference
    cases hdw : t.dropWhile (· < a) with
    | nil =>
      rw [hdw] at key
      simp only [setDifference_nil]
      have : ∀ y, a ≤ y → y ∉ t := fun y hy h => by simpa using (key y hy).mp h
      constructor
      · intro hx
        refine ⟨hx, this x ?_⟩
        rcases List.mem_cons.mp hx with rfl | hx
        · exact le_refl _
        · exact le_of_lt (hgt x hx)
      · exact fun hx => hx.1
    | cons b t' =>
      rw [hdw] at key hd
      have hab : a ≤ b := ((hm b).mp (by rw [hdw]; simp)).2
      rw [StrictSorted, List.pairwise_cons] at hd
      simp only
      split
      · rename_i h
        rw [List.mem_cons, ih hs.2 (by rw [StrictSorted, List.pairwise_cons]; exact hd), List.mem_cons (l := s)]
        constructor
        · rintro (rfl | ⟨h1, h2⟩)
          · refine ⟨Or.inl rfl, fun hx => ?_⟩
            have := (key x (le_refl _)).mp hx
            rcases List.mem_cons.mp this with rfl | h3
            · exact lt_irrefl _ h
            · exact lt_irrefl _ (lt_trans h (hd.1 _ h3))
          · exact ⟨Or.inr h1, fun hx => h2 ((key x (le_of_lt (hgt x h1))).mp hx)⟩
        · rintro ⟨rfl | h1, h2⟩
          · exact Or.inl rfl
          · exact Or.inr ⟨h1, fun hx => h2 ((key x (le_of_lt (hgt x h1))).mpr hx)⟩
      · rename_i h
        have hab' : a = b := le_antisymm hab (not_lt.mp h)
        subst hab'
        rw [ih hs.2 hd.2, List.mem_cons]
        constructor
        · rintro ⟨h1, h2⟩
          refine ⟨Or.inr h1, fun hx => ?_⟩
          have hax := hgt x h1
          rcases List.mem_cons.mp ((key x (le_of_lt hax)).mp hx) with rfl | h3
          · exact lt_irrefl _ hax
          · exact h2 h3
        · rintro ⟨rfl | h1, h2⟩
          · exact absurd ((key x (le_refl _)).mpr (by simp)) h2
          · exact ⟨h1, fun hx => h2 ((key x (le_of_lt (hgt x h1))).mpr (List.mem_cons_of_mem _ hx))⟩

theorem setDifference_sublist (s t : List κ) : (setDifference s t).Sublist s := by
  induction s generalizing t with
  | nil => simp [setDifference]
  | cons a s ih =>
    unfold setDifference
    split
    · exact (ih _).cons_cons a
    · split
      · exact (ih _).cons_cons a
      · exact (ih _).cons a

theorem mem_setIntersection {s t : List κ} (hs : StrictSorted s) (ht : StrictSorted t) {x : κ} :
    x ∈ setIntersection s t ↔ x ∈ s ∧ x ∈ t := by
  induction s generalizing t with
  | nil => simp [setIntersection]
  | cons a s ih =>
    rw [StrictSorted, List.pairwise_cons] at hs
    have hd : StrictSorted (t.dropWhile (· < a)) := ht.sublist (List.dropWhile_sublist _)
    have hm := fun y => mem_dropWhile_lt (a := a) (x := y) ht
    have key : ∀ y, a ≤ y → (y ∈ t ↔ y ∈ t.dropWhile (· < a)) := fun y hy => by rw [hm]; simp [hy]
    have hgt : ∀ y, y ∈ s → a < y := hs.1
    have hge : ∀ y, y ∈ a :: s → a ≤ y := fun y hy => by
      rcases List.mem_cons.mp hy with rfl | hy
      · exact le_refl _
      · exact le_of_lt (hgt y hy)
    unfold setIntersection
    cases hdw : t.dropWhile (· < a) with
    | nil =>
      rw [hdw] at key
      simp only [List.not_mem_nil, false_iff, not_and]
      intro hx hxt
      simpa using (key x (hge x hx)).mp hxt
    | cons b t' =>
      rw [hdw] at key hd
      have hab : a ≤ b := ((hm b).mp (by rw [hdw]; simp)).2
      rw [StrictSorted, List.pairwise_cons] at hd
      simp only
      split
      · rename_i h
        rw [ih hs.2 (by rw [StrictSorted, List.pairwise_cons]; exact hd)]
        constructor
        · rintro ⟨h1, h2⟩
          exact ⟨List.mem_cons_of_mem _ h1, (key x (le_of_lt (hgt x h1))).mpr h2⟩
        · rintro ⟨h1, h2⟩
          have h3 := (key x (hge x h1)).mp h2
          refine ⟨?_, h3⟩
          rcases List.mem_cons.mp h1 with rfl | h1
          · rcases List.mem_cons.mp h3 with rfl | h3
            · exact absurd h (lt_irrefl _)
            · exact absurd (lt_trans h (hd.1 _ h3)) (lt_irrefl _)
          · exact h1
      · rename_i h
        have hab' : a = b := le_antisymm hab (not_lt.mp h)
        subst hab'
        rw [List.mem_cons, ih hs.2 hd.2, List.mem_cons]
        constructor
        · rintro (rfl | ⟨h1, h2⟩)
          · exact ⟨Or.inl rfl, (key x (le_refl _)).mpr (by simp)⟩
          · exact ⟨Or.inr h1, (key x (le_of_lt (hgt x h1))).mpr (List.mem_cons_of_mem _ h2)⟩
        · rintro ⟨rfl | h1, h2⟩
          · exact Or.inl rfl
          · refine Or.inr ⟨h1, ?_⟩
            rcases List.mem_cons.mp ((key x (le_of_lt (hgt x h1))).mp h2) with rfl | h3
            · exact absurd (hgt x h1) (lt_irrefl _)
            · exact h3

theorem setIntersection_sublist (s t : List κ) : (setIntersection s t).Sublist s := by
  induction s generalizing t with
  | nil => simp [setIntersection]
  | cons a s ih =>
    unfold setIntersection
    split
    · simp
    · split
      · exact (ih _).cons a
      · exact (ih _).cons_cons a

/-! ## `std::map` -/

/-- `m.find(k)` (the mapped value) -/
def mapFind : List (κ × β) → κ → Option β
  | [], _ => none
  | (a, b) :: l, k => if k = a then some b else mapFind l k

/-- `m[k] = v` -/
def mapSet : List (κ × β) → κ → β → List (κ × β)
  | [], k, v => [(k, v)]
  | (a, b) :: l, k, v =>
    if k < a then (k, v) :: (a, b) :: l else if k = a then (k, v) :: l else (a, b) :: mapSet l k v

/-- `m[k]` as an rvalue: a missing key is value-initialised (returned; the caller stores the new map if it matters). -/
def mapAt (m : List (κ × β)) (d : β) (k : κ) : β := (mapFind m k).getD d

/-- keys in iteration order -/
abbrev mapKeys (m : List (κ × β)) : List κ := m.map Prod.fst

theorem mapFind_set (m : List (κ × β)) (k k' : κ) (v : β) :
    mapFind (mapSet m k v) k' = if k' = k then some v else mapFind m k' := by
  induction m with
  | nil => simp [mapSet, mapFind]
  | cons p m ih =>
    obtain ⟨a, b⟩ := p
    unfold mapSet
    split
    · simp [mapFind]
    · split
      · rename_i h; subst h
        simp only [mapFind]
        split <;> rfl
      · rename_i h1 h2
        simp only [mapFind, ih]
        by_cases h : k' = a
        · subst h; simp [Ne.symm h2]
        · simp [h]

theorem mem_mapKeys_set {m : List (κ × β)} {k k' : κ} {v : β} :
    k' ∈ mapKeys (mapSet m k v) ↔ k' = k ∨ k' ∈ mapKeys m := by
  induction m with
  | nil => simp [mapSet]
  | cons p m ih =>
    obtain ⟨a, b⟩ := p
    unfold mapSet
    split
    · simp
    · split
      · rename_i h; subst h; simp
      · simp only [mapKeys, List.map_cons, List.mem_cons] at *
        rw [ih]; tauto

theorem mapKeys_set (m : List (κ × β)) (k : κ) (v : β) : mapKeys (mapSet m k v) = setInsert (mapKeys m) k := by
  induction m with
  | nil => rfl
  | cons p m ih =>
    obtain ⟨a, b⟩ := p
    simp only [mapSet, mapKeys, List.map_cons, setInsert] at *
    split
    · rfl
    · split
      · rename_i h; subst h; rfl
      · simp [ih]

theorem mapFind_eq_none {m : List (κ × β)} {k : κ} : mapFind m k = none ↔ k ∉ mapKeys m := by
  induction m with
  | nil => simp [mapFind]
  | cons p m ih =>
    obtain ⟨a, b⟩ := p
    simp only [mapFind, mapKeys, List.map_cons, List.mem_cons, not_or] at *
    by_cases h : k = a
    · simp [h]
    · simp [h, ih]

theorem mapFind_isSome {m : List (κ × β)} {k : κ} : (∃ v, mapFind m k = some v) ↔ k ∈ mapKeys m := by
  have := @mapFind_eq_none _ _ _ m k
  cases h : mapFind m k with
  | none => rw [h] at this; simpa using this
  | some v => rw [h] at this; simpa using this

theorem mapFind_of_mem {m : List (κ × β)} (hs : StrictSorted (mapKeys m)) {k : κ} {v : β} (h : (k, v) ∈ m) :
    mapFind m k = some v := by
  induction m with
  | nil => simp at h
  | cons p m ih =>
    obtain ⟨a, b⟩ := p
    simp only [mapKeys, List.map_cons] at hs
    rw [StrictSorted, List.pairwise_cons] at hs
    rcases List.mem_cons.mp h with h | h
    · cases h; simp [mapFind]
    · have : a < k := hs.1 k (List.mem_map.mpr ⟨_, h, rfl⟩)
      rw [mapFind, if_neg (ne_of_gt this)]
      exact ih hs.2 h

theorem mem_of_mapFind {m : List (κ × β)} {k : κ} {v : β} (h : mapFind m k = some v) : (k, v) ∈ m := by
  induction m with
  | nil => simp [mapFind] at h
  | cons p m ih =>
    obtain ⟨a, b⟩ := p
    unfold mapFind at h
    split at h
    · rename_i hk; subst hk; simp at h; subst h; simp
    · exact List.mem_cons_of_mem _ (ih h)

theorem sorted_mapSet {m : List (κ × β)} (h : StrictSorted (mapKeys m)) (k : κ) (v : β) :
    StrictSorted (mapKeys (mapSet m k v)) := by
  rw [mapKeys_set]; exact sorted_setInsert h

/-! ## Algorithms -/

/-- the loop of `std::unique`: `a` is the last kept element -/
def uniqueFrom (a : κ) : List κ → List κ
  | [] => []
  | b :: l => if a = b then uniqueFrom a l else b :: uniqueFrom b l

/-- `std::unique`: the range kept at the front (the first element of each run of equal elements). -/
def stdUnique : List κ → List κ
  | [] => []
  | a :: l => a :: uniqueFrom a l

/-- `std::sort` with `operator<`: the increasing rearrangement (unique for a linear order). -/
def stdSort (l : List κ) : List κ := l.insertionSort (· ≤ ·)

theorem stdSort_perm (l : List κ) : (stdSort l).Perm l := List.perm_insertionSort _ l
theorem stdSort_sorted (l : List κ) : (stdSort l).Pairwise (· ≤ ·) := List.pairwise_insertionSort _ l
@[simp] theorem stdSort_length (l : List κ) : (stdSort l).length = l.length := (stdSort_perm l).length_eq
theorem mem_stdSort {l : List κ} {x : κ} : x ∈ stdSort l ↔ x ∈ l := (stdSort_perm l).mem_iff

theorem uniqueFrom_sublist (a : κ) (l : List κ) : (uniqueFrom a l).Sublist l := by
  induction l generalizing a with
  | nil => exact List.Sublist.refl _
  | cons b l ih =>
    unfold uniqueFrom
    split
    · exact (ih a).cons b
    · exact (ih b).cons_cons b

theorem stdUnique_sublist (l : List κ) : (stdUnique l).Sublist l := by
  cases l with
  | nil => exact List.Sublist.refl _
  | cons a l => exact (uniqueFrom_sublist a l).cons_cons a

theorem mem_uniqueFrom (a x : κ) (l : List κ) : x ∈ a :: uniqueFrom a l ↔ x ∈ a :: l := by
  induction l generalizing a with
  | nil => rfl
  | cons b l ih =>
    unfold uniqueFrom
    split
    · rename_i h; subst h
      rw [ih]; simp
    · have := ih b
      simp only [List.mem_cons] at *
      rw [this]

theorem mem_stdUnique {l : List κ} {x : κ} : x ∈ stdUnique l ↔ x ∈ l := by
  cases l with
  | nil => rfl
  | cons a l => exact mem_uniqueFrom a x l

theorem stdUnique_strictSorted {l : List κ} (h : l.Pairwise (· ≤ ·)) : StrictSorted (stdUnique l) := by
  cases l with
  | nil => exact List.Pairwise.nil
  | cons a l =>
    show StrictSorted (a :: uniqueFrom a l)
    induction l generalizing a with
    | nil => simp [uniqueFrom]
    | cons b l ih =>
      rw [List.pairwise_cons] at h
      unfold uniqueFrom
      split
      · rename_i hab; subst hab
        exact ih a h.2
      · rename_i hab
        have hb := ih b h.2
        rw [StrictSorted, List.pairwise_cons]
        refine ⟨fun c hc => ?_, hb⟩
        have hc' := (mem_uniqueFrom b c l).mp hc
        have h1 : a < b := lt_of_le_of_ne (h.1 b (by simp)) hab
        rcases List.mem_cons.mp hc' with rfl | hc'
        · exact h1
        · exact lt_of_lt_of_le h1 ((List.pairwise_cons.mp h.2).1 c hc')

/-- On a sorted range `std::unique` removes nothing exactly when there is no duplicate. -/
theorem stdUnique_length_eq_iff {l : List κ} (h : l.Pairwise (· ≤ ·)) : (stdUnique l).length = l.length ↔ l.Nodup := by
  constructor
  · intro he
    have := (stdUnique_sublist l).eq_of_length he
    rw [← this]; exact (stdUnique_strictSorted h).nodup
  · intro hn
    have hs : StrictSorted l := by
      rw [StrictSorted]
      exact (h.and hn).imp fun ⟨h1, h2⟩ => lt_of_le_of_ne h1 h2
    rw [(stdUnique_strictSorted h).ext hs fun x => mem_stdUnique]

end
end MC
