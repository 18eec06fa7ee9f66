import Verif.Slices
import Mathlib.Tactic.Ring
import Mathlib.Tactic.Linarith
import Mathlib.Tactic.Positivity

/-!
# C01, C02: slices – specification and theorems
-/

namespace MC

/-! ## Specification (independent of the model) -/

/-- The value `v` is before the end of a slice in the direction of `step`. -/
def BeforeEnd (e s v : Int) : Prop := (0 < s ∧ v < e) ∨ (s < 0 ∧ e < v)

/-- `n` is the number of terms of `b, b+s, b+2s, ...` before `e`. -/
def IsTermCount (b e s : Int) (n : Int) : Prop :=
  0 ≤ n ∧ ∀ k : Nat, (k : Int) < n ↔ BeforeEnd e s (b + k * s)

/-- The list of the first `n` terms `b, b+s, ...`. -/
def progression (b s : Int) (n : Nat) : List Int := (List.range n).map fun (k : Nat) => b + k * s

/-- A slice is well formed: non-null step and the end is not on the wrong side. -/
def SliceOk (b e s : Int) : Prop := (0 < s ∧ b ≤ e) ∨ (s < 0 ∧ e ≤ b)

/-! ## Lemmas -/

theorem IsTermCount.unique {b e s n m : Int} (hn : IsTermCount b e s n) (hm : IsTermCount b e s m) :
    n = m := by
  obtain ⟨hn0, hn⟩ := hn
  obtain ⟨hm0, hm⟩ := hm
  have h1 := (hn n.toNat).trans (hm n.toNat).symm
  have h2 := (hn m.toNat).trans (hm m.toNat).symm
  omega

theorem termCount_pos {b e s : Int} (hs : 0 < s) (hbe : b < e) :
    IsTermCount b e s ((e - 1 - b).tdiv s + 1) := by
  rw [Int.tdiv_eq_ediv_of_nonneg (by omega)]
  have hq := Int.ediv_nonneg (show 0 ≤ e - 1 - b by omega) hs.le
  have h1 := Int.mul_ediv_add_emod (e - 1 - b) s
  have h2 := Int.emod_nonneg (e - 1 - b) (show s ≠ 0 by omega)
  have h3 := Int.emod_lt_of_pos (e - 1 - b) hs
  generalize (e - 1 - b) / s = q at *
  generalize (e - 1 - b) % s = r at *
  refine ⟨by omega, fun k => ?_⟩
  simp only [BeforeEnd, hs, true_and, show ¬ s < 0 by omega, false_and, or_false]
  constructor
  · intro hk
    have : (k : Int) * s ≤ q * s := Int.mul_le_mul_of_nonneg_right (by omega) hs.le
    nlinarith
  · intro hk
    by_contra hc
    have : (q + 1) * s ≤ (k : Int) * s := Int.mul_le_mul_of_nonneg_right (by omega) hs.le
    nlinarith

theorem termCount_neg {b e s : Int} (hs : s < 0) (hbe : e < b) :
    IsTermCount b e s ((b - 1 - e).tdiv (-s) + 1) := by
  obtain ⟨h0, h⟩ := termCount_pos (b := -b) (e := -e) (s := -s) (by omega) (by omega)
  have e1 : -e - 1 - -b = b - 1 - e := by ring
  rw [e1] at h0 h
  refine ⟨h0, fun k => (h k).trans ?_⟩
  have e2 : -b + (k : Int) * -s = -(b + k * s) := by ring
  simp only [BeforeEnd, e2]
  omega

theorem relCount_ok {b e s : Int} (h : SliceOk b e s) :
    ∃ n, getNumberOfItemGivenBESRelative b e s = .ok n ∧ IsTermCount b e s n := by
  unfold getNumberOfItemGivenBESRelative
  rcases h with ⟨hs, hbe⟩ | ⟨hs, hbe⟩
  · rw [if_neg (by omega), if_neg (by omega), if_neg (by omega)]
    by_cases hne : b = e
    · rw [if_neg (by simpa using hne)]
      subst hne
      refine ⟨0, rfl, le_refl _, fun k => ?_⟩
      have : 0 ≤ (k : Int) * s := by positivity
      simp only [BeforeEnd]; omega
    · rw [if_pos hne, max_eq_right (by omega), min_eq_left (by omega)]
      have : (s.natAbs : Int) = s := by omega
      rw [this]
      exact ⟨_, rfl, termCount_pos hs (by omega)⟩
  · rw [if_neg (by omega), if_neg (by omega), if_neg (by omega)]
    by_cases hne : b = e
    · rw [if_neg (by simpa using hne)]
      subst hne
      refine ⟨0, rfl, le_refl _, fun k => ?_⟩
      have : (k : Int) * s ≤ 0 := Int.mul_nonpos_of_nonneg_of_nonpos (by omega) hs.le
      simp only [BeforeEnd]; omega
    · rw [if_pos hne, max_eq_left (by omega), min_eq_right (by omega)]
      have : (s.natAbs : Int) = -s := by omega
      rw [this]
      exact ⟨_, rfl, termCount_neg hs (by omega)⟩

theorem relCount_throws {b e s : Int} (h : ¬ SliceOk b e s) :
    getNumberOfItemGivenBESRelative b e s = .error .exn := by
  unfold getNumberOfItemGivenBESRelative throwX
  unfold SliceOk at h
  split
  · rfl
  · split
    · rfl
    · split
      · rfl
      · omega

/-! ## C01 -/

/-- **C01.** `GetNumberOfItemGivenBESRelative` returns the number of terms of the progression, and
throws exactly on malformed slices. -/
theorem C01_relative_count (b e s : Int) :
    (SliceOk b e s → ∃ n, getNumberOfItemGivenBESRelative b e s = .ok n ∧ IsTermCount b e s n) ∧
    (¬ SliceOk b e s → getNumberOfItemGivenBESRelative b e s = .error .exn) :=
  ⟨relCount_ok, relCount_throws⟩

example : SliceOk 10 1 (-4) ∧ getNumberOfItemGivenBESRelative 10 1 (-4) = .ok 3 := by
  exact ⟨Or.inr (by decide), by decide⟩
example : SliceOk 1 11 4 ∧ getNumberOfItemGivenBESRelative 1 11 4 = .ok 3 := by
  exact ⟨Or.inl (by decide), by decide⟩
example : ¬ SliceOk 1 11 (-4) := by simp [SliceOk]

/-- **C01.** `GetNumberOfItemGivenBES` (increasing slices only): on a non-empty increasing slice it is
the number of terms, an empty slice has 0 items whatever the step, everything else throws. -/
theorem C01_increasing_count (b e s : Int) :
    (b < e ∧ 0 < s → ∃ n, getNumberOfItemGivenBES b e s = .ok n ∧ IsTermCount b e s n) ∧
    (b = e → getNumberOfItemGivenBES b e s = .ok 0) ∧
    ((e < b ∨ (b < e ∧ s ≤ 0)) → getNumberOfItemGivenBES b e s = .error .exn) := by
  refine ⟨fun ⟨h1, h2⟩ => ?_, fun h => ?_, fun h => ?_⟩
  · unfold getNumberOfItemGivenBES
    rw [if_neg (by omega), if_neg (by omega), if_neg (by omega)]
    exact ⟨_, rfl, termCount_pos h2 h1⟩
  · unfold getNumberOfItemGivenBES
    rw [if_neg (by omega), if_pos h.symm]
  · unfold getNumberOfItemGivenBES throwX
    split
    · rfl
    · rw [if_neg (by omega), if_pos (by omega)]

example : (3 : Int) < 10 ∧ (0 : Int) < 2 ∧ getNumberOfItemGivenBES 3 10 2 = .ok 4 := by decide

/-- **C01.** `GetPosOfItemGivenBESRelativeNoThrow` returns the unique rank of the value in the slice, and
`-1` exactly when the value is not a term. -/
theorem C01_position (v b e s : Int) :
    (∀ k : Nat, (BeforeEnd e s (b + k * s) ∧ v = b + k * s) →
        getPosOfItemGivenBESRelativeNoThrow v b e s = k) ∧
    ((∀ k : Nat, ¬ (BeforeEnd e s (b + k * s) ∧ v = b + k * s)) →
        getPosOfItemGivenBESRelativeNoThrow v b e s = -1) := by
  refine ⟨fun k ⟨hk, hv⟩ => ?_, fun h => ?_⟩
  · have hs : s ≠ 0 := by rintro rfl; simp [BeforeEnd] at hk
    unfold getPosOfItemGivenBESRelativeNoThrow
    rw [if_neg hs, if_pos]
    · have : (v - b).tdiv s = k := by
        rw [hv, show b + (k : Int) * s - b = k * s by ring, Int.mul_tdiv_cancel _ hs]
      simp only [this]
      rw [if_pos (by rw [hv]; ring)]
    · rcases hk with ⟨h1, h2⟩ | ⟨h1, h2⟩
      · have : 0 ≤ (k : Int) * s := by positivity
        left; omega
      · have : (k : Int) * s ≤ 0 := Int.mul_nonpos_of_nonneg_of_nonpos (by omega) h1.le
        right; omega
  · unfold getPosOfItemGivenBESRelativeNoThrow
    split
    · rfl
    · split
      · rename_i hs hr
        dsimp only
        split
        · rename_i heq
          exfalso
          have hnn : 0 ≤ (v - b).tdiv s := by
            rcases hr with ⟨h1, h2, h3⟩ | ⟨h1, h2, h3⟩
            · exact Int.tdiv_nonneg (by omega) h1.le
            · rw [← Int.neg_tdiv_neg]
              exact Int.tdiv_nonneg (by omega) (by omega)
          refine h ((v - b).tdiv s).toNat ⟨?_, ?_⟩
          · rw [Int.toNat_of_nonneg hnn, show b + (v - b).tdiv s * s = b + s * (v - b).tdiv s by ring, heq]
            unfold BeforeEnd; omega
          · rw [Int.toNat_of_nonneg hnn, show b + (v - b).tdiv s * s = b + s * (v - b).tdiv s by ring, heq]
        · rfl
      · rfl

example : BeforeEnd 1 (-4) (10 + (2 : Nat) * (-4)) ∧ (2 : Int) = 10 + (2 : Nat) * (-4) ∧
    getPosOfItemGivenBESRelativeNoThrow 2 10 1 (-4) = 2 := by
  refine ⟨Or.inr (by decide), by decide, by decide⟩

/-! ## Range -/

theorem getElem?_progression (b s : Int) (n k : Nat) :
    (progression b s n)[k]? = if k < n then some (b + k * s) else none := by
  unfold progression
  by_cases h : k < n
  · simp [h]
  · simp [h]

theorem wp_rangeUp (e s : Int) (hs : 0 < s) : ∀ (m : Nat) (i : Int) (p : Nat) (pre : List (Option Int)),
    IsTermCount i e s m → pre.length = p →
    rangeUp e s hs i p (pre ++ List.replicate m none) = .ok (pre ++ (progression i s m).map some) := by
  intro m
  induction m with
  | zero =>
    intro i p pre hc _
    have h0 := hc.2 0
    simp [BeforeEnd] at h0
    rw [rangeUp, if_neg (by omega)]
    simp [progression]
  | succ m ih =>
    intro i p pre hc hp
    have h0 := hc.2 0
    simp [BeforeEnd] at h0
    have hi : i < e := by omega
    have e1 : wr (pre ++ List.replicate (m + 1) none) (p : Int) (some i)
        = .ok ((pre ++ [some i]) ++ List.replicate m none) := by
      rw [wr_natCast (by simp; omega)]
      subst hp
      simp [List.replicate_succ]
    have e2 : IsTermCount (i + s) e s m := by
      refine ⟨by omega, fun k => ?_⟩
      have := hc.2 (k + 1)
      have e3 : i + ((k + 1 : Nat) : Int) * s = i + s + k * s := by push_cast; ring
      rw [e3] at this
      rw [← this]; omega
    rw [rangeUp, if_pos hi, e1]
    have := ih (i + s) (p + 1) (pre ++ [some i]) e2 (by simp [hp])
    simp only [Nat.cast_add, Nat.cast_one] at this
    show rangeUp e s hs (i + s) (p + 1) _ = _
    rw [this]
    have : progression i s (m + 1) = i :: progression (i + s) s m := by
      unfold progression
      rw [List.range_succ_eq_map]
      simp only [List.map_cons, List.map_map]
      congr 1
      · simp
      · apply List.map_congr_left; intro k _; simp only [Function.comp]; push_cast; ring
    rw [this]; simp

theorem wp_rangeDown (e s : Int) (hs : s < 0) : ∀ (m : Nat) (i : Int) (p : Nat) (pre : List (Option Int)),
    IsTermCount i e s m → pre.length = p →
    rangeDown e s hs i p (pre ++ List.replicate m none) = .ok (pre ++ (progression i s m).map some) := by
  intro m
  induction m with
  | zero =>
    intro i p pre hc _
    have h0 := hc.2 0
    simp [BeforeEnd] at h0
    rw [rangeDown, if_neg (by omega)]
    simp [progression]
  | succ m ih =>
    intro i p pre hc hp
    have h0 := hc.2 0
    simp [BeforeEnd] at h0
    have hi : i > e := by omega
    have e1 : wr (pre ++ List.replicate (m + 1) none) (p : Int) (some i)
        = .ok ((pre ++ [some i]) ++ List.replicate m none) := by
      rw [wr_natCast (by simp; omega)]
      subst hp
      simp [List.replicate_succ]
    have e2 : IsTermCount (i + s) e s m := by
      refine ⟨by omega, fun k => ?_⟩
      have := hc.2 (k + 1)
      have e3 : i + ((k + 1 : Nat) : Int) * s = i + s + k * s := by push_cast; ring
      rw [e3] at this
      rw [← this]; omega
    rw [rangeDown, if_pos hi, e1]
    have := ih (i + s) (p + 1) (pre ++ [some i]) e2 (by simp [hp])
    simp only [Nat.cast_add, Nat.cast_one] at this
    show rangeDown e s hs (i + s) (p + 1) _ = _
    rw [this]
    have : progression i s (m + 1) = i :: progression (i + s) s m := by
      unfold progression
      rw [List.range_succ_eq_map]
      simp only [List.map_cons, List.map_map]
      congr 1
      · simp
      · apply List.map_congr_left; intro k _; simp only [Function.comp]; push_cast; ring
    rw [this]; simp

/-- **C30 (Range).** `Range(b,e,s)` on a well-formed slice is the completely initialised list of all the
terms, without any out-of-bounds write; it throws on a malformed slice. -/
theorem C30_range (b e s : Int) :
    (∀ n : Nat, SliceOk b e s → IsTermCount b e s n →
        rangeArr b e s = .ok ((progression b s n).map some)) ∧
    (¬ SliceOk b e s → rangeArr b e s = .error .exn) := by
  refine ⟨fun n hok hn => ?_, fun h => ?_⟩
  · obtain ⟨m, hm, hc⟩ := relCount_ok hok
    have : m = n := hc.unique hn
    subst this
    unfold rangeArr
    rw [hm]
    show (if h : s > 0 then rangeUp e s h b 0 (mallocN Int (n : Int).toNat)
      else if h : s < 0 then rangeDown e s h b 0 (mallocN Int (n : Int).toNat) else undef) = _
    rcases hok with ⟨hs, _⟩ | ⟨hs, _⟩
    · rw [dif_pos hs]
      have := wp_rangeUp e s hs n b 0 [] hn rfl
      simpa [mallocN] using this
    · rw [dif_neg (by omega), dif_pos hs]
      have := wp_rangeDown e s hs n b 0 [] hn rfl
      simpa [mallocN] using this
  · unfold rangeArr
    rw [relCount_throws h]; rfl

example : SliceOk 7 0 (-3) ∧ IsTermCount 7 0 (-3) ((3 : Nat) : Int) := by
  refine ⟨Or.inr (by decide), by decide, fun k => ?_⟩
  unfold BeforeEnd; omega

/-! ## C02 -/

theorem progression_append (b s : Int) (n m : Nat) :
    progression b s n ++ progression (b + n * s) s m = progression b s (n + m) := by
  unfold progression
  rw [List.range_add, List.map_append, List.map_map]
  congr 1
  apply List.map_congr_left
  intro k _
  simp only [Function.comp]
  push_cast; ring

theorem isTermCount_exact (b s : Int) (hs : s ≠ 0) (n : Nat) :
    IsTermCount b (b + n * s) s n := by
  refine ⟨by omega, fun k => ?_⟩
  unfold BeforeEnd
  rcases lt_or_gt_of_ne hs with h | h
  · have : (k : Int) < n ↔ b + (n : Int) * s < b + (k : Int) * s := by
      constructor
      · intro hk; nlinarith
      · intro hk; by_contra hc; nlinarith
    rw [this]; omega
  · have : (k : Int) < n ↔ b + (k : Int) * s < b + (n : Int) * s := by
      constructor
      · intro hk; nlinarith
      · intro hk; by_contra hc; nlinarith
    rw [this]; omega

theorem isTermCount_shift {b e s : Int} {n k : Nat} (h : IsTermCount b e s n) (hk : k ≤ n) :
    IsTermCount (b + k * s) e s (n - k : Nat) := by
  refine ⟨by omega, fun j => ?_⟩
  have := h.2 (k + j)
  have e1 : b + ((k + j : Nat) : Int) * s = b + k * s + j * s := by push_cast; ring
  rw [e1] at this
  rw [← this]; omega

/-- A slice made of `n` terms exactly and starting from a shifted origin is well formed. -/
theorem sliceOk_shift {b e s : Int} {n k : Nat} (h : IsTermCount b e s n)
    (hk : k < n) : SliceOk (b + k * s) e s := by
  have := (h.2 k).mp (by omega)
  unfold BeforeEnd at this
  unfold SliceOk at *
  omega

theorem flatten_slices (b s : Int) (m : Nat) : ∀ k : Nat,
    ((List.range k).map fun (i : Nat) => progression (b + (i * m : Nat) * s) s m).flatten
      = progression b s (k * m) := by
  intro k
  induction k with
  | zero => simp [progression]
  | succ k ih =>
    rw [List.range_succ, List.map_append, List.flatten_append, ih]
    simp only [List.map_cons, List.map_nil, List.flatten_cons, List.flatten_nil, List.append_nil]
    rw [progression_append, Nat.succ_mul]

/-- **C02.** The `nb` parts of a well-formed slice, each enumerated with `Range`, concatenate to the
enumeration of the whole slice: nothing is lost, duplicated or reordered. -/
theorem C02_getSlice_partition (start stop step : Int) (nb : Nat) (hnb : 1 ≤ nb)
    (hok : SliceOk start stop step) :
    ∃ (cuts : Nat → Int × Int) (parts : Nat → List Int) (whole : List Int),
      (∀ i, i < nb → getSlice start stop step i nb = .ok (cuts i) ∧
          rangeArr (cuts i).1 (cuts i).2 step = .ok ((parts i).map some)) ∧
      rangeArr start stop step = .ok (whole.map some) ∧
      ((List.range nb).map parts).flatten = whole := by
  obtain ⟨n, hn, hc⟩ := relCount_ok hok
  obtain ⟨N, rfl⟩ : ∃ N : Nat, n = N := ⟨n.toNat, by have := hc.1; omega⟩
  have hs : step ≠ 0 := by rintro rfl; simp [SliceOk] at hok
  set m : Nat := N / nb with hm
  have hdiv : ((N : Int).tdiv nb) = (m : Int) := by
    rw [Int.tdiv_eq_ediv_of_nonneg (by omega), hm]; exact (Int.natCast_ediv N nb).symm
  have hmle : nb * m ≤ N := Nat.mul_div_le N nb
  clear_value m
  obtain ⟨K, rfl⟩ : ∃ K, nb = K + 1 := ⟨nb - 1, by omega⟩
  have hKm : K * m ≤ N := by
    rw [Nat.succ_mul] at hmle
    exact le_trans (Nat.le_add_right _ _) hmle
  refine ⟨fun i => (start + (i * m : Nat) * step,
      if i < K then start + ((i + 1) * m : Nat) * step else stop),
    fun i => if i < K then progression (start + (i * m : Nat) * step) step m
      else progression (start + (K * m : Nat) * step) step (N - K * m),
    progression start step N, ?_, (C30_range _ _ _).1 N hok hc, ?_⟩
  · intro i hi
    constructor
    · unfold getSlice
      rw [if_neg (by omega), if_neg (by omega), hn]
      show (if (i : Int) < ((K + 1 : Nat) : Int) - 1 then _ else _) = _
      simp only [hdiv]
      by_cases hik : i < K
      · rw [if_pos (by omega), if_pos hik]
        congr 2
        · push_cast; ring
        · push_cast; ring
      · rw [if_neg (by omega), if_neg hik]
        congr 2
        push_cast; ring
    · by_cases hik : i < K
      · simp only [hik, if_true]
        have e1 : start + (((i + 1) * m : Nat) : Int) * step
            = (start + ((i * m : Nat) : Int) * step) + m * step := by push_cast; ring
        rw [e1]
        apply (C30_range _ _ _).1 m
        · unfold SliceOk
          rcases lt_or_gt_of_ne hs with h | h
          · right
            exact ⟨h, by nlinarith⟩
          · left
            exact ⟨h, by nlinarith⟩
        · exact isTermCount_exact _ _ hs _
      · simp only [hik, if_false]
        have : i = K := by omega
        subst this
        by_cases hlt : i * m < N
        · exact (C30_range _ _ _).1 _ (sliceOk_shift hc hlt) (isTermCount_shift hc hKm)
        · -- nothing left: N = i*m, hence m = 0 and N = 0
          rw [Nat.succ_mul] at hmle
          have hm0 : m = 0 := by
            have := not_lt.mp hlt
            exact Nat.le_zero.mp (Nat.le_of_add_le_add_left (by linarith : i * m + m ≤ i * m + 0))
          have hN0 : N = 0 := by
            rcases Nat.eq_zero_or_pos N with h | h
            · exact h
            · rw [hm0] at hlt; omega
          rw [hm0]
          simp only [Nat.mul_zero, Nat.cast_zero, zero_mul, add_zero, hN0, Nat.sub_zero]
          subst hN0
          exact (C30_range _ _ _).1 0 hok hc
  · rw [List.range_succ, List.map_append, List.flatten_append]
    have : (List.range K).map (fun i => if i < K then progression (start + (i * m : Nat) * step) step m
        else progression (start + (K * m : Nat) * step) step (N - K * m))
        = (List.range K).map fun (i : Nat) => progression (start + (i * m : Nat) * step) step m := by
      apply List.map_congr_left
      intro i hi
      rw [if_pos (by simpa using hi)]
    rw [this, flatten_slices]
    simp only [List.map_cons, List.map_nil, lt_irrefl, if_false, List.flatten_cons, List.flatten_nil,
      List.append_nil]
    rw [progression_append]
    congr 1; omega

/-- **C02.** Invalid part ids, part counts and slices are refused. -/
theorem C02_getSlice_throws (start stop step i nb : Int)
    (h : nb ≤ 0 ∨ i < 0 ∨ nb ≤ i ∨ ¬ SliceOk start stop step) :
    getSlice start stop step i nb = .error .exn := by
  unfold getSlice throwX
  split
  · rfl
  · split
    · rfl
    · have : ¬ SliceOk start stop step := by
        rcases h with h | h | h | h
        · omega
        · omega
        · omega
        · exact h
      rw [relCount_throws this]; rfl

example : SliceOk 20 (-1) (-3) ∧ getSlice 20 (-1) (-3) 2 3 = .ok (8, -1) := ⟨Or.inr (by decide), by decide⟩

/-- The pairs are consecutive intervals from `a` to `z`. -/
def ConsecutiveIntervals : (a z : Nat) → List (Nat × Nat) → Prop
  | a, z, [] => a = z
  | a, z, (x, y) :: r => x = a ∧ x ≤ y ∧ ConsecutiveIntervals y z r

theorem balAdvance_spec (S : Int) : ∀ (w : List Int) (loc : Int) (pos : Nat),
    pos ≤ (balAdvance S loc pos w).1 ∧
      (balAdvance S loc pos w).1 + (balAdvance S loc pos w).2.length = pos + w.length ∧
      (balAdvance S loc pos w).2 = w.drop ((balAdvance S loc pos w).1 - pos) ∧
      (pos < (balAdvance S loc pos w).1 →
        loc + (w.take ((balAdvance S loc pos w).1 - pos - 1)).sum < S) ∧
      ((balAdvance S loc pos w).2 ≠ [] → S ≤ loc + (w.take ((balAdvance S loc pos w).1 - pos)).sum) := by
  intro w
  induction w with
  | nil => intro loc pos; simp [balAdvance]
  | cons x w ih =>
    intro loc pos
    unfold balAdvance
    split
    · rename_i hlt
      obtain ⟨h1, h2, h3, h4, h5⟩ := ih (loc + x) (pos + 1)
      have hd : (balAdvance S (loc + x) (pos + 1) w).1 - pos
          = ((balAdvance S (loc + x) (pos + 1) w).1 - (pos + 1)) + 1 := by omega
      refine ⟨by omega, by simp; omega, ?_, ?_, ?_⟩
      · rw [hd, List.drop_succ_cons]; exact h3
      · intro _
        rw [hd]
        by_cases hp : pos + 1 < (balAdvance S (loc + x) (pos + 1) w).1
        · have := h4 hp
          have hd2 : (balAdvance S (loc + x) (pos + 1) w).1 - (pos + 1) + 1 - 1
              = ((balAdvance S (loc + x) (pos + 1) w).1 - (pos + 1) - 1) + 1 := by omega
          rw [hd2, List.take_succ_cons, List.sum_cons]; omega
        · have : (balAdvance S (loc + x) (pos + 1) w).1 - (pos + 1) + 1 - 1 = 0 := by omega
          rw [this]; simpa using hlt
      · intro hne
        have := h5 hne
        rw [hd, List.take_succ_cons, List.sum_cons]; omega
    · rename_i hge
      refine ⟨le_refl _, by simp, by simp, by simp, by simpa using hge⟩

theorem balLoop_consecutive (S : Int) (n : Nat) : ∀ (k pos : Nat) (w : List Int), pos + w.length = n →
    ConsecutiveIntervals pos n (balLoop S n (k + 1) pos w) ∧ (balLoop S n (k + 1) pos w).length = k + 1 := by
  intro k
  induction k with
  | zero => intro pos w h; simp [balLoop, ConsecutiveIntervals]; omega
  | succ k ih =>
    intro pos w h
    obtain ⟨h1, h2, _⟩ := balAdvance_spec S w 0 pos
    obtain ⟨i1, i2⟩ := ih (balAdvance S 0 pos w).1 (balAdvance S 0 pos w).2 (by omega)
    rw [balLoop]
    simp only [show ¬ (k + 1 = 0) by omega, if_false]
    exact ⟨⟨rfl, h1, i1⟩, by simp [i2]⟩

/-- Weight of the elements with index in `[a, b)`. -/
def weightBetween (w : List Int) (a b : Nat) : Int := ((w.drop a).take (b - a)).sum

theorem balLoop_balanced (S : Int) (all : List Int) : ∀ (k pos : Nat),
    ∀ p ∈ (balLoop S all.length k pos (all.drop pos)).dropLast,
      (p.1 < p.2 → weightBetween all p.1 (p.2 - 1) < S) ∧
      (p.2 < all.length → S ≤ weightBetween all p.1 p.2) := by
  intro k
  induction k with
  | zero => intro pos p hp; simp [balLoop] at hp
  | succ k ih =>
    intro pos p hp
    rw [balLoop] at hp
    cases k with
    | zero => simp [balLoop] at hp
    | succ k =>
      obtain ⟨h1, h2, h3, h4, h5⟩ := balAdvance_spec S (all.drop pos) 0 pos
      simp only [show ¬ (k + 1 = 0) by omega, if_false] at hp
      have hne : balLoop S all.length (k + 1) (balAdvance S 0 pos (all.drop pos)).1
          (balAdvance S 0 pos (all.drop pos)).2 ≠ [] := by rw [balLoop]; simp
      rw [List.dropLast_cons_of_ne_nil hne] at hp
      rcases List.mem_cons.mp hp with rfl | hp
      · dsimp only
        unfold weightBetween
        refine ⟨fun h => ?_, fun h => ?_⟩
        · have := h4 h
          rw [show (balAdvance S 0 pos (all.drop pos)).1 - 1 - pos
            = (balAdvance S 0 pos (all.drop pos)).1 - pos - 1 by omega]
          omega
        · have : (balAdvance S 0 pos (all.drop pos)).2 ≠ [] := by
            intro hnil
            rw [hnil] at h2
            simp only [List.length_nil, List.length_drop] at h2
            by_cases hp2 : pos ≤ all.length
            · omega
            · omega
          have := h5 this
          omega
      · have e : (balAdvance S 0 pos (all.drop pos)).2 = all.drop (balAdvance S 0 pos (all.drop pos)).1 := by
          rw [h3, List.drop_drop]; congr 1; omega
        rw [e] at hp
        exact ih _ p hp

/-- **C02.** `splitInBalancedSlices(nb)` returns `nb` consecutive index intervals covering exactly
`[0, nbOfTuples)`.  Every slice but the last one is the shortest one, from its start, whose weight reaches
the mean weight `sum / nb` (it stops as soon as the mean is reached, and reaches it unless the array is exhausted). -/
theorem C02_balanced (w : List Int) (nb : Int) (hnb : 1 ≤ nb) :
    ∃ r, splitInBalancedSlices w nb = .ok r ∧ (r.length : Int) = nb ∧
      ConsecutiveIntervals 0 w.length r ∧
      ∀ p ∈ r.dropLast, (p.1 < p.2 → weightBetween w p.1 (p.2 - 1) < w.sum.tdiv nb) ∧
        (p.2 < w.length → w.sum.tdiv nb ≤ weightBetween w p.1 p.2) := by
  unfold splitInBalancedSlices
  rw [if_neg (by omega)]
  obtain ⟨K, hK⟩ : ∃ K, nb.toNat = K + 1 := ⟨nb.toNat - 1, by omega⟩
  obtain ⟨h1, h2⟩ := balLoop_consecutive (w.sum.tdiv nb) w.length K 0 w (by simp)
  refine ⟨_, rfl, ?_, ?_, ?_⟩
  · rw [hK, h2]; omega
  · rw [hK]; exact h1
  · have := balLoop_balanced (w.sum.tdiv nb) w nb.toNat 0
    simpa using this

theorem C02_balanced_throws (w : List Int) (nb : Int) (hnb : nb ≤ 0) :
    splitInBalancedSlices w nb = .error .exn := by
  simp [splitInBalancedSlices, hnb, throwX]

example : splitInBalancedSlices [3, 1, 4, 1, 5, 9, 2, 6] 3 = .ok [(0, 5), (5, 7), (7, 8)] := by decide

end MC
