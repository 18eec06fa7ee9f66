import Verif.Scan
import Verif.SlicesProps
import Verif.StdAlg

/-! # C30, C32, C35, C36 – theorems -/

namespace MC

/-! ## C32 -/

theorem monoLoop_iff {ok : Int → Int → Bool} (htr : ∀ x y z, ok y x = true → ok z y = true → ok z x = true) (a : Int) (l : List Int) :
    monoLoop ok a l = true ↔ (a :: l).Pairwise fun x y => ok y x = true := by
  induction l generalizing a with
  | nil => simp [monoLoop]
  | cons b l ih =>
    unfold monoLoop
    by_cases h : ok b a = true
    · rw [if_pos h, ih b]
      constructor
      · intro hp
        rw [List.pairwise_cons]
        refine ⟨fun y hy => ?_, hp⟩
        rcases List.mem_cons.mp hy with rfl | hy
        · exact h
        · exact htr _ _ _ h ((List.pairwise_cons.mp hp).1 y hy)
      · intro hp; exact (List.pairwise_cons.mp hp).2
    · rw [if_neg h]
      simp only [Bool.false_eq_true, List.pairwise_cons, List.mem_cons, forall_eq_or_imp, false_iff]
      intro hh; exact h hh.1.1

/-- **C32.** `isMonotonic` / `isStrictlyMonotonic` answer whether the values are ordered accordingly, all pairs considered. -/
theorem C32_monotonic (l : List Int) :
    (isMonotonic true l = true ↔ l.Pairwise (· ≤ ·)) ∧ (isMonotonic false l = true ↔ l.Pairwise (· ≥ ·)) ∧
    (isStrictlyMonotonic true l = true ↔ l.Pairwise (· < ·)) ∧ (isStrictlyMonotonic false l = true ↔ l.Pairwise (· > ·)) := by
  cases l with
  | nil => simp [isMonotonic, isStrictlyMonotonic]
  | cons a l =>
    simp only [isMonotonic, isStrictlyMonotonic, if_true, Bool.false_eq_true, if_false]
    refine ⟨?_, ?_, ?_, ?_⟩ <;>
    · rw [monoLoop_iff (by intro x y z h1 h2; simp at h1 h2 ⊢; omega)]
      simp

example : isMonotonic true [1, 1, 3] = true ∧ isStrictlyMonotonic true [1, 1, 3] = false ∧ isMonotonic false [5, 2, 2] = true ∧
    isMonotonic true [1, 3, 2] = false := by decide

/-! ## C30 -/

theorem followsFrom_iff (step tmp : Int) (l : List Int) : followsFrom step tmp l = true ↔ l = progression tmp step l.length := by
  induction l generalizing tmp with
  | nil => simp [followsFrom, progression]
  | cons x l ih =>
    have hp : progression tmp step (x :: l).length = tmp :: progression (tmp + step) step l.length := by
      unfold progression
      rw [List.length_cons, List.range_succ_eq_map, List.map_cons, List.map_map]
      congr 1
      · simp
      · apply List.map_congr_left; intro k _; simp; ring
    rw [hp]
    unfold followsFrom
    by_cases h : x = tmp
    · rw [if_neg (by simpa using h), ih]; simp [h]
    · rw [if_pos h]; simp [h]

theorem termCount_up {b s n : Int} (hs : 0 < s) (hn : 0 ≤ n) : IsTermCount b (b + (n - 1) * s + 1) s n := by
  refine ⟨hn, fun k => ?_⟩
  unfold BeforeEnd
  constructor
  · intro hk
    refine Or.inl ⟨hs, ?_⟩
    have : (k : Int) * s ≤ (n - 1) * s := Int.mul_le_mul_of_nonneg_right (by omega) (by omega)
    omega
  · rintro (⟨_, h⟩ | ⟨h, _⟩)
    · by_contra hc
      have : n * s ≤ (k : Int) * s := Int.mul_le_mul_of_nonneg_right (by omega) (by omega)
      have h2 : (n - 1) * s = n * s - s := by ring
      omega
    · omega

theorem termCount_down {b s n : Int} (hs : s < 0) (hn : 0 ≤ n) : IsTermCount b (b + (n - 1) * s - 1) s n := by
  refine ⟨hn, fun k => ?_⟩
  unfold BeforeEnd
  constructor
  · intro hk
    refine Or.inr ⟨hs, ?_⟩
    have : (n - 1) * s ≤ (k : Int) * s := Int.mul_le_mul_of_nonpos_right (by omega) (by omega)
    omega
  · rintro (⟨h, _⟩ | ⟨_, h⟩)
    · omega
    · by_contra hc
      have : (k : Int) * s ≤ n * s := Int.mul_le_mul_of_nonpos_right (by omega) (by omega)
      have h2 : (n - 1) * s = n * s - s := by ring
      omega

/-- `(b,e,s)` describes the list `l`. -/
def Describes (b e s : Int) (l : List Int) : Prop := SliceOk b e s ∧ IsTermCount b e s l.length ∧ l = progression b s l.length

theorem progression_last {b s : Int} {l : List Int} (h : l = progression b s l.length) (hne : l ≠ []) :
    l.getLast hne = b + ((l.length : Int) - 1) * s := by
  have hl : 0 < l.length := List.length_pos_of_ne_nil hne
  rw [List.getLast_eq_getElem]
  have := getElem?_progression b s l.length (l.length - 1)
  rw [← h, if_pos (by omega), List.getElem?_eq_getElem (by omega)] at this
  simp only [Option.some.injEq] at this
  rw [this]; push_cast [show 1 ≤ l.length by omega]; rfl

/-- **C30 (`isRange`).** A positive answer gives a slice which describes the array (so `Range` regenerates it, `C30_range`); a
negative answer means that no slice describes the array. -/
theorem C30_is_range (l : List Int) :
    (∀ b e s, isRange l = some (b, e, s) → Describes b e s l) ∧ (isRange l = none → ∀ b e s, ¬ Describes b e s l) := by
  match l with
  | [] =>
    refine ⟨?_, by simp [isRange]⟩
    intro b e s h
    simp [isRange] at h
    obtain ⟨rfl, rfl, rfl⟩ := h
    refine ⟨Or.inl ⟨by omega, by omega⟩, ?_, by simp [progression]⟩
    have := termCount_up (b := 0) (s := 1) (n := 0) (by omega) (by omega)
    simpa using this
  | [a] =>
    refine ⟨?_, by simp [isRange]⟩
    intro b e s h
    simp [isRange] at h
    obtain ⟨rfl, rfl, rfl⟩ := h
    refine ⟨Or.inl ⟨by omega, by omega⟩, ?_, by simp [progression]⟩
    have := termCount_up (b := a) (s := 1) (n := 1) (by omega) (by omega)
    simpa using this
  | a :: b' :: t =>
    generalize hl : a :: b' :: t = l
    have hlen : ((b' :: t).length : Int) = (l.length : Int) - 1 := by rw [← hl]; simp
    have hn : 2 ≤ l.length := by rw [← hl]; simp
    have hne : l ≠ [] := by rw [← hl]; simp
    have hlast : (b' :: t).getLast (by simp) = l.getLast hne := by subst hl; simp
    have hhead : ∀ b s, l = progression b s l.length → b = a := by
      intro b s h
      have := getElem?_progression b s l.length 0
      rw [← h, if_pos (by omega), ← hl] at this
      simp at this; omega
    have huniq : ∀ b e s, Describes b e s l → b = a ∧ l.getLast hne = a + ((l.length : Int) - 1) * s := by
      rintro b e s ⟨_, _, h⟩
      have hb := hhead b s h
      subst hb
      exact ⟨rfl, progression_last h hne⟩
    have hdef : isRange l = if a = l.getLast hne then none
        else if l.getLast hne > a then
          if (l.getLast hne - a).tmod ((l.length : Int) - 1) ≠ 0 then none
          else if followsFrom ((l.getLast hne - a).tdiv ((l.length : Int) - 1)) a l then
            some (a, l.getLast hne + 1, (l.getLast hne - a).tdiv ((l.length : Int) - 1)) else none
        else
          if (a - l.getLast hne).tmod ((l.length : Int) - 1) ≠ 0 then none
          else if followsFrom (-(a - l.getLast hne).tdiv ((l.length : Int) - 1)) a l then
            some (a, l.getLast hne - 1, -(a - l.getLast hne).tdiv ((l.length : Int) - 1)) else none := by
      subst hl
      simp only [isRange]
      rw [hlast, hlen]
    generalize hL : l.getLast hne = L at *
    have hm : (0 : Int) < (l.length : Int) - 1 := by omega
    generalize hM : (l.length : Int) - 1 = m at *
    constructor
    · intro b e s h
      rw [hdef] at h
      split at h
      · simp at h
      rename_i hneq
      split at h
      · rename_i hgt
        split at h
        · simp at h
        rename_i hmod
        split at h
        · rename_i hf
          simp only [Option.some.injEq, Prod.mk.injEq] at h
          obtain ⟨rfl, rfl, rfl⟩ := h
          have hdm := Int.mul_tdiv_add_tmod (L - a) m
          simp only [ne_eq, not_not] at hmod
          rw [hmod, add_zero] at hdm
          generalize hq : (L - a).tdiv m = q at *
          have hqpos : 0 < q := by
            by_contra hc
            have : m * q ≤ 0 := Int.mul_nonpos_of_nonneg_of_nonpos (by omega) (by omega)
            omega
          refine ⟨Or.inl ⟨hqpos, by omega⟩, ?_, (followsFrom_iff _ _ _).mp hf⟩
          have ht := termCount_up (b := a) (s := q) (n := l.length) hqpos (by omega)
          rwa [hM, hdm, add_sub_cancel] at ht
        · simp at h
      · rename_i hgt
        split at h
        · simp at h
        rename_i hmod
        split at h
        · rename_i hf
          simp only [Option.some.injEq, Prod.mk.injEq] at h
          obtain ⟨rfl, rfl, rfl⟩ := h
          have hdm := Int.mul_tdiv_add_tmod (a - L) m
          simp only [ne_eq, not_not] at hmod
          rw [hmod, add_zero] at hdm
          generalize hq : (a - L).tdiv m = q at *
          have hqpos : 0 < q := by
            by_contra hc
            have : m * q ≤ 0 := Int.mul_nonpos_of_nonneg_of_nonpos (by omega) (by omega)
            omega
          refine ⟨Or.inr ⟨by omega, by omega⟩, ?_, (followsFrom_iff _ _ _).mp hf⟩
          have ht := termCount_down (b := a) (s := -q) (n := l.length) (by omega) (by omega)
          rwa [hM, show a + m * -q = L by rw [Int.mul_neg]; omega] at ht
        · simp at h
    · intro h b e s hd
      obtain ⟨rfl, hL'⟩ := huniq b e s hd
      obtain ⟨hso, _, hpr⟩ := hd
      rw [hdef] at h
      rcases hso with ⟨hs, _⟩ | ⟨hs, _⟩
      · have hpos : 0 < m * s := Int.mul_pos hm hs
        rw [if_neg (by omega), if_pos (by omega), hL', add_sub_cancel_left, if_neg (by simp), Int.mul_tdiv_cancel_left _ (by omega),
          if_pos ((followsFrom_iff _ _ _).mpr hpr)] at h
        simp at h
      · have hneg : m * s < 0 := Int.mul_neg_of_pos_of_neg hm hs
        rw [if_neg (by omega), if_neg (by omega), hL', show b - (b + m * s) = m * (-s) by rw [Int.mul_neg]; omega, if_neg (by simp),
          Int.mul_tdiv_cancel_left _ (by omega), if_pos ((followsFrom_iff _ _ _).mpr (by simpa using hpr))] at h
        simp at h

/-- **C30 (`isIota`).** -/
theorem C30_is_iota (l : List Int) (n : Nat) : isIota l n = true ↔ l = (List.range n).map fun k : Nat => (k : Int) := by
  unfold isIota
  have hp : progression 0 1 n = (List.range n).map fun k : Nat => (k : Int) := by
    unfold progression; apply List.map_congr_left; intros; simp
  by_cases h : l.length = n
  · rw [if_neg (by simp [h]), followsFrom_iff, h, hp]
  · rw [if_pos (by omega)]
    simp only [Bool.false_eq_true, false_iff]
    intro he; apply h; rw [he]; simp

example : isRange [7, 4, 1] = some (7, 0, -3) ∧ isRange [2, 4, 6, 8] = some (2, 9, 2) ∧ isRange [2, 4, 5, 8] = none ∧ isIota [0, 1, 2] 3 = true := by
  decide

/-! ## C35 – translations -/

/-- All the values of `l` are positions of an array of length `n`. -/
def Fits (n : Nat) (l : List Int) : Prop := ∀ v ∈ l, 0 ≤ v ∧ v < n

/-- **C35 (in place).** `transformWithIndArr` succeeds exactly when every value is a position of the table, and every value is then
replaced by the table entry it designates. -/
theorem C35_transform (table l : List Int) :
    (Fits table.length l → ∃ r, transformWithIndArr table l = (.ok (), r) ∧ r.length = l.length ∧
        ∀ (i : Nat) (v : Int), l[i]? = some v → r[i]? = table[v.toNat]?) ∧
    (¬ Fits table.length l → (transformWithIndArr table l).1 = .error Err.exn) := by
  unfold transformWithIndArr
  induction l with
  | nil => exact ⟨fun _ => ⟨[], rfl, rfl, by simp⟩, fun h => absurd (fun v hv => by simp at hv) h⟩
  | cons x l ih =>
    by_cases hx : 0 ≤ x ∧ x < table.length
    · have hr : rd table x = .ok (table[x.toNat]'(by omega)) := by
        apply rd_of_getElem? hx.1
        exact List.getElem?_eq_getElem _
      have hd : transformLoop table (x :: l) = ((transformLoop table l).1, table[x.toNat]'(by omega) :: (transformLoop table l).2) := by
        rw [transformLoop, if_pos hx, hr]
      rw [hd]
      constructor
      · intro hf
        obtain ⟨r, hr1, hr2, hr3⟩ := ih.1 fun v hv => hf v (List.mem_cons_of_mem _ hv)
        refine ⟨_ :: r, by rw [hr1], by simp [hr2], ?_⟩
        intro i v hv
        cases i with
        | zero => simp at hv ⊢; subst hv; symm; exact List.getElem?_eq_getElem _
        | succ i => simpa using hr3 i v (by simpa using hv)
      · intro hf
        apply ih.2
        intro h; apply hf
        intro v hv
        rcases List.mem_cons.mp hv with rfl | hv
        · exact hx
        · exact h v hv
    · rw [transformLoop, if_neg hx]
      exact ⟨fun hf => absurd (hf x (by simp)) hx, fun _ => rfl⟩

/-- **C35 (not atomic).** When `transformWithIndArr` throws, the values before the first bad one have already been replaced. -/
theorem C35_transform_not_atomic (table pre suf : List Int) (bad : Int) (hp : Fits table.length pre)
    (hb : ¬ (0 ≤ bad ∧ bad < table.length)) :
    ∃ r, transformWithIndArr table (pre ++ bad :: suf) = (.error Err.exn, r ++ bad :: suf) ∧ r.length = pre.length ∧
      ∀ (i : Nat) (v : Int), pre[i]? = some v → r[i]? = table[v.toNat]? := by
  unfold transformWithIndArr
  induction pre with
  | nil => refine ⟨[], ?_, rfl, by simp⟩; rw [List.nil_append, transformLoop, if_neg hb]; rfl
  | cons x l ih =>
    obtain ⟨r, hr1, hr2, hr3⟩ := ih fun v hv => hp v (List.mem_cons_of_mem _ hv)
    have hx := hp x (by simp)
    have hr : rd table x = .ok (table[x.toNat]'(by omega)) := by
      apply rd_of_getElem? hx.1
      exact List.getElem?_eq_getElem _
    refine ⟨table[x.toNat]'(by omega) :: r, ?_, by simp [hr2], ?_⟩
    · rw [List.cons_append, transformLoop, if_pos hx, hr, hr1]; rfl
    · intro i v hv
      cases i with
      | zero => simp at hv ⊢; subst hv; symm; exact List.getElem?_eq_getElem _
      | succ i => simpa using hr3 i v (by simpa using hv)

example : transformWithIndArr [10, 20, 30] [2, 0, 2] = (.ok (), [30, 10, 30]) ∧
    transformWithIndArr [10, 20, 30] [2, 5, 0] = (.error Err.exn, [30, 5, 0]) := ⟨rfl, rfl⟩

/-- **C35 (reverse).** `transformWithIndArrR` never leaves its buffers; when it succeeds, every value `v` of the array at position
`i` is a position of the table and designates a position of the result; entry `p` of the result is the last `i` designating `p`, or
`-1`; and it succeeds whenever all these positions are valid. -/
theorem C35_transformR (table l : List Int) :
    wp (transformWithIndArrR table l)
      (fun r => r.length = l.length ∧
        (∀ i : Nat, i < l.length → ∃ v p : Int, l[i]? = some v ∧ 0 ≤ v ∧ table[v.toNat]? = some p ∧ 0 ≤ p ∧ p < l.length) ∧
        ∀ p : Nat, p < l.length →
          (∃ i : Nat, r[p]? = some (i : Int) ∧ (∃ v, l[i]? = some v ∧ table[v.toNat]? = some (p : Int)) ∧
            ∀ j : Nat, i < j → ∀ v, l[j]? = some v → table[v.toNat]? ≠ some (p : Int)) ∨
          (r[p]? = some (-1) ∧ ∀ (j : Nat) v, l[j]? = some v → table[v.toNat]? ≠ some (p : Int)))
      (∃ v ∈ l, ¬ (0 ≤ v ∧ v < table.length ∧ ∃ p : Int, table[v.toNat]? = some p ∧ 0 ≤ p ∧ p < l.length)) := by
  unfold transformWithIndArrR
  refine wp_mono (wp_loop (fun n (r : List Int) => r.length = l.length ∧
        (∀ i : Nat, i < n → ∃ v p : Int, l[i]? = some v ∧ 0 ≤ v ∧ table[v.toNat]? = some p ∧ 0 ≤ p ∧ p < l.length) ∧
        ∀ p : Nat, p < l.length →
          (∃ i : Nat, i < n ∧ r[p]? = some (i : Int) ∧ (∃ v, l[i]? = some v ∧ table[v.toNat]? = some (p : Int)) ∧
            ∀ j : Nat, i < j → j < n → ∀ v, l[j]? = some v → table[v.toNat]? ≠ some (p : Int)) ∨
          (r[p]? = some (-1) ∧ ∀ j : Nat, j < n → ∀ v, l[j]? = some v → table[v.toNat]? ≠ some (p : Int))) ?_ ?_) ?_ id
  rotate_left 2
  · rintro r ⟨h1, h2, h3⟩
    refine ⟨h1, h2, fun p hp => ?_⟩
    have hlt : ∀ (j : Nat) v, l[j]? = some v → j < l.length := fun j v h => (List.getElem?_eq_some_iff.mp h).1
    rcases h3 p hp with ⟨i, hi, ha, hb, hc⟩ | ⟨ha, hb⟩
    · exact Or.inl ⟨i, ha, hb, fun j hj v hv => hc j hj (hlt j v hv) v hv⟩
    · exact Or.inr ⟨ha, fun j v hv => hb j (hlt j v hv) v hv⟩
  · refine ⟨by simp, by intro i hi; omega, fun p hp => Or.inr ⟨?_, by intro j hj; omega⟩⟩
    rw [List.getElem?_replicate, if_pos hp]
  · rintro n hn r ⟨h1, h2, h3⟩
    rw [rd_natCast hn]
    simp only [ok_bind]
    have hln : l[n]? = some l[n] := List.getElem?_eq_getElem hn
    apply wp_ite
    · intro hv
      have htl : table[(l[n]).toNat]? = some (table[(l[n]).toNat]'(by omega)) := List.getElem?_eq_getElem _
      rw [rd_of_getElem? hv.1 htl]
      simp only [ok_bind]
      apply wp_ite
      · intro hp
        generalize hpv : table[(l[n]).toNat]'(by omega) = p at *
        apply wp_wr hp.1 (by omega)
        refine ⟨by simp [h1], ?_, ?_⟩
        · intro i hi
          rcases Nat.lt_succ_iff_lt_or_eq.mp hi with hi | rfl
          · exact h2 i hi
          · exact ⟨_, p, hln, hv.1, htl, hp.1, hp.2⟩
        · intro q hq
          rw [List.getElem?_set]
          by_cases hqp : p.toNat = q
          · rw [if_pos hqp, if_pos (by omega)]
            have hpq : (q : Int) = p := by omega
            exact Or.inl ⟨n, by omega, rfl, ⟨_, hln, by rw [htl, hpq]⟩, by intro j h1 h2; omega⟩
          · rw [if_neg hqp]
            have hno : ∀ v, l[n]? = some v → table[v.toNat]? ≠ some (q : Int) := by
              intro v hv2 hc
              rw [hln] at hv2
              injection hv2 with hv2
              rw [← hv2, htl] at hc
              injection hc with hc
              omega
            rcases h3 q hq with ⟨i, hi, ha, hb, hc⟩ | ⟨ha, hb⟩
            · refine Or.inl ⟨i, by omega, ha, hb, fun j hj hj2 => ?_⟩
              rcases Nat.lt_succ_iff_lt_or_eq.mp hj2 with hj2 | rfl
              · exact hc j hj hj2
              · exact hno
            · refine Or.inr ⟨ha, fun j hj => ?_⟩
              rcases Nat.lt_succ_iff_lt_or_eq.mp hj with hj2 | rfl
              · exact hb j hj2
              · exact hno
      · intro hp
        rw [wp_throwX]
        refine ⟨l[n], List.getElem_mem hn, ?_⟩
        rintro ⟨_, _, p, hp1, hp2⟩
        rw [htl] at hp1
        injection hp1 with hp1
        exact hp (by rw [hp1]; exact hp2)
    · intro hv
      rw [wp_throwX]
      exact ⟨l[n], List.getElem_mem hn, fun h => hv ⟨h.1, h.2.1⟩⟩

example : transformWithIndArrR [2, 0, 1] [0, 1, 2] = .ok [1, 2, 0] ∧ transformWithIndArrR [2, 0, 1] [0, 1, 1] = .ok [2, -1, 0] := ⟨rfl, rfl⟩

/-- **C35 (`changeValue`).** Every occurrence of `old` is replaced, nothing else, and the number of replaced values is returned
(0 when both values are the same). -/
theorem C35_changeValue (old new : Int) (l : List Int) :
    (changeValue old new l).2 = l.map (fun v => if v = old then new else v) ∧
    (changeValue old new l).1 = if old = new then 0 else l.count old := by
  unfold changeValue
  by_cases h : old = new
  · subst h
    simp only [if_true, and_true]
    have : (fun v : Int => if v = old then old else v) = id := by
      funext v; by_cases hv : v = old <;> simp [hv]
    rw [this, List.map_id]
  · rw [if_neg h, if_neg h]
    have key : ∀ (l : List Int) (c : Nat) (acc : List Int),
        l.foldl (fun (s : Nat × List Int) v => if v = old then (s.1 + 1, s.2 ++ [new]) else (s.1, s.2 ++ [v])) (c, acc) =
          (c + l.count old, acc ++ l.map fun v => if v = old then new else v) := by
      intro l
      induction l with
      | nil => simp
      | cons x l ih =>
        intro c acc
        rw [List.foldl_cons]
        by_cases hx : x = old
        · rw [if_pos hx, ih]
          simp [hx]; omega
        · rw [if_neg hx, ih]
          simp [hx]
    rw [key]; simp

example : changeValue 3 9 [3, 1, 3] = (2, [9, 1, 9]) := by decide

/-- **C35 (switches).** `BuildListOfSwitchedOn` / `Off` fill exactly the array they allocate, with the increasing list of the
positions having that state. -/
theorem C35_switched (which : Bool) (v : List Bool) :
    ∃ r : List Int, buildListOfSwitched which v = .ok (r.map some) ∧ r.Pairwise (· < ·) ∧
      ∀ x : Int, x ∈ r ↔ ∃ i : Nat, x = (i : Int) ∧ v[i]? = some which := by
  have h : wp (buildListOfSwitched which v)
      (fun o => ∃ r : List Int, o = r.map some ∧ r.Pairwise (· < ·) ∧ ∀ x : Int, x ∈ r ↔ ∃ i : Nat, x = (i : Int) ∧ v[i]? = some which) False := by
    unfold buildListOfSwitched
    rw [wp_bind]
    refine wp_mono (wp_foldlM (fun pre (s : Cur Int × Int) => s.2 = (pre.length : Int) ∧ ∃ r : List Int,
        s.1 = filled r (v.count which) ∧ r.length = pre.count which ∧ r.Pairwise (· < ·) ∧
        ∀ x : Int, x ∈ r ↔ ∃ i : Nat, x = (i : Int) ∧ pre[i]? = some which) ?_ ?_) ?_ id
    rotate_left 2
    · rintro s ⟨_, r, h1, h2, h3, h4⟩
      rw [wp_ok]
      refine ⟨r, ?_, h3, h4⟩
      rw [h1, filled_full h2]
    · exact ⟨rfl, [], by rw [newCur_eq], by simp, List.Pairwise.nil, by simp⟩
    · rintro pre b suf hl s ⟨hs2, r, h1, h2, h3, h4⟩
      unfold switchedStep
      have hmem : ∀ i : Nat, (pre ++ [b])[i]? = some which ↔ pre[i]? = some which ∨ (i = pre.length ∧ b = which) := by
        intro i
        rcases Nat.lt_trichotomy i pre.length with hi | hi | hi
        · rw [List.getElem?_append_left hi]; constructor
          · exact Or.inl
          · rintro (h | ⟨h, _⟩); exact h; omega
        · subst hi; simp
        · rw [List.getElem?_eq_none (by simp; omega)]
          simp; constructor
          · intro h; have := (List.getElem?_eq_some_iff.mp h).1; omega
          · intro h; omega
      by_cases hb : b = which
      · rw [if_pos hb, h1, emit_filled (by rw [hl]; simp [hb, h2])]
        simp only [ok_bind]
        rw [wp_ok]
        refine ⟨by simp [hs2], r ++ [s.2], by simp, by simp [h2, hb], ?_, ?_⟩
        · rw [List.pairwise_append]
          refine ⟨h3, by simp, ?_⟩
          intro a ha c hc
          simp at hc; subst hc
          obtain ⟨i, rfl, hi⟩ := (h4 a).mp ha
          have := (List.getElem?_eq_some_iff.mp hi).1
          omega
        · intro x
          rw [List.mem_append, h4, List.mem_singleton]
          constructor
          · rintro (⟨i, hi, hp⟩ | hx)
            · exact ⟨i, hi, (hmem i).mpr (Or.inl hp)⟩
            · exact ⟨pre.length, by omega, (hmem _).mpr (Or.inr ⟨rfl, hb⟩)⟩
          · rintro ⟨i, hi, hp⟩
            rcases (hmem i).mp hp with hp | ⟨hp, _⟩
            · exact Or.inl ⟨i, hi, hp⟩
            · exact Or.inr (by omega)
      · rw [if_neg hb, wp_ok]
        refine ⟨by simp [hs2], r, h1, by simp [h2, hb], h3, ?_⟩
        intro x
        rw [h4]
        constructor
        · rintro ⟨i, hi, hp⟩; exact ⟨i, hi, (hmem i).mpr (Or.inl hp)⟩
        · rintro ⟨i, hi, hp⟩
          rcases (hmem i).mp hp with hp | ⟨_, hp⟩
          · exact ⟨i, hi, hp⟩
          · exact absurd hp hb
  obtain ⟨o, ho, r, rfl, h2⟩ := wp_exists h
  exact ⟨r, ho, h2⟩

example : buildListOfSwitched true [true, false, true] = .ok [some 0, some 2] ∧ buildListOfSwitched false [true, false, true] = .ok [some 1] :=
  ⟨rfl, rfl⟩

/-! ## C36 – searches -/

theorem stdSearch_spec (pat l : List Int) :
    stdSearch pat l ≤ l.length ∧ (stdSearch pat l < l.length → pat <+: l.drop (stdSearch pat l)) ∧
    ∀ i : Nat, i < stdSearch pat l → ¬ pat <+: l.drop i := by
  induction l with
  | nil => simp [stdSearch]
  | cons x l ih =>
    obtain ⟨h1, h2, h3⟩ := ih
    unfold stdSearch
    by_cases h : pat.isPrefixOf (x :: l) = true
    · rw [if_pos h]
      exact ⟨by omega, fun _ => by simpa using List.isPrefixOf_iff_prefix.mp h, by intro i hi; omega⟩
    · rw [if_neg h]
      refine ⟨by simpa using h1, fun hh => by simpa using h2 (by simpa using hh), ?_⟩
      intro i hi hp
      cases i with
      | zero => exact h (List.isPrefixOf_iff_prefix.mpr (by simpa using hp))
      | succ i => exact h3 i (by omega) (by simpa using hp)

/-- **C36 (value).** `findIdsEqual` returns the increasing list of the positions of the value. -/
theorem C36_ids_equal (l : List Int) (val : Int) :
    (findIdsEqual l val).Pairwise (· < ·) ∧ ∀ x : Int, x ∈ findIdsEqual l val ↔ ∃ i : Nat, x = (i : Int) ∧ l[i]? = some val := by
  unfold findIdsEqual
  have key : ∀ (l : List Int) (k : Nat) (acc : List Int),
      (l.zipIdx k).foldl (fun r p => if p.1 = val then r ++ [(p.2 : Int)] else r) acc =
        acc ++ ((l.zipIdx k).filter fun p => p.1 = val).map fun p => (p.2 : Int) := by
    intro l
    induction l with
    | nil => simp
    | cons x l ih =>
      intro k acc
      rw [List.zipIdx_cons, List.foldl_cons, ih]
      by_cases hx : x = val <;> simp [hx]
  rw [key, List.nil_append]
  constructor
  · rw [List.pairwise_map]
    apply List.Pairwise.filter
    have : (l.zipIdx.map Prod.snd).Pairwise (· < ·) := by
      rw [List.zipIdx_map_snd]; exact List.pairwise_lt_range'
    rw [List.pairwise_map] at this
    exact this.imp fun h => by exact_mod_cast h
  · intro x
    simp only [List.mem_map, List.mem_filter, decide_eq_true_eq, Prod.exists]
    constructor
    · rintro ⟨a, i, ⟨hm, rfl⟩, rfl⟩
      exact ⟨i, rfl, List.mem_zipIdx_iff_getElem?.mp hm⟩
    · rintro ⟨i, rfl, h⟩
      exact ⟨val, i, ⟨List.mem_zipIdx_iff_getElem?.mpr h, rfl⟩, rfl⟩

example : findIdsEqual [4, 7, 4] 4 = [0, 2] := by decide

/-- **C36 (sequence).** For a non-empty pattern, `findIdSequence` returns the first position where the pattern occurs, `-1` if it
occurs nowhere. -/
theorem C36_sequence (l pat : List Int) (hp : pat ≠ []) :
    (∃ i : Nat, findIdSequence l pat = i ∧ pat <+: l.drop i ∧ ∀ j : Nat, j < i → ¬ pat <+: l.drop j) ∨
    (findIdSequence l pat = -1 ∧ ∀ j : Nat, ¬ pat <+: l.drop j) := by
  obtain ⟨h1, h2, h3⟩ := stdSearch_spec pat l
  unfold findIdSequence
  by_cases h : stdSearch pat l = l.length
  · rw [if_neg (by simpa using h)]
    refine Or.inr ⟨rfl, fun j hj => ?_⟩
    by_cases hj' : j < l.length
    · exact h3 j (by omega) hj
    · rw [List.drop_eq_nil_of_le (by omega)] at hj
      exact hp (List.prefix_nil.mp hj)
  · rw [if_pos h]
    exact Or.inl ⟨_, rfl, h2 (by omega), h3⟩

example : findIdSequence [5, 1, 2, 1, 2, 3] [1, 2, 3] = 3 ∧ findIdSequence [1, 2] [2, 1] = -1 := by decide

/-- A one-component array always contains the empty sequence at 0, except that the empty array answers -1. -/
theorem C36_sequence_empty (l : List Int) : findIdSequence l [] = if l = [] then -1 else 0 := by
  cases l <;> simp [findIdSequence, stdSearch]

theorem prefix_drop_iff_tup {nc t : Nat} {data pat : List Int} (hl : pat.length = nc) (hb : (t + 1) * nc ≤ data.length) :
    pat <+: data.drop (t * nc) ↔ tup nc data t = pat := by
  unfold tup
  constructor
  · intro h
    rw [List.prefix_iff_eq_take] at h
    rw [h, hl]
  · intro h
    rw [← h]
    exact List.take_prefix _ _

/-- **C36 (tuple).** `findIdsEqualTuple` returns the increasing list of the ids of the tuples equal to the pattern, whatever the
number of components, although it searches the flat buffer. -/
theorem C36_ids_equal_tuple (a : DArr Int) (pat : List Int) (hnc : pat.length = a.nc) (hpos : 0 < a.nc) :
    ∃ r, findIdsEqualTuple a pat = .ok r ∧ r.Pairwise (· < ·) ∧
      ∀ x : Int, x ∈ r ↔ ∃ t : Nat, x = (t : Int) ∧ t < a.nt ∧ tup a.nc a.data t = pat := by
  have hlen := a.wf
  have hpne : pat ≠ [] := by intro h; rw [h] at hnc; simp at hnc; omega
  have key : ∀ (fuel p : Nat) (ret : List Int), p ≤ a.data.length → a.data.length + 2 ≤ fuel + p → 
      (ret.Pairwise (· < ·) ∧ ∀ x : Int, x ∈ ret ↔ ∃ q : Nat, q < p ∧ q < a.data.length ∧ q % a.nc = 0 ∧ x = ((q / a.nc : Nat) : Int) ∧ pat <+: a.data.drop q) →
      ∃ r, equalTupleLoop a.nc a.data pat fuel p ret = .ok r ∧
      (r.Pairwise (· < ·) ∧ ∀ x : Int, x ∈ r ↔ ∃ q : Nat, q < a.data.length ∧ q % a.nc = 0 ∧ x = ((q / a.nc : Nat) : Int) ∧ pat <+: a.data.drop q) := by
    intro fuel
    induction fuel with
    | zero => intro p ret h1 h2; omega
    | succ fuel ih =>
      intro p ret hp hf ⟨hs, hm⟩
      unfold equalTupleLoop
      obtain ⟨g1, g2, g3⟩ := stdSearch_spec pat (a.data.drop p)
      rw [List.length_drop] at g1 g2
      simp only [List.drop_drop] at g2 g3
      generalize hq : stdSearch pat (a.data.drop p) = k at *
      by_cases hpe : p = a.data.length
      · rw [if_neg (by simpa using hpe)]
        refine ⟨ret, rfl, hs, fun x => ?_⟩
        rw [hm]
        constructor
        · rintro ⟨q, _, h⟩; exact ⟨q, h⟩
        · rintro ⟨q, h⟩; exact ⟨q, by omega, h⟩
      · rw [if_pos hpe]
        simp only []
        have hno : ∀ q : Nat, p ≤ q → q < p + k → ¬ pat <+: a.data.drop q := by
          intro q h1 h2
          have := g3 (q - p) (by omega)
          rwa [show p + (q - p) = q by omega] at this
        by_cases hqe : p + k = a.data.length
        · rw [if_neg (by simpa using hqe)]
          cases fuel with
          | zero => omega
          | succ fuel =>
            unfold equalTupleLoop
            rw [if_neg (by simpa using hqe)]
            refine ⟨ret, rfl, hs, fun x => ?_⟩
            rw [hm]
            constructor
            · rintro ⟨q, _, h⟩; exact ⟨q, h⟩
            · rintro ⟨q, h⟩
              refine ⟨q, ?_, h⟩
              by_contra hc
              exact hno q (by omega) (by omega) h.2.2.2
        · rw [if_pos hqe]
          apply ih (p + k + 1) _ (by omega) (by omega)
          have hhere := g2 (by omega)
          by_cases hmod : (p + k) % a.nc = 0
          · rw [if_pos hmod]
            refine ⟨?_, fun x => ?_⟩
            · rw [List.pairwise_append]
              refine ⟨hs, by simp, ?_⟩
              intro x hx y hy
              simp at hy; subst hy
              obtain ⟨q, h1, _, h2, rfl, _⟩ := (hm x).mp hx
              have e1 := Nat.div_add_mod q a.nc
              have e2 := Nat.div_add_mod (p + k) a.nc
              rw [h2] at e1; rw [hmod] at e2
              have : q / a.nc < (p + k) / a.nc := by
                by_contra hc
                have := Nat.mul_le_mul_left a.nc (Nat.not_lt.mp hc)
                omega
              exact_mod_cast this
            · rw [List.mem_append, hm, List.mem_singleton]
              constructor
              · rintro (⟨q, h1, h2⟩ | hx)
                · exact ⟨q, by omega, h2⟩
                · exact ⟨p + k, by omega, by omega, hmod, hx, hhere⟩
              · rintro ⟨q, h1, h2, h3, h4, h5⟩
                rcases Nat.lt_succ_iff_lt_or_eq.mp h1 with h1 | rfl
                · refine Or.inl ⟨q, ?_, h2, h3, h4, h5⟩
                  by_contra hc
                  exact hno q (by omega) h1 h5
                · exact Or.inr h4
          · rw [if_neg hmod]
            refine ⟨hs, fun x => ?_⟩
            rw [hm]
            constructor
            · rintro ⟨q, h1, h2⟩; exact ⟨q, by omega, h2⟩
            · rintro ⟨q, h1, h2, h3, h4, h5⟩
              refine ⟨q, ?_, h2, h3, h4, h5⟩
              by_contra hc
              rcases Nat.lt_succ_iff_lt_or_eq.mp h1 with h1 | rfl
              · exact hno q (by omega) h1 h5
              · exact hmod h3
  unfold findIdsEqualTuple
  rw [if_neg (by omega), if_neg (by omega)]
  obtain ⟨r, h1, h2, h3⟩ := key (a.data.length + 2) 0 [] (by omega) (by omega) ⟨List.Pairwise.nil, by simp⟩
  refine ⟨r, h1, h2, fun x => ?_⟩
  rw [h3]
  have hbound : ∀ t, t < a.nt → (t + 1) * a.nc ≤ a.data.length := by
    intro t ht; rw [hlen]; exact Nat.mul_le_mul_right _ ht
  constructor
  · rintro ⟨q, g1, g2, rfl, g3⟩
    have e1 := Nat.div_add_mod q a.nc
    rw [g2, Nat.add_zero, Nat.mul_comm] at e1
    have ht : q / a.nc < a.nt := Nat.div_lt_of_lt_mul (by rw [Nat.mul_comm, ← hlen]; exact g1)
    refine ⟨q / a.nc, rfl, ht, ?_⟩
    rw [← prefix_drop_iff_tup hnc (hbound _ ht), e1]
    exact g3
  · rintro ⟨t, rfl, ht, hpt⟩
    have hb := hbound t ht
    rw [Nat.add_mul] at hb
    exact ⟨t * a.nc, by omega, by simp, by rw [Nat.mul_div_cancel _ hpos], (prefix_drop_iff_tup hnc (hbound _ ht)).mpr hpt⟩

/-- **C36 (first tuple).** `findIdFirstEqualTuple` returns the first such id, `-1` if there is none. -/
theorem C36_first_equal_tuple (a : DArr Int) (pat : List Int) (hnc : pat.length = a.nc) (hpos : 0 < a.nc) :
    (∃ t : Nat, findIdFirstEqualTuple a pat = .ok (t : Int) ∧ t < a.nt ∧ tup a.nc a.data t = pat ∧
        ∀ u : Nat, u < t → tup a.nc a.data u ≠ pat) ∨
    (findIdFirstEqualTuple a pat = .ok (-1) ∧ ∀ u : Nat, u < a.nt → tup a.nc a.data u ≠ pat) := by
  have hlen := a.wf
  have key : ∀ (fuel p : Nat), p ≤ a.data.length → a.data.length + 2 ≤ fuel + p → 
      (∀ q : Nat, q < p → q % a.nc = 0 → ¬ pat <+: a.data.drop q) →
      (∃ q : Nat, firstTupleLoop a.nc a.data pat fuel p = .ok ((q / a.nc : Nat) : Int) ∧ q < a.data.length ∧ q % a.nc = 0 ∧ pat <+: a.data.drop q ∧
        ∀ q' : Nat, q' < q → q' % a.nc = 0 → ¬ pat <+: a.data.drop q') ∨
      (firstTupleLoop a.nc a.data pat fuel p = .ok (-1) ∧ ∀ q : Nat, q < a.data.length → q % a.nc = 0 → ¬ pat <+: a.data.drop q) := by
    intro fuel
    induction fuel with
    | zero => intro p h1 h2; omega
    | succ fuel ih =>
      intro p hp hf hprev
      unfold firstTupleLoop
      obtain ⟨g1, g2, g3⟩ := stdSearch_spec pat (a.data.drop p)
      rw [List.length_drop] at g1 g2
      simp only [List.drop_drop] at g2 g3
      generalize hq : stdSearch pat (a.data.drop p) = k at *
      by_cases hpe : p = a.data.length
      · rw [if_neg (by simpa using hpe)]
        exact Or.inr ⟨rfl, fun q hq hm => hprev q (by omega) hm⟩
      · rw [if_pos hpe]
        simp only []
        have hno : ∀ q : Nat, q < p + k → q % a.nc = 0 → ¬ pat <+: a.data.drop q := by
          intro q h2 hm
          by_cases h1 : q < p
          · exact hprev q h1 hm
          · have := g3 (q - p) (by omega)
            rwa [show p + (q - p) = q by omega] at this
        by_cases hqe : p + k = a.data.length
        · rw [if_neg (by simpa using hqe)]
          cases fuel with
          | zero => omega
          | succ fuel =>
            unfold firstTupleLoop
            rw [if_neg (by simpa using hqe)]
            exact Or.inr ⟨rfl, fun q hq hm => hno q (by omega) hm⟩
        · rw [if_pos hqe]
          by_cases hmod : (p + k) % a.nc = 0
          · rw [if_neg (by simpa using hmod)]
            exact Or.inl ⟨p + k, rfl, by omega, hmod, g2 (by omega), hno⟩
          · rw [if_pos hmod]
            apply ih (p + k + 1) (by omega) (by omega)
            intro q hq hm
            rcases Nat.lt_succ_iff_lt_or_eq.mp hq with h1 | rfl
            · exact hno q h1 hm
            · exact absurd hm hmod
  have hbound : ∀ t, t < a.nt → (t + 1) * a.nc ≤ a.data.length := by
    intro t ht; rw [hlen]; exact Nat.mul_le_mul_right _ ht
  unfold findIdFirstEqualTuple
  rw [if_neg (by omega), if_neg (by omega)]
  rcases key (a.data.length + 2) 0 (by omega) (by omega) (by intro q hq; omega) with ⟨q, h1, h2, h3, h4, h5⟩ | ⟨h1, h2⟩
  · have e1 := Nat.div_add_mod q a.nc
    rw [h3, Nat.add_zero, Nat.mul_comm] at e1
    have ht : q / a.nc < a.nt := Nat.div_lt_of_lt_mul (by rw [Nat.mul_comm, ← hlen]; exact h2)
    refine Or.inl ⟨q / a.nc, h1, ht, ?_, ?_⟩
    · rw [← prefix_drop_iff_tup hnc (hbound _ ht), e1]; exact h4
    · intro u hu he
      refine h5 (u * a.nc) ?_ (by simp) ((prefix_drop_iff_tup hnc (hbound u (by omega))).mpr he)
      have := Nat.mul_lt_mul_of_pos_right hu hpos
      omega
  · refine Or.inr ⟨h1, fun u hu he => ?_⟩
    have hb := hbound u hu
    rw [Nat.add_mul] at hb
    exact h2 (u * a.nc) (by omega) (by simp) ((prefix_drop_iff_tup hnc (hbound u hu)).mpr he)

example : findIdsEqualTuple ⟨3, 2, [1, 2, 1, 2, 2, 1], rfl⟩ [1, 2] = .ok [0, 1] ∧
    findIdFirstEqualTuple ⟨3, 2, [1, 2, 1, 2, 2, 1], rfl⟩ [2, 1] = .ok 2 := ⟨rfl, rfl⟩

end MC
