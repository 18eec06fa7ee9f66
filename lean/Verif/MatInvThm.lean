import Verif.MatInv
import Mathlib.LinearAlgebra.Matrix.NonsingularInverse
import Mathlib.LinearAlgebra.Matrix.Block
import Mathlib.LinearAlgebra.Matrix.ToLinearEquiv
import Mathlib.Tactic.FieldSimp
import Mathlib.Tactic.Ring
import Mathlib.Tactic.Linarith

/-!
# The inverse computed by `inverseMatrix` is the inverse, and it is found exactly when it exists
-/

namespace MC

section
variable {K : Type} [Field K] [LinearOrder K] [IsStrictOrderedRing K]

/-- the product of the cells of two matrices of order n is the identity -/
def MemInv (n : Nat) (X Y : MatMem K) : Prop :=
  ∀ i j, i < n → j < n → ∑ c ∈ Finset.range n, X i c * Y c j = if i = j then 1 else 0

/-- the matrix of the cells -/
def memMat (n : Nat) (X : MatMem K) : Matrix (Fin n) (Fin n) K := Matrix.of fun i j => X i j

omit [LinearOrder K] [IsStrictOrderedRing K] in
theorem memInv_iff (n : Nat) (X Y : MatMem K) : MemInv n X Y ↔ memMat n X * memMat n Y = 1 := by
  constructor
  · intro h
    ext i j
    have := h i j i.2 j.2
    rw [Finset.sum_range] at this
    simp only [Matrix.mul_apply, memMat, Matrix.of_apply, Matrix.one_apply, Fin.ext_iff]
    exact this
  · intro h i j hi hj
    have := congrFun (congrFun h ⟨i, hi⟩) ⟨j, hj⟩
    simp only [Matrix.mul_apply, memMat, Matrix.of_apply, Matrix.one_apply, Fin.ext_iff] at this
    rw [Finset.sum_range]
    exact this

theorem idamax_le (f : Nat → K) (m : Nat) : idamax f m ≤ m := by
  induction m with
  | zero => simp [idamax]
  | succ m ih => simp only [idamax]; split <;> omega

theorem idamax_max (f : Nat → K) (m i : Nat) (hi : i ≤ m) : |f i| ≤ |f (idamax f m)| := by
  induction m with
  | zero => simp [idamax, Nat.le_zero.1 hi]
  | succ m ih =>
    simp only [idamax]
    split
    · rename_i hlt
      rcases Nat.lt_or_ge m i with h | h
      · rw [show i = m + 1 by omega]
      · exact (ih h).trans hlt.le
    · rename_i hge
      rcases Nat.lt_or_ge m i with h | h
      · rw [show i = m + 1 by omega]; exact not_lt.1 hge
      · exact ih h

theorem idamax_zero (f : Nat → K) (m : Nat) (h : f (idamax f m) = 0) : idamax f m = 0 := by
  induction m with
  | zero => rfl
  | succ m ih =>
    simp only [idamax] at h ⊢
    split
    · rename_i hlt
      rw [if_pos hlt] at h
      rw [h, abs_zero] at hlt
      exact absurd hlt (not_lt.2 (abs_nonneg _))
    · rename_i hge
      rw [if_neg hge] at h
      exact ih h

/-- one step of the elimination, on a whole matrix -/
def rowStep (k l : Nat) (m : Nat → K) (B : MatMem K) : MatMem K := fun i j =>
  (if i = k then B l j else if i = l then B k j else B i j) + (if k < i then m i * B l j else 0)

/-- what `dgefa` keeps -/
structure Elim (n k : Nat) (A a : MatMem K) (ip : Nat → Nat) (B : Nat → MatMem K) : Prop where
  start : B 0 = A
  step : ∀ c, c < k → ∀ i j, i < n → j < n → B (c + 1) i j = rowStep c (ip c) (fun i => a i c) (B c) i j
  pivot : ∀ c, c < k → c ≤ ip c ∧ ip c < n
  zero : ∀ i j, i < n → j < n → j < k → j < i → B k i j = 0
  same : ∀ i j, i < n → j < n → ¬ (j < k ∧ j < i) → a i j = B k i j

theorem dgefaStep_elim {n k : Nat} (hk : k + 1 < n) {A a : MatMem K} {ip : Nat → Nat} {B : Nat → MatMem K} (h : Elim n k A a ip B) :
    Elim n (k + 1) A (dgefaStep n k a).1 (fun x => if x = k then (dgefaStep n k a).2 else ip x)
      (fun x => if x = k + 1 then rowStep k (dgefaStep n k a).2 (fun i => (dgefaStep n k a).1 i k) (B k) else B x) := by
  have hl := idamax_le (fun i => a (k + i) k) (n - k - 1)
  have hmax := idamax_max (fun i => a (k + i) k) (n - k - 1)
  have hzero := idamax_zero (fun i => a (k + i) k) (n - k - 1)
  obtain ⟨l, hld⟩ : ∃ l, l = idamax (fun i => a (k + i) k) (n - k - 1) + k := ⟨_, rfl⟩
  have hlk : k ≤ l := by omega
  have hln : l < n := by omega
  have hs2 : (dgefaStep n k a).2 = l := by
    simp only [dgefaStep, ← hld]
    split <;> rfl
  -- the columns on the left are kept
  have hleft : ∀ i j, j < k → (dgefaStep n k a).1 i j = a i j := by
    intro i j hj
    simp only [dgefaStep, ← hld]
    split
    · rfl
    · simp only [dgefaElim, dgefaScale, dgefaSwap]
      rw [if_neg (by omega), if_neg (by omega), if_neg (by omega)]
  obtain ⟨a', ha'⟩ : ∃ a', a' = (dgefaStep n k a).1 := ⟨_, rfl⟩
  rw [hs2, ← ha']
  rw [← ha'] at hleft
  -- the columns on the right, and the pivot column
  have key : (∀ i j, i < n → j < n → k < j → a' i j = rowStep k l (fun i => a' i k) a i j) ∧
      (∀ i, i < n → k < i → rowStep k l (fun i => a' i k) a i k = 0) ∧
      (∀ i, i ≤ k → a' i k = rowStep k l (fun i => a' i k) a i k) := by
    by_cases hp : a l k = 0
    · have hl0 : l = k := by
        have := hzero (by rw [Nat.add_comm, ← hld]; exact hp)
        omega
      have ha : a' = a := by
        rw [ha']
        simp only [dgefaStep, ← hld]
        rw [if_pos hp]
      subst hl0
      have hz : ∀ i, i < n → l ≤ i → a i l = 0 := by
        intro i hi hli
        have := hmax (i - l) (by omega)
        rw [Nat.add_comm l (idamax _ _), ← hld, hp, abs_zero, show l + (i - l) = i by omega] at this
        exact abs_nonpos_iff.1 this
      rw [ha]
      refine ⟨?_, ?_, ?_⟩
      · intro i j hi hj hkj
        simp only [rowStep]
        by_cases hil : i = l
        · subst hil; simp
        · rw [if_neg hil, if_neg hil]
          split
          · rw [hz i hi (by omega)]; ring
          · ring
      · intro i hi hki
        simp only [rowStep]
        rw [if_neg (by omega), if_neg (by omega), if_pos hki, hz i hi (by omega)]
        ring
      · intro i hik
        simp only [rowStep]
        rw [if_neg (by omega : ¬ l < i)]
        by_cases hil : i = l
        · subst hil; simp
        · rw [if_neg hil, if_neg hil]; ring
    · have ha : a' = dgefaElim n k l (dgefaScale n k (dgefaSwap k l a)) := by
        rw [ha']
        simp only [dgefaStep, ← hld]
        rw [if_neg hp]
      have hcol : ∀ i, a' i k = dgefaScale n k (dgefaSwap k l a) i k := by
        intro i
        rw [ha]
        simp only [dgefaElim]
        rw [if_neg (by omega)]
      have hkk : dgefaSwap k l a k k = a l k := by simp [dgefaSwap]
      refine ⟨?_, ?_, ?_⟩
      · intro i j hi hj hkj
        simp only [rowStep]
        rw [hcol i, ha]
        simp only [dgefaElim]
        have hsame : ∀ x, dgefaScale n k (dgefaSwap k l a) x j = a x j := by
          intro x
          simp only [dgefaScale, dgefaSwap]
          rw [if_neg (by omega), if_neg (by omega)]
        rw [if_pos ⟨hkj, hj⟩, hsame, hsame, hsame]
        by_cases hki : k < i
        · rw [if_pos (show k < i ∧ i < n from ⟨hki, hi⟩), if_pos hki]; ring
        · rw [if_neg (show ¬ (k < i ∧ i < n) by omega), if_neg hki]
      · intro i hi hki
        simp only [rowStep]
        rw [hcol i]
        simp only [dgefaScale]
        rw [if_pos (show True ∧ k < i ∧ i < n from ⟨trivial, hki, hi⟩), if_pos hki, hkk]
        simp only [dgefaSwap, if_true]
        rw [if_neg (show ¬ i = k by omega)]
        field_simp
        ring
      · intro i hik
        simp only [rowStep]
        rw [hcol i]
        simp only [dgefaScale]
        rw [if_neg (show ¬ (True ∧ k < i ∧ i < n) by omega), if_neg (by omega : ¬ k < i)]
        simp only [dgefaSwap, if_true]
        ring
  obtain ⟨k1, k2, k3⟩ := key
  have hB : ∀ i j, i < n → j < n → k ≤ j → rowStep k l (fun i => a' i k) (B k) i j = rowStep k l (fun i => a' i k) a i j := by
    intro i j hi hj hkj
    simp only [rowStep]
    rw [h.same l j hln hj (by omega), h.same k j (by omega) hj (by omega), h.same i j hi hj (by omega)]
  refine ⟨?_, ?_, ?_, ?_, ?_⟩
  · rw [if_neg (by omega)]; exact h.start
  · intro c hc i j hi hj
    rcases Nat.lt_or_ge c k with hck | hck
    · rw [if_neg (by omega), if_neg (by omega), if_neg (by omega), h.step c hck i j hi hj]
      simp only [rowStep]
      rw [hleft i c hck]
    · rw [show c = k by omega, if_pos rfl, if_pos rfl, if_neg (by omega)]
  · intro c hc
    rcases Nat.lt_or_ge c k with hck | hck
    · rw [if_neg (by omega)]; exact h.pivot c hck
    · rw [if_pos (by omega)]; omega
  · intro i j hi hj hjk hji
    rw [if_pos rfl]
    rcases Nat.lt_or_ge j k with hc | hc
    · simp only [rowStep]
      rw [h.zero l j hln hj hc (by omega), h.zero k j (by omega) hj hc hc, h.zero i j hi hj hc hji]
      simp
    · obtain rfl : j = k := by omega
      rw [hB i j hi hj (le_refl _)]
      exact k2 i hi hji
  · intro i j hi hj hn
    rw [if_pos rfl]
    rcases Nat.lt_trichotomy j k with hc | hc | hc
    · rw [hleft i j hc, h.same i j hi hj (by omega)]
      simp only [rowStep]
      rw [if_neg (by omega), if_neg (by omega), if_neg (by omega)]
      ring
    · subst hc
      rw [hB i j hi hj (le_refl _)]
      exact k3 i (by omega)
    · rw [hB i j hi hj hc.le]
      exact k1 i j hi hj hc

theorem dgefa_elim (n : Nat) (A : MatMem K) (m : Nat) (hm : m + 1 ≤ n) : ∃ B, Elim n m A (dgefa n A m).1 (dgefa n A m).2 B := by
  induction m with
  | zero => exact ⟨fun _ => A, rfl, by omega, by omega, by omega, fun _ _ _ _ _ => rfl⟩
  | succ m ih =>
    obtain ⟨B, hB⟩ := ih (by omega)
    exact ⟨_, dgefaStep_elim (by omega) hB⟩

/-- what the first loop of `dgedi` keeps -/
structure UpInv (n k : Nat) (U a s : MatMem K) : Prop where
  done : ∀ i j, i < n → j < k → ∑ c ∈ Finset.range (j + 1), U i c * s c j = if i = j then 1 else 0
  right : ∀ i j, i < k → k ≤ j → j < n → ∑ c ∈ Finset.range k, U i c * s c j = U i j
  todo : ∀ i j, k ≤ i → i ≤ j → j < n → s i j = U i j
  low : ∀ i j, j < i → s i j = a i j

omit [IsStrictOrderedRing K] in
theorem dgediUp_step {n k : Nat} (hk : k < n) {U a s : MatMem K} (hU : ∀ i j, i < n → j < i → U i j = 0) (h : UpInv n k U a s) (hp : U k k ≠ 0) :
    ∃ s', dgediUp n k s = .ok s' ∧ UpInv n (k + 1) U a s' := by
  have hkk : s k k = U k k := h.todo k k (le_refl _) (le_refl _) hk
  refine ⟨_, by rw [dgediUp, if_neg (by rw [hkk]; exact hp)], ?_, ?_, ?_, ?_⟩
  · intro i j hi hj
    rcases Nat.lt_or_ge j k with hc | hc
    · rw [← h.done i j hi hc]
      refine Finset.sum_congr rfl fun c _ => ?_
      rw [if_neg (by omega), if_neg (by omega)]
    · obtain rfl : j = k := by omega
      rw [Finset.sum_range_succ, if_pos rfl, if_pos rfl, hkk]
      have : ∑ c ∈ Finset.range j, U i c * (if j = j then (if c = j then 1 / U j j else if c < j then s c j * -(1 / U j j) else s c j)
          else if j < j ∧ j < n then (if c = j then 0 + U j j * (1 / U j j) else if c < j then s c j + U j j * (s c j * -(1 / U j j)) else s c j)
          else s c j) = (∑ c ∈ Finset.range j, U i c * s c j) * -(1 / U j j) := by
        rw [Finset.sum_mul]
        refine Finset.sum_congr rfl fun c hc => ?_
        have := Finset.mem_range.1 hc
        rw [if_pos rfl, if_neg (by omega), if_pos this]
        ring
      rw [this]
      rcases Nat.lt_trichotomy i j with h1 | h1 | h1
      · rw [h.right i j h1 (le_refl _) hk, if_neg (by omega)]; ring
      · subst h1
        rw [Finset.sum_eq_zero fun c hc => by rw [hU i c hi (Finset.mem_range.1 hc), zero_mul], if_pos rfl]
        field_simp
        ring
      · rw [Finset.sum_eq_zero fun c hc => by rw [hU i c hi (by have := Finset.mem_range.1 hc; omega), zero_mul], hU i j hi h1, if_neg (by omega)]
        ring
  · intro i j hi hkj hj
    rw [Finset.sum_range_succ]
    have e : ∑ c ∈ Finset.range k, U i c * (if j = k then (if c = k then 1 / s k k else if c < k then s c k * -(1 / s k k) else s c k)
          else if k < j ∧ j < n then (if c = k then 0 + s k j * (1 / s k k) else if c < k then s c j + s k j * (s c k * -(1 / s k k)) else s c j)
          else s c j) = (∑ c ∈ Finset.range k, U i c * s c j) + s k j * -(1 / s k k) * ∑ c ∈ Finset.range k, U i c * s c k := by
      rw [Finset.mul_sum, ← Finset.sum_add_distrib]
      refine Finset.sum_congr rfl fun c hc => ?_
      have := Finset.mem_range.1 hc
      rw [if_neg (by omega), if_pos ⟨by omega, hj⟩, if_neg (by omega), if_pos this]
      ring
    rw [e, if_neg (by omega), if_pos ⟨by omega, hj⟩, if_pos rfl, hkk, h.todo k j (le_refl _) (by omega) hj]
    rcases Nat.lt_or_ge i k with h1 | h1
    · rw [h.right i j h1 (by omega) hj, h.right i k h1 (le_refl _) hk]; ring
    · obtain rfl : i = k := by omega
      rw [Finset.sum_eq_zero fun c hc => by rw [hU i c hk (Finset.mem_range.1 hc), zero_mul],
        Finset.sum_eq_zero fun c hc => by rw [hU i c hk (Finset.mem_range.1 hc), zero_mul]]
      field_simp
      ring
  · intro i j hi hij hj
    rw [if_neg (by omega), if_pos ⟨by omega, hj⟩, if_neg (by omega), if_neg (by omega)]
    exact h.todo i j (by omega) hij hj
  · intro i j hji
    rw [← h.low i j hji]
    by_cases hc : j = k
    · rw [if_pos hc, if_neg (by omega), if_neg (by omega), hc]
    · rw [if_neg hc]
      split
      · rw [if_neg (by omega), if_neg (by omega)]
      · rfl

omit [IsStrictOrderedRing K] in
theorem dgediUp_loop {n : Nat} {U a : MatMem K} (hU : ∀ i j, i < n → j < i → U i j = 0) (ha : ∀ i j, i ≤ j → j < n → a i j = U i j) (m : Nat) (hm : m ≤ n) :
    ((∀ k, k < m → U k k ≠ 0) → ∃ s, loop m a (dgediUp n) = .ok s ∧ UpInv n m U a s) ∧
    ((∃ k, k < m ∧ U k k = 0) → loop m a (dgediUp n) = undef) := by
  induction m with
  | zero => exact ⟨fun _ => ⟨a, rfl, by omega, by omega, fun i j _ h1 h2 => ha i j h1 h2, fun _ _ _ => rfl⟩, by rintro ⟨k, hk, _⟩; omega⟩
  | succ m ih =>
    obtain ⟨i1, i2⟩ := ih (by omega)
    refine ⟨fun hp => ?_, fun hz => ?_⟩
    · obtain ⟨s, e, hs⟩ := i1 fun k hk => hp k (by omega)
      obtain ⟨s', e', hs'⟩ := dgediUp_step (by omega) hU hs (hp m (by omega))
      exact ⟨s', by rw [loop_succ, e, ok_bind, e'], hs'⟩
    · by_cases hb : ∃ k, k < m ∧ U k k = 0
      · rw [loop_succ, i2 hb]; rfl
      · obtain ⟨k, hk, hk0⟩ := hz
        obtain rfl : k = m := by
          by_contra hne
          exact hb ⟨k, by omega, hk0⟩
        obtain ⟨s, e, hs⟩ := i1 fun x hx h0 => hb ⟨x, hx, h0⟩
        rw [loop_succ, e, ok_bind, dgediUp, if_pos (by rw [hs.todo k k (le_refl _) (le_refl _) (by omega)]; exact hk0)]

/-- the cells of the inverse, when the multipliers of the first k columns are still there -/
def lowView (k : Nat) (a : MatMem K) : MatMem K := fun i j => if j < k ∧ j < i then 0 else a i j

omit [LinearOrder K] [IsStrictOrderedRing K] in
theorem dgediLow_step {n k l : Nat} (hkl : k ≤ l) (hln : l < n) {a B B' : MatMem K}
    (hB : ∀ i j, i < n → j < n → B' i j = rowStep k l (fun i => a i k) B i j) (h : MemInv n (lowView (k + 1) a) B') :
    MemInv n (lowView k (dgediLow n k l a)) B := by
  intro i j hi hj
  rw [← h i j hi hj]
  obtain ⟨V, hV⟩ : ∃ V : Nat → K, V = lowView (k + 1) a i := ⟨_, rfl⟩
  obtain ⟨T, hT⟩ : ∃ T : K, T = ∑ y ∈ Finset.Ico (k + 1) n, a y k * a i y := ⟨_, rfl⟩
  obtain ⟨W, hW⟩ : ∃ W : Nat → K, W = fun x => V x + if x = k then T else 0 := ⟨_, rfl⟩
  have hc : ∀ x, lowView k (dgediLow n k l a) i x = W (Equiv.swap k l x) := by
    intro x
    rw [Equiv.swap_apply_def, hW, hV]
    simp only [lowView, dgediLow, ← hT]
    by_cases h1 : x = k
    · rw [if_neg (by omega), if_pos h1, if_pos h1]
      by_cases h2 : l = k
      · subst h2
        simp only [if_true, Nat.lt_succ_self, true_and]
      · rw [if_neg h2, if_neg h2, if_neg (by omega)]; ring
    · rw [if_neg h1, if_neg h1]
      by_cases h2 : x = l
      · rw [if_neg (by omega), if_pos h2, if_pos h2]
        simp only [h1, if_false, if_true, Nat.lt_succ_self, true_and]
      · rw [if_neg h2, if_neg h2, if_neg h1, if_neg h1, add_zero]
        by_cases h3 : x < k ∧ x < i
        · rw [if_pos h3, if_pos (by omega)]
        · rw [if_neg h3, if_neg (by omega)]
  have hswap : ∑ c ∈ Finset.range n, W (Equiv.swap k l c) * B c j = ∑ c ∈ Finset.range n, W c * B (Equiv.swap k l c) j := by
    refine Finset.sum_equiv (Equiv.swap k l) (fun x => ?_) (fun x _ => by rw [Equiv.swap_apply_self])
    simp only [Finset.mem_range, Equiv.swap_apply_def]
    split
    · omega
    · split <;> omega
  rw [Finset.sum_congr rfl fun c _ => by rw [hc c], hswap, ← hV]
  have hT' : T = ∑ c ∈ Finset.range n, if k < c then V c * a c k else 0 := by
    rw [hT, ← Finset.sum_filter]
    refine Finset.sum_congr ?_ ?_
    · ext x; simp; omega
    · intro x hx
      have := Finset.mem_filter.1 hx
      rw [hV]
      simp only [lowView]
      rw [if_neg (by omega)]
      ring
  have e1 : ∑ c ∈ Finset.range n, W c * B (Equiv.swap k l c) j = (∑ c ∈ Finset.range n, V c * B (Equiv.swap k l c) j) + T * B l j := by
    rw [hW]
    simp only [add_mul, ite_mul, zero_mul, Finset.sum_add_distrib]
    rw [Finset.sum_ite_eq' , if_pos (Finset.mem_range.2 (by omega)), Equiv.swap_apply_left]
  rw [e1, hT', Finset.sum_mul, ← Finset.sum_add_distrib]
  refine Finset.sum_congr rfl fun c hc => ?_
  rw [hB c j (Finset.mem_range.1 hc) hj]
  simp only [rowStep]
  have e2 : B (Equiv.swap k l c) j = if c = k then B l j else if c = l then B k j else B c j := by
    rw [Equiv.swap_apply_def]
    split
    · rfl
    · split <;> rfl
  rw [e2]
  by_cases h1 : k < c
  · rw [if_pos h1, if_pos h1]; ring
  · rw [if_neg h1, if_neg h1]; ring

omit [LinearOrder K] [IsStrictOrderedRing K] in
theorem dgediDown_inv {n : Nat} {ip : Nat → Nat} {B : Nat → MatMem K} (m : Nat) (a : MatMem K)
    (hp : ∀ c, c < m → c ≤ ip c ∧ ip c < n)
    (hB : ∀ c, c < m → ∀ i j, i < n → j < n → B (c + 1) i j = rowStep c (ip c) (fun i => a i c) (B c) i j)
    (h : MemInv n (lowView m a) (B m)) : MemInv n (dgediDown n ip m a) (B 0) := by
  induction m generalizing a with
  | zero =>
    intro i j hi hj
    have := h i j hi hj
    simpa [lowView, dgediDown] using this
  | succ m ih =>
    have hpm := hp m (by omega)
    refine ih (dgediLow n m (ip m) a) (fun c hc => hp c (by omega)) (fun c hc i j hi hj => ?_) ?_
    · rw [hB c (by omega) i j hi hj]
      simp only [rowStep, dgediLow]
      rw [if_neg (by omega : ¬ c = m), if_neg (by omega : ¬ c = ip m), if_neg (by omega : ¬ c = m)]
    · exact dgediLow_step hpm.1 hpm.2 (hB m (by omega)) h

omit [LinearOrder K] [IsStrictOrderedRing K] in
theorem rowStep_kernel {n k l : Nat} (hkl : k ≤ l) (hln : l < n) (m : Nat → K) {B B' : MatMem K}
    (hB : ∀ i j, i < n → j < n → B' i j = rowStep k l m B i j) (x : Fin n → K) (h : (memMat n B').mulVec x = 0) : (memMat n B).mulVec x = 0 := by
  obtain ⟨y, hy⟩ : ∃ y : Nat → K, y = fun i => ∑ j : Fin n, B i j * x j := ⟨_, rfl⟩
  have hrow : ∀ i, i < n → (if i = k then y l else if i = l then y k else y i) + (if k < i then m i * y l else 0) = 0 := by
    intro i hi
    have := congrFun h ⟨i, hi⟩
    simp only [Matrix.mulVec, dotProduct, memMat, Matrix.of_apply, Pi.zero_apply] at this
    refine Eq.trans ?_ this
    rw [Finset.sum_congr rfl fun j _ => by rw [hB i j hi j.2]]
    simp only [rowStep, add_mul, Finset.sum_add_distrib, hy]
    congr 1
    · split
      · rfl
      · split <;> rfl
    · by_cases hki : k < i
      · simp only [if_pos hki]
        rw [Finset.mul_sum]
        exact Finset.sum_congr rfl fun j _ => by ring
      · simp only [if_neg hki, zero_mul, Finset.sum_const_zero]
  have hl0 : y l = 0 := by
    have := hrow k (by omega)
    rw [if_pos rfl, if_neg (by omega), add_zero] at this
    exact this
  have hrow' : ∀ i, i < n → (if i = k then y l else if i = l then y k else y i) = 0 := by
    intro i hi
    have := hrow i hi
    rw [hl0] at this ⊢
    simpa using this
  have hk0 : y k = 0 := by
    have := hrow' l hln
    by_cases hc : l = k
    · rw [← hc]; exact hl0
    · rw [if_neg hc, if_pos rfl] at this; exact this
  ext i
  have := hrow' i i.2
  simp only [Matrix.mulVec, dotProduct, memMat, Matrix.of_apply, Pi.zero_apply]
  have hyi : y i = 0 := by
    by_cases h1 : (i : Nat) = k
    · rw [h1]; exact hk0
    · by_cases h2 : (i : Nat) = l
      · rw [h2]; exact hl0
      · rw [if_neg h1, if_neg h2] at this; exact this
  rw [hy] at hyi
  exact hyi

theorem elim_kernel {n k : Nat} {A a : MatMem K} {ip : Nat → Nat} {B : Nat → MatMem K} (h : Elim n k A a ip B) (x : Fin n → K) (m : Nat) (hm : m ≤ k)
    (hx : (memMat n (B m)).mulVec x = 0) : (memMat n A).mulVec x = 0 := by
  induction m with
  | zero => rw [← h.start]; exact hx
  | succ m ih =>
    have hp := h.pivot m (by omega)
    exact ih (by omega) (rowStep_kernel hp.1 hp.2 _ (h.step m (by omega)) x hx)

/-- The cells: the inverse is found exactly when the determinant is not 0. -/
theorem inverseMem_spec (n : Nat) (hn : 0 < n) (A : MatMem K) :
    ((memMat n A).det ≠ 0 → ∃ r, inverseMem n A = .ok r ∧ memMat n r * memMat n A = 1) ∧ ((memMat n A).det = 0 → inverseMem n A = undef) := by
  obtain ⟨B, hE⟩ := dgefa_elim n A (n - 1) (by omega)
  obtain ⟨U, hUd⟩ : ∃ U, U = B (n - 1) := ⟨_, rfl⟩
  have hU : ∀ i j, i < n → j < i → U i j = 0 := fun i j hi hj => by rw [hUd]; exact hE.zero i j hi (by omega) (by omega) hj
  have ha : ∀ i j, i ≤ j → j < n → (dgefa n A (n - 1)).1 i j = U i j := fun i j hi hj => by
    rw [hUd]; exact hE.same i j (by omega) hj (by omega)
  obtain ⟨h1, h2⟩ := dgediUp_loop hU ha n (le_refl _)
  have hdet : (memMat n U).det = ∏ i : Fin n, U i i := by
    rw [Matrix.det_of_upperTriangular]
    · rfl
    · intro i j hij
      exact hU i j i.2 hij
  have good : (∀ k, k < n → U k k ≠ 0) → ∃ r, inverseMem n A = .ok r ∧ memMat n r * memMat n A = 1 := by
    intro hp
    obtain ⟨s, e, hs⟩ := h1 hp
    refine ⟨dgediDown n (dgefa n A (n - 1)).2 (n - 1) s, ?_, ?_⟩
    · rw [inverseMem, if_neg (by omega)]
      simp only [e, ok_bind]
    · rw [← memInv_iff]
      suffices hh : MemInv n (dgediDown n (dgefa n A (n - 1)).2 (n - 1) s) (B 0) by rwa [hE.start] at hh
      refine dgediDown_inv (n - 1) s hE.pivot (fun c hc i j hi hj => ?_) ?_
      · rw [hE.step c hc i j hi hj]
        simp only [rowStep]
        by_cases hci : c < i
        · rw [hs.low i c hci]
        · rw [if_neg hci, if_neg hci]
      · rw [← hUd, memInv_iff, mul_eq_one_comm, ← memInv_iff]
        intro i j hi hj
        rw [← hs.done i j hi hj]
        refine (Finset.sum_subset_zero_on_sdiff (fun x hx => ?_) (fun c hc => ?_) (fun c hc => ?_)).symm
        · have := Finset.mem_range.1 hx
          exact Finset.mem_range.2 (by omega)
        · have := Finset.mem_sdiff.1 hc
          simp only [Finset.mem_range] at this
          simp only [lowView]
          rw [if_pos (by omega), mul_zero]
        · have := Finset.mem_range.1 hc
          simp only [lowView]
          rw [if_neg (by omega)]
  by_cases hz : ∃ k, k < n ∧ U k k = 0
  · have hA : (memMat n A).det = 0 := by
      obtain ⟨k, hk, hk0⟩ := hz
      have : (memMat n U).det = 0 := by
        rw [hdet]
        exact Finset.prod_eq_zero (Finset.mem_univ (⟨k, hk⟩ : Fin n)) hk0
      obtain ⟨v, hv, hv0⟩ := Matrix.exists_mulVec_eq_zero_iff.2 this
      rw [hUd] at hv0
      exact Matrix.exists_mulVec_eq_zero_iff.1 ⟨v, hv, elim_kernel hE v (n - 1) (le_refl _) hv0⟩
    refine ⟨fun h => absurd hA h, fun _ => ?_⟩
    rw [inverseMem, if_neg (by omega)]
    simp only [h2 hz]
    rfl
  · have hg := good fun k hk h0 => hz ⟨k, hk, h0⟩
    refine ⟨fun _ => hg, fun h0 => ?_⟩
    obtain ⟨r, _, hr⟩ := hg
    have := congrArg Matrix.det hr
    rw [Matrix.det_mul, h0, mul_zero, Matrix.det_one] at this
    exact absurd this zero_ne_one

omit [LinearOrder K] [IsStrictOrderedRing K] in
theorem memMat_of_isMat {n : Nat} {A : List K} {X : Matrix (Fin n) (Fin n) K} (h : IsMat (⟨n, n, A⟩ : DMat K) X) :
    memMat n (fun i j => A.getD (i + j * n) 0) = X.transpose := by
  ext i j
  simp only [memMat, Matrix.of_apply, Matrix.transpose_apply]
  have := h.2.2.2 j i
  simp only at this
  rw [List.getD_eq_getElem?_getD, Nat.add_comm, this]
  rfl

omit [LinearOrder K] [IsStrictOrderedRing K] in
theorem isMat_cells (n : Nat) (r : MatMem K) :
    IsMat (⟨n, n, (List.range (n * n)).map fun x => r (x % n) (x / n)⟩ : DMat K) (memMat n r).transpose := by
  refine ⟨rfl, rfl, by simp, fun i j => ?_⟩
  have hn : 0 < n := by have := i.2; omega
  have hlt : i.val * n + j.val < n * n := grid_lt i.2 j.2
  simp only [List.getElem?_map, List.getElem?_range hlt, Option.map_some, memMat, Matrix.transpose_apply, Matrix.of_apply]
  rw [Nat.add_comm, Nat.add_mul_mod_self_right, Nat.mod_eq_of_lt j.2, Nat.add_mul_div_right _ _ hn, Nat.div_eq_of_lt j.2, Nat.zero_add]

/-- The inverse of a matrix that has one is found, and it is its inverse on both sides. -/
theorem C109_inverse {n : Nat} (hn : 0 < n) {A : List K} {X : Matrix (Fin n) (Fin n) K} (h : IsMat (⟨n, n, A⟩ : DMat K) X) (hX : X.det ≠ 0) :
    ∃ r R, inverseMatrix A n = .ok r ∧ IsMat (⟨n, n, r⟩ : DMat K) R ∧ X * R = 1 ∧ R * X = 1 := by
  obtain ⟨r, e, hr⟩ := (inverseMem_spec n hn fun i j => A.getD (i + j * n) 0).1 (by rw [memMat_of_isMat h, Matrix.det_transpose]; exact hX)
  rw [memMat_of_isMat h] at hr
  have h1 : X * (memMat n r).transpose = 1 := by
    have := congrArg Matrix.transpose hr
    rwa [Matrix.transpose_mul, Matrix.transpose_transpose, Matrix.transpose_one] at this
  refine ⟨_, (memMat n r).transpose, ?_, isMat_cells n r, h1, mul_eq_one_comm.1 h1⟩
  rw [inverseMatrix, e, ok_bind]

/-- A matrix without inverse is not recognized: there is a division by 0. -/
theorem C109_singular {n : Nat} (hn : 0 < n) {A : List K} {X : Matrix (Fin n) (Fin n) K} (h : IsMat (⟨n, n, A⟩ : DMat K) X) (hX : X.det = 0) :
    inverseMatrix A n = undef := by
  rw [inverseMatrix, (inverseMem_spec n hn fun i j => A.getD (i + j * n) 0).2 (by rw [memMat_of_isMat h, Matrix.det_transpose]; exact hX)]
  rfl

/-- What is answered is the inverse. -/
theorem C109_answer {n : Nat} {A : List K} {X : Matrix (Fin n) (Fin n) K} (h : IsMat (⟨n, n, A⟩ : DMat K) X) {r : List K}
    (e : inverseMatrix A n = .ok r) : ∃ R, IsMat (⟨n, n, r⟩ : DMat K) R ∧ X * R = 1 ∧ R * X = 1 := by
  rcases Nat.eq_zero_or_pos n with hn | hn
  · subst hn
    exact nomatch e
  · by_cases hX : X.det = 0
    · rw [C109_singular hn h hX] at e
      exact nomatch e
    · obtain ⟨r', R, e', hr⟩ := C109_inverse hn h hX
      rw [e'] at e
      cases e
      exact ⟨R, hr⟩

/-- Inverting twice gives the array back. -/
theorem C109_twice {n : Nat} {A r : List K} (hA : A.length = n * n) (e : inverseMatrix A n = .ok r) : inverseMatrix r n = .ok A := by
  obtain ⟨X, hX⟩ := C108_holds (⟨n, n, A⟩ : DMat K) hA
  simp only at X hX
  obtain ⟨R, hR, h1, h2⟩ := C109_answer hX e
  have hn : 0 < n := by
    rcases Nat.eq_zero_or_pos n with hn | hn
    · subst hn
      exact nomatch e
    · exact hn
  have hd : R.det ≠ 0 := fun h0 => by
    have := congrArg Matrix.det h1
    rw [Matrix.det_mul, h0, mul_zero, Matrix.det_one] at this
    exact zero_ne_one this
  obtain ⟨r', R', e', hr', g1, g2⟩ := C109_inverse hn hR hd
  have : R' = X := by
    calc R' = (X * R) * R' := by rw [h1, Matrix.one_mul]
      _ = X := by rw [Matrix.mul_assoc, g1, Matrix.mul_one]
  rw [this] at hr'
  have := C108_unique hr' hX
  rw [e']
  exact congrArg Except.ok (congrArg DMat.data this)

end

/-- a matrix whose first pivot is 0: the rows are interchanged -/
example : inverseMatrix ([0, 2, 4, 1, 0, 3, 2, 1, 0] : List ℚ) 3 = .ok [-3/16, 1/4, 3/8, 3/8, -1/2, 1/4, 1/16, 1/4, -1/8] := by decide +kernel

example : inverseMatrix ([-3/16, 1/4, 3/8, 3/8, -1/2, 1/4, 1/16, 1/4, -1/8] : List ℚ) 3 = .ok [0, 2, 4, 1, 0, 3, 2, 1, 0] := by decide +kernel

/-- twice the same row -/
example : inverseMatrix ([1, 2, 1, 2] : List ℚ) 2 = undef := by decide +kernel

/-- FINDING: the answer of `dgefa` (a zero pivot was found) is not looked at by `inverseMatrix`: a matrix without inverse makes a division by 0
and infinite values are returned without exception. -/
theorem C109_finding_singular_not_refused : inverseMatrix ([1, 2, 2, 4] : List ℚ) 2 = undef ∧ inverseMatrix ([0] : List ℚ) 1 = undef := by
  constructor <;> decide +kernel

/-- FINDING: with no row, `ipvt[n - 1]` is written before the beginning of its array. -/
theorem C109_finding_empty : inverseMatrix ([] : List ℚ) 0 = undef := by decide +kernel

end MC
