import Verif.DenseMat
import Mathlib.Tactic.Ring
import Mathlib.Algebra.BigOperators.Fin

/-!
# Dense matrices: theorems
-/

namespace MC
variable {K : Type}

/-- The object holds the matrix `A`: its shape, as many values as coefficients, and the values row after row. -/
def IsMat (m : DMat K) {n p : Nat} (A : Matrix (Fin n) (Fin p) K) : Prop :=
  m.rows = n ∧ m.cols = p ∧ m.data.length = n * p ∧ ∀ (i : Fin n) (j : Fin p), m.data[i.val * p + j.val]? = some (A i j)

/-- There is one object for a matrix. -/
theorem C108_unique {m m' : DMat K} {n p : Nat} {A : Matrix (Fin n) (Fin p) K} (h : IsMat m A) (h' : IsMat m' A) : m = m' := by
  obtain ⟨h1, h2, h3, h4⟩ := h
  obtain ⟨g1, g2, g3, g4⟩ := h'
  obtain ⟨r, c, d⟩ := m
  obtain ⟨r', c', d'⟩ := m'
  simp only at h1 h2 h3 h4 g1 g2 g3 g4
  subst h1 h2 g1 g2
  congr 1
  apply List.ext_getElem?
  intro x
  by_cases hx : x < r' * c'
  · have hc : 0 < c' := by
      rcases Nat.eq_zero_or_pos c' with h | h
      · rw [h, Nat.mul_zero] at hx; omega
      · exact h
    have hi : x / c' < r' := Nat.div_lt_of_lt_mul (by rwa [Nat.mul_comm])
    have hj : x % c' < c' := Nat.mod_lt _ hc
    have e := h4 ⟨_, hi⟩ ⟨_, hj⟩
    have e' := g4 ⟨_, hi⟩ ⟨_, hj⟩
    simp only [Nat.div_add_mod'] at e e'
    rw [e, e']
  · rw [List.getElem?_eq_none (by omega), List.getElem?_eq_none (by omega)]

/-- Every object with as many values as coefficients holds a matrix. -/
theorem C108_holds (m : DMat K) (h : m.data.length = m.rows * m.cols) : ∃ A : Matrix (Fin m.rows) (Fin m.cols) K, IsMat m A :=
  ⟨fun i j => m.data[i.val * m.cols + j.val]'(by rw [h]; exact grid_lt i.isLt j.isLt), rfl, rfl, h,
    fun i j => List.getElem?_eq_getElem _⟩

theorem allWritten_some (r : List K) : allWritten (r.map some) = .ok r := by
  unfold allWritten
  induction r with
  | nil => rfl
  | cons a r ih => simp only [List.map_cons, List.mapM_cons, ih, ok_bind]; rfl

/-! ## Building -/

/-- An array makes a matrix exactly when it has one component and as many values as coefficients. -/
theorem C108_new (arr : DArrPtr K) (nbRows nbCols : Int) (m : DMat K) :
    dmNew arr nbRows nbCols = .ok m ↔ ∃ v, arr = some (1, v) ∧ 0 ≤ nbRows ∧ 0 ≤ nbCols ∧ nbRows * nbCols = v.length ∧
      (m.rows : Int) = nbRows ∧ (m.cols : Int) = nbCols ∧ m.data = v := by
  obtain ⟨r, c, d⟩ := m
  unfold dmNew dmCheckArray
  by_cases hn : nbRows < 0 ∨ nbCols < 0
  · rw [if_pos hn]
    constructor
    · intro h; exact nomatch h
    · rintro ⟨v, _, h1, h2, _⟩; omega
  rw [if_neg hn]
  cases arr with
  | none =>
    constructor
    · intro h; exact nomatch h
    · rintro ⟨v, h, _⟩; exact nomatch h
  | some a =>
    obtain ⟨nc, v⟩ := a
    simp only
    by_cases h1 : nc ≠ 1
    · rw [if_pos h1]
      constructor
      · intro h; exact nomatch h
      · rintro ⟨w, h, _⟩; simp only [Option.some.injEq, Prod.mk.injEq] at h; exact absurd h.1 h1
    rw [if_neg h1]
    by_cases h2 : nbRows * nbCols ≠ v.length
    · rw [if_pos h2]
      constructor
      · intro h; exact nomatch h
      · rintro ⟨w, h, _, _, h3, _⟩
        simp only [Option.some.injEq, Prod.mk.injEq] at h
        rw [h.2] at h2
        exact absurd h3 h2
    rw [if_neg h2]
    simp only [ok_bind, Except.ok.injEq, DMat.mk.injEq]
    constructor
    · rintro ⟨rfl, rfl, rfl⟩
      exact ⟨v, by rw [not_not.mp h1], by omega, by omega, not_not.mp h2, by omega, by omega, rfl⟩
    · rintro ⟨w, h, h3, h4, _, h5, h6, rfl⟩
      simp only [Option.some.injEq, Prod.mk.injEq] at h
      exact ⟨by omega, by omega, h.2⟩

theorem dmExt_eq (old : Nat) (nb : Int) (h : -1 ≤ nb) : dmExt old nb = .ok (if nb = -1 then (old : Int) else nb) := by
  unfold dmExt
  rw [if_neg (by omega)]
  split <;> rfl

/-- Rebuilding is building, with the old number of rows or of columns in place of -1. -/
theorem C108_rebuild (m : DMat K) (arr : DArrPtr K) (nbRows nbCols : Int) (hr : -1 ≤ nbRows) (hc : -1 ≤ nbCols) :
    dmReBuild m arr nbRows nbCols = dmNew arr (if nbRows = -1 then m.rows else nbRows) (if nbCols = -1 then m.cols else nbCols) := by
  unfold dmReBuild
  rw [dmExt_eq _ _ hr, dmExt_eq _ _ hc]
  rfl

/-- Below -1 it throws. -/
theorem C108_rebuild_throws (m : DMat K) (arr : DArrPtr K) (nbRows nbCols : Int) (h : nbRows < -1 ∨ nbCols < -1) :
    dmReBuild m arr nbRows nbCols = throwX := by
  unfold dmReBuild
  by_cases hr : nbRows < -1
  · simp only [dmExt, if_pos hr]; rfl
  · rw [dmExt_eq _ _ (by omega), ok_bind]
    simp only [dmExt, if_pos (h.resolve_left hr)]
    rfl

/-- Reshaping keeps the values, and throws exactly when their number would change. -/
theorem C108_reshape (m : DMat K) (nbRows nbCols : Int) (r : DMat K) :
    dmReShape m nbRows nbCols = .ok r ↔ 0 ≤ nbRows ∧ 0 ≤ nbCols ∧ nbRows * nbCols = m.data.length ∧
      (r.rows : Int) = nbRows ∧ (r.cols : Int) = nbCols ∧ r.data = m.data := by
  obtain ⟨r, c, d⟩ := r
  unfold dmReShape
  split
  · constructor
    · intro h; exact nomatch h
    · rintro ⟨h1, h2, _⟩; omega
  split
  · constructor
    · intro h; exact nomatch h
    · rintro ⟨_, _, h3, _⟩; contradiction
  simp only [Except.ok.injEq, DMat.mk.injEq]
  constructor
  · rintro ⟨rfl, rfl, rfl⟩; exact ⟨by omega, by omega, by omega, by omega, by omega, rfl⟩
  · rintro ⟨h1, h2, _, h3, h4, rfl⟩; exact ⟨by omega, by omega, rfl⟩

/-! ## Transposition -/

/-- Transposing gives the transposed matrix. -/
theorem C108_transpose {m : DMat K} {n p : Nat} {A : Matrix (Fin n) (Fin p) K} (h : IsMat m A) (hp : 0 < p) :
    ∃ r, dmTranspose m = .ok r ∧ IsMat r A.transpose := by
  obtain ⟨h1, h2, h3, h4⟩ := h
  obtain ⟨v, e1, e2, e3⟩ := C23_toNoInterlace n p m.data h3 hp
  refine ⟨⟨m.cols, m.rows, v⟩, ?_, h2, h1, by simp only; rw [e2, Nat.mul_comm], ?_⟩
  · unfold dmTranspose
    rw [h2, e1]
    simp only [ok_bind, allWritten_some]
  · intro i j
    have := e3 j.val i.val j.isLt i.isLt
    rw [h4 j i] at this
    exact this

/-- A matrix without columns cannot be transposed. -/
theorem C108_finding_transpose_empty (m : DMat K) (h : m.cols = 0) : dmTranspose m = throwX := by
  unfold dmTranspose toNoInterlace
  rw [h]
  rfl

/-- Transposing twice gives the matrix again. -/
theorem C108_transpose_twice {m : DMat K} (h : m.data.length = m.rows * m.cols) (hr : 0 < m.rows) (hc : 0 < m.cols) :
    (dmTranspose m >>= dmTranspose) = .ok m := by
  obtain ⟨A, hA⟩ := C108_holds m h
  obtain ⟨r, hr1, hr2⟩ := C108_transpose hA hc
  obtain ⟨s, hs1, hs2⟩ := C108_transpose hr2 hr
  rw [hr1, ok_bind, hs1, C108_unique hs2 (m' := m) (by rw [Matrix.transpose_transpose]; exact hA)]

/-! ## Products -/

section
variable [CommRing K]

theorem matCell_eq {A B : List K} {n p q : Nat} {MA : Matrix (Fin n) (Fin p) K} {MB : Matrix (Fin p) (Fin q) K}
    (hA : ∀ (i : Fin n) (j : Fin p), A[i.val * p + j.val]? = some (MA i j)) (hB : ∀ (i : Fin p) (j : Fin q), B[i.val * q + j.val]? = some (MB i j))
    (i : Fin n) (j : Fin q) : matCell A p B q i j = .ok ((MA * MB) i j) := by
  have key : ∀ k (hk : k ≤ p), loop k (0 : K) (fun k c => do
      let a ← rd A ((i.val * p + k : Nat) : Int)
      let b ← rd B ((k * q + j.val : Nat) : Int)
      .ok (c + a * b)) = .ok (∑ x : Fin k, MA i (Fin.castLE hk x) * MB (Fin.castLE hk x) j) := by
    intro k
    induction k with
    | zero => intro _; simp [loop]
    | succ k ih =>
      intro hk
      rw [loop_succ, ih (by omega), ok_bind, rd_of_getElem? (by omega) (hA i ⟨k, hk⟩), ok_bind, rd_of_getElem? (by omega) (hB ⟨k, hk⟩ j), ok_bind,
        Fin.sum_univ_castSucc]
      rfl
  have := key p (Nat.le_refl p)
  unfold matCell
  rw [this]
  rfl

theorem matrixProduct_eq {A B : List K} {n p q : Nat} {MA : Matrix (Fin n) (Fin p) K} {MB : Matrix (Fin p) (Fin q) K}
    (hA : ∀ (i : Fin n) (j : Fin p), A[i.val * p + j.val]? = some (MA i j)) (hB : ∀ (i : Fin p) (j : Fin q), B[i.val * q + j.val]? = some (MB i j)) :
    ∃ v, matrixProduct A n p B p q = .ok v ∧ v.length = n * q ∧ ∀ (i : Fin n) (j : Fin q), v[i.val * q + j.val]? = some ((MA * MB) i j) := by
  obtain ⟨r, h1, h2, h3⟩ := emit_grid (n := n) (m := q) (N := n * q) (g := fun i j => matCell A p B q i j)
    (fun i j hi hj => ⟨_, matCell_eq hA hB ⟨i, hi⟩ ⟨j, hj⟩⟩) (Nat.le_refl _)
  refine ⟨r, ?_, h2, ?_⟩
  · unfold matrixProduct
    rw [if_neg (by simp), h1]
    simp only [ok_bind]
    rw [filled_full h2, allWritten_some]
  · intro i j
    obtain ⟨v, hv, hg⟩ := h3 i.val j.val i.isLt j.isLt
    rw [matCell_eq hA hB i j] at hg
    injection hg with hg
    rw [hv, hg]

/-- Multiplying gives the product of the matrices. -/
theorem C108_multiply {a b : DMat K} {n p q : Nat} {A : Matrix (Fin n) (Fin p) K} {B : Matrix (Fin p) (Fin q) K} (hA : IsMat a A) (hB : IsMat b B) :
    ∃ r, dmMultiply a b = .ok r ∧ IsMat r (A * B) := by
  obtain ⟨a1, a2, a3, a4⟩ := hA
  obtain ⟨b1, b2, b3, b4⟩ := hB
  obtain ⟨v, h1, h2, h3⟩ := matrixProduct_eq a4 b4
  refine ⟨⟨n, q, v⟩, ?_, rfl, rfl, h2, h3⟩
  unfold dmMultiply
  rw [if_neg (by rw [a2, b1]; simp), a1, a2, b1, b2, h1, ok_bind]
  exact (C108_new _ _ _ _).mpr ⟨v, rfl, by omega, by omega, by rw [h2]; push_cast; rfl, rfl, rfl, rfl⟩

/-- It throws when the number of columns of the first is not the number of rows of the second. -/
theorem C108_multiply_throws (a b : DMat K) (h : a.cols ≠ b.rows) : dmMultiply a b = throwX := if_pos h

/-- The product of a matrix and a vector. -/
theorem C108_matvec {a : DMat K} {n p : Nat} {A : Matrix (Fin n) (Fin p) K} (hA : IsMat a A) (x : Fin p → K) :
    ∃ v, dmMatVec a (some (1, List.ofFn x)) = .ok v ∧ v = List.ofFn (A.mulVec x) := by
  obtain ⟨a1, a2, a3, a4⟩ := hA
  have hB : ∀ (i : Fin p) (j : Fin 1), (List.ofFn x)[i.val * 1 + j.val]? = some ((Matrix.of fun i (_ : Fin 1) => x i) i j) := by
    intro i j
    have hj : j.val = 0 := by omega
    rw [hj, Nat.mul_one, Nat.add_zero, List.getElem?_ofFn]
    simp
  obtain ⟨v, h1, h2, h3⟩ := matrixProduct_eq a4 hB
  refine ⟨v, ?_, ?_⟩
  · simp only [dmMatVec, List.length_ofFn, ne_eq, not_true_eq_false, if_false]
    rw [if_neg (by rw [a2]; simp), a1, a2, h1]
  · apply List.ext_getElem?
    intro k
    by_cases hk : k < n
    · have := h3 ⟨k, hk⟩ 0
      simp only [Fin.val_zero, Nat.mul_one, Nat.add_zero] at this
      rw [this, List.getElem?_ofFn, dif_pos hk]
      rfl
    · rw [List.getElem?_eq_none (by omega), List.getElem?_eq_none (by simp; omega)]

/-- It throws when the vector has not as many values as the matrix has columns, or has not one component. -/
theorem C108_matvec_throws (a : DMat K) (vec : DArrPtr K) (h : ∀ v, vec = some (1, v) → v.length ≠ a.cols) : dmMatVec a vec = throwX := by
  cases vec with
  | none => rfl
  | some w =>
    obtain ⟨nc, v⟩ := w
    simp only [dmMatVec]
    by_cases h1 : nc ≠ 1
    · rw [if_pos h1]
    · rw [if_neg h1, if_pos (h v (by rw [not_not.mp h1]))]

/-- The product by an array and the product by a vector have the same values. -/
theorem C108_multiply_array {a : DMat K} {n p : Nat} {A : Matrix (Fin n) (Fin p) K} (hA : IsMat a A) (x : Fin p → K) :
    (dmMultiplyArr a (some (1, List.ofFn x)) >>= fun r => .ok r.data) = dmMatVec a (some (1, List.ofFn x)) := by
  have hB : ∀ (i : Fin p) (j : Fin 1), (List.ofFn x)[i.val * 1 + j.val]? = some ((Matrix.of fun i (_ : Fin 1) => x i) i j) := by
    intro i j
    have hj : j.val = 0 := by omega
    rw [hj, Nat.mul_one, Nat.add_zero, List.getElem?_ofFn]
    simp
  have hb : IsMat (⟨p, 1, List.ofFn x⟩ : DMat K) (Matrix.of fun i (_ : Fin 1) => x i) := ⟨rfl, rfl, by simp, hB⟩
  have hn : dmNew (some (1, List.ofFn x)) ((List.ofFn x).length : Int) 1 = .ok (⟨p, 1, List.ofFn x⟩ : DMat K) :=
    (C108_new _ _ _ _).mpr ⟨_, rfl, by omega, by omega, by simp, by simp, rfl, rfl⟩
  obtain ⟨r, h1, h2⟩ := C108_multiply hA hb
  obtain ⟨v, h3, h4⟩ := C108_matvec hA x
  rw [h3, h4]
  simp only [dmMultiplyArr, ne_eq, not_true_eq_false, if_false, hn, ok_bind, h1]
  congr 1
  obtain ⟨r1, r2, r3, r4⟩ := h2
  apply List.ext_getElem?
  intro k
  by_cases hk : k < n
  · have := r4 ⟨k, hk⟩ 0
    simp only [Fin.val_zero, Nat.mul_one, Nat.add_zero] at this
    rw [this, List.getElem?_ofFn, dif_pos hk]
    rfl
  · rw [List.getElem?_eq_none (by omega), List.getElem?_eq_none (by simp; omega)]

/-! ## Sums -/

theorem zip_value {f : K → K → K} {l l' : List K} {k : Nat} {x y : K} (h : l[k]? = some x) (h' : l'[k]? = some y) :
    (List.zipWith f l l')[k]? = some (f x y) := by
  rw [List.getElem?_zipWith, h, h']

theorem sum_size {a b : DMat K} {n p : Nat} {A B : Matrix (Fin n) (Fin p) K} (hA : IsMat a A) (hB : IsMat b B) : dmSameSize a b = .ok () := by
  unfold dmSameSize
  rw [if_neg (by rw [hA.1, hB.1]; simp), if_neg (by rw [hA.2.1, hB.2.1]; simp)]

/-- Adding gives the sum of the matrices. -/
theorem C108_add {a b : DMat K} {n p : Nat} {A B : Matrix (Fin n) (Fin p) K} (hA : IsMat a A) (hB : IsMat b B) :
    ∃ r, dmAdd a b = .ok r ∧ IsMat r (A + B) := by
  have hl : (List.zipWith (· + ·) a.data b.data).length = n * p := by simp [hA.2.2.1, hB.2.2.1]
  refine ⟨⟨n, p, List.zipWith (· + ·) a.data b.data⟩, ?_, rfl, rfl, hl, fun i j => zip_value (hA.2.2.2 i j) (hB.2.2.2 i j)⟩
  unfold dmAdd
  rw [sum_size hA hB, ok_bind, hA.1, hA.2.1]
  exact (C108_new _ _ _ _).mpr ⟨_, rfl, by omega, by omega, by rw [hl]; push_cast; rfl, rfl, rfl, rfl⟩

/-- Subtracting gives the difference of the matrices. -/
theorem C108_sub {a b : DMat K} {n p : Nat} {A B : Matrix (Fin n) (Fin p) K} (hA : IsMat a A) (hB : IsMat b B) :
    ∃ r, dmSub a b = .ok r ∧ IsMat r (A - B) := by
  have hl : (List.zipWith (· - ·) a.data b.data).length = n * p := by simp [hA.2.2.1, hB.2.2.1]
  refine ⟨⟨n, p, List.zipWith (· - ·) a.data b.data⟩, ?_, rfl, rfl, hl, fun i j => zip_value (hA.2.2.2 i j) (hB.2.2.2 i j)⟩
  unfold dmSub
  rw [sum_size hA hB, ok_bind, hA.1, hA.2.1]
  exact (C108_new _ _ _ _).mpr ⟨_, rfl, by omega, by omega, by rw [hl]; push_cast; rfl, rfl, rfl, rfl⟩

/-- Both throw on matrices of different shapes. -/
theorem C108_sum_throws (a b : DMat K) (h : a.rows ≠ b.rows ∨ a.cols ≠ b.cols) : dmAdd a b = throwX ∧ dmSub a b = throwX := by
  have : dmSameSize a b = throwX := by
    unfold dmSameSize
    by_cases h1 : a.rows ≠ b.rows
    · rw [if_pos h1]
    · rw [if_neg h1, if_pos (h.resolve_left h1)]
  unfold dmAdd dmSub
  rw [this]
  exact ⟨rfl, rfl⟩

/-! ## Laws -/

/-- What is asked from an object: as many values as coefficients. -/
def DMat.Sized (m : DMat K) : Prop := m.data.length = m.rows * m.cols

theorem DMat.Sized.mat {m : DMat K} (h : m.Sized) {n p : Nat} (hn : m.rows = n) (hp : m.cols = p) : ∃ A : Matrix (Fin n) (Fin p) K, IsMat m A := by
  subst hn hp
  exact C108_holds m h

/-- The order of two products does not matter. -/
theorem C108_associative {a b c : DMat K} (ha : a.Sized) (hb : b.Sized) (hc : c.Sized) (h1 : a.cols = b.rows) (h2 : b.cols = c.rows) :
    (dmMultiply a b >>= fun ab => dmMultiply ab c) = (dmMultiply b c >>= fun bc => dmMultiply a bc) := by
  obtain ⟨A, hA⟩ := ha.mat rfl h1
  obtain ⟨B, hB⟩ := hb.mat rfl h2
  obtain ⟨C, hC⟩ := hc.mat rfl rfl
  obtain ⟨ab, e1, i1⟩ := C108_multiply hA hB
  obtain ⟨bc, e2, i2⟩ := C108_multiply hB hC
  obtain ⟨l, e3, i3⟩ := C108_multiply i1 hC
  obtain ⟨r, e4, i4⟩ := C108_multiply hA i2
  rw [e1, e2, ok_bind, ok_bind, e3, e4, C108_unique i3 (m' := r) (by rw [Matrix.mul_assoc]; exact i4)]

/-- The transposed product is the product of the transposed matrices the other way round. -/
theorem C108_transposed_product {a b : DMat K} (ha : a.Sized) (hb : b.Sized) (h1 : a.cols = b.rows) (hp : 0 < a.cols) (hq : 0 < b.cols) :
    (dmMultiply a b >>= dmTranspose) = (do
      let bt ← dmTranspose b
      let at' ← dmTranspose a
      dmMultiply bt at') := by
  obtain ⟨A, hA⟩ := ha.mat rfl h1
  obtain ⟨B, hB⟩ := hb.mat rfl rfl
  obtain ⟨ab, e1, i1⟩ := C108_multiply hA hB
  obtain ⟨l, e2, i2⟩ := C108_transpose i1 hq
  obtain ⟨bt, e3, i3⟩ := C108_transpose hB hq
  obtain ⟨at', e4, i4⟩ := C108_transpose hA (by omega)
  obtain ⟨r, e5, i5⟩ := C108_multiply i3 i4
  rw [e1, ok_bind, e2, e3, ok_bind, e4, ok_bind, e5, C108_unique i2 (m' := r) (by rw [Matrix.transpose_mul]; exact i5)]

/-- A product by a sum is the sum of the products. -/
theorem C108_distributive {a b c : DMat K} (ha : a.Sized) (hb : b.Sized) (hc : c.Sized) (h1 : a.cols = b.rows) (h2 : b.rows = c.rows)
    (h3 : b.cols = c.cols) :
    (dmAdd b c >>= fun s => dmMultiply a s) = (do
      let x ← dmMultiply a b
      let y ← dmMultiply a c
      dmAdd x y) := by
  obtain ⟨A, hA⟩ := ha.mat rfl (h1.trans h2)
  obtain ⟨B, hB⟩ := hb.mat h2 h3
  obtain ⟨C, hC⟩ := hc.mat rfl rfl
  obtain ⟨s, e1, i1⟩ := C108_add hB hC
  obtain ⟨l, e2, i2⟩ := C108_multiply hA i1
  obtain ⟨x, e3, i3⟩ := C108_multiply hA hB
  obtain ⟨y, e4, i4⟩ := C108_multiply hA hC
  obtain ⟨r, e5, i5⟩ := C108_add i3 i4
  rw [e1, ok_bind, e2, e3, ok_bind, e4, ok_bind, e5, C108_unique i2 (m' := r) (by rw [Matrix.mul_add]; exact i5)]

/-- Adding then subtracting the same matrix gives the matrix again. -/
theorem C108_add_sub {a b : DMat K} (ha : a.Sized) (hb : b.Sized) (h1 : a.rows = b.rows) (h2 : a.cols = b.cols) :
    (dmAdd a b >>= fun s => dmSub s b) = .ok a := by
  obtain ⟨A, hA⟩ := ha.mat h1 h2
  obtain ⟨B, hB⟩ := hb.mat rfl rfl
  obtain ⟨s, e1, i1⟩ := C108_add hA hB
  obtain ⟨r, e2, i2⟩ := C108_sub i1 hB
  rw [e1, ok_bind, e2, C108_unique i2 (m' := a) (by rw [add_sub_cancel_right]; exact hA)]

end

/-! ## Concrete cases -/

/-- `[[1, 2, 3], [4, 5, 6]]` -/
def sampleM : DMat Int := ⟨2, 3, [1, 2, 3, 4, 5, 6]⟩

/-- `[[1, 0], [2, 1], [0, -1]]` -/
def sampleN : DMat Int := ⟨3, 2, [1, 0, 2, 1, 0, -1]⟩

example : IsMat sampleM (Matrix.of ![![1, 2, 3], ![4, 5, 6]]) := ⟨rfl, rfl, rfl, by decide⟩
example : dmNew (some (1, [1, 2, 3, 4, 5, 6])) 2 3 = .ok sampleM ∧ dmNew (some (1, [1, 2])) 2 3 = (throwX : M (DMat Int)) := by decide +kernel
example : dmReBuild sampleM (some (1, [1, 0, 2])) 1 (-1) = .ok ⟨1, 3, [1, 0, 2]⟩ := by decide +kernel
example : dmReShape sampleM 3 2 = .ok ⟨3, 2, [1, 2, 3, 4, 5, 6]⟩ ∧ dmReShape sampleM 2 2 = throwX := by decide +kernel
example : dmTranspose sampleM = .ok ⟨3, 2, [1, 4, 2, 5, 3, 6]⟩ ∧ (dmTranspose sampleM >>= dmTranspose) = .ok sampleM := by decide +kernel
example : dmMultiply sampleM sampleN = .ok ⟨2, 2, [5, -1, 14, -1]⟩ ∧ dmMultiply sampleM sampleM = throwX := by decide +kernel
example : dmMatVec sampleM (some (1, [1, 0, -1])) = .ok [-2, -2] ∧ dmMatVec sampleM (some (1, [1, 0])) = throwX := by decide +kernel
example : dmMultiplyArr sampleM (some (1, [1, 0, -1])) = .ok ⟨2, 1, [-2, -2]⟩ := by decide +kernel
example : dmAdd sampleM sampleM = .ok ⟨2, 3, [2, 4, 6, 8, 10, 12]⟩ ∧ dmSub sampleM sampleM = .ok ⟨2, 3, [0, 0, 0, 0, 0, 0]⟩ ∧
    dmAdd sampleM sampleN = throwX := by decide +kernel
example : sampleM.Sized ∧ sampleN.Sized ∧ sampleM.cols = sampleN.rows := ⟨rfl, rfl, rfl⟩

end MC
