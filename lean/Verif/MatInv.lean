import Verif.DenseMatThm
import Mathlib.Algebra.Order.Field.Basic
import Mathlib.Algebra.Order.AbsoluteValue.Basic

/-!
# The inverse of a matrix

`inverseMatrix` of `INTERP_KERNEL/InterpKernelMatrixTools.cxx` (LINPACK: `dgefa`, `dgedi`).  Numbers are in an ordered field, so nothing is
rounded.

Simplifications: the cell `a[i + j * lda]` is `a i j`; the loops of `dscal`, `daxpy` and `dswap` (unrolled in the code) treat their entries
all at once, and so do the loops on columns which do not depend on each other.  A division by 0 (infinite in the code) is left out
(`undef`).
-/

namespace MC

/-- the memory of a matrix: row, column -/
abbrev MatMem (K : Type) := Nat → Nat → K

section
variable {K : Type} [Field K] [LinearOrder K]

/-- `idamax` with increment 1, on `m + 1` entries (InterpKernelMatrixTools.cxx 239-261): the first entry of largest absolute value -/
def idamax (f : Nat → K) : Nat → Nat
  | 0 => 0
  | m + 1 => if |f (idamax f m)| < |f (m + 1)| then m + 1 else idamax f m

/-- the interchange in the pivot column (InterpKernelMatrixTools.cxx 328-334) -/
def dgefaSwap (k l : Nat) (a : MatMem K) : MatMem K := fun i j =>
  if j = k then (if i = k then a l k else if i = l then a k k else a i j) else a i j

/-- the multipliers (InterpKernelMatrixTools.cxx 335-337) -/
def dgefaScale (n k : Nat) (a : MatMem K) : MatMem K := fun i j =>
  if j = k ∧ k < i ∧ i < n then a i j * (-1 / a k k) else a i j

/-- the elimination in the other columns (InterpKernelMatrixTools.cxx 338-348) -/
def dgefaElim (n k l : Nat) (a : MatMem K) : MatMem K := fun i j =>
  if k < j ∧ j < n then
    (if i = k then a l j else if i = l then a k j else a i j) + (if k < i ∧ i < n then a l j * a i k else 0)
  else a i j

/-- one turn of the loop of `dgefa`, and the pivot (InterpKernelMatrixTools.cxx 316-349) -/
def dgefaStep (n k : Nat) (a : MatMem K) : MatMem K × Nat :=
  let l := idamax (fun i => a (k + i) k) (n - k - 1) + k
  if a l k = 0 then (a, l) else (dgefaElim n k l (dgefaScale n k (dgefaSwap k l a)), l)

/-- `m` turns of the loop of `dgefa` (InterpKernelMatrixTools.cxx 309-354): the matrix and the pivots -/
def dgefa (n : Nat) (a : MatMem K) : Nat → MatMem K × (Nat → Nat)
  | 0 => (a, fun _ => 0)
  | m + 1 =>
    let s := dgefa n a m
    let r := dgefaStep n m s.1
    (r.1, fun x => if x = m then r.2 else s.2 x)

/-- one turn of the first loop of `dgedi` (InterpKernelMatrixTools.cxx 384-395) -/
def dgediUp (n k : Nat) (a : MatMem K) : M (MatMem K) :=
  if a k k = 0 then undef
  else .ok fun i j =>
    if j = k then (if i = k then 1 / a k k else if i < k then a i k * -(1 / a k k) else a i k)
    else if k < j ∧ j < n then
      (if i = k then 0 + a k j * (1 / a k k) else if i < k then a i j + a k j * (a i k * -(1 / a k k)) else a i j)
    else a i j

/-- one turn of the second loop of `dgedi` (InterpKernelMatrixTools.cxx 397-413) -/
def dgediLow (n k l : Nat) (a : MatMem K) : MatMem K :=
  let b : MatMem K := fun i j =>
    if j = k then (if k < i then 0 else a i k) + ∑ y ∈ Finset.Ico (k + 1) n, a y k * a i y else a i j
  fun i j => if j = k then b i l else if j = l then b i k else b i j

/-- the second loop of `dgedi`, for k = m - 1 down to 0 -/
def dgediDown (n : Nat) (ip : Nat → Nat) : Nat → MatMem K → MatMem K
  | 0, a => a
  | m + 1, a => dgediDown n ip m (dgediLow n m (ip m) a)

/-- `inverseMatrix` on the cells (InterpKernelMatrixTools.cxx 436-444).  For `n = 0`, `ipvt[n - 1]` is written out of its array. -/
def inverseMem (n : Nat) (a : MatMem K) : M (MatMem K) :=
  if n = 0 then undef
  else do
    let f := dgefa n a (n - 1)
    let u ← loop n f.1 (dgediUp n)
    .ok (dgediDown n f.2 (n - 1) u)

/-- `inverseMatrix` on arrays: column after column, as seen by LINPACK -/
def inverseMatrix (A : List K) (n : Nat) : M (List K) := do
  let r ← inverseMem n fun i j => A.getD (i + j * n) 0
  .ok ((List.range (n * n)).map fun x => r (x % n) (x / n))

end

end MC
