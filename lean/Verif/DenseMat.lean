import Verif.LayoutProps
import Mathlib.Data.Matrix.Mul

/-!
# Dense matrices

`MEDCoupling/MEDCouplingMatrix.cxx` and `matrixProduct` of `INTERP_KERNEL/InterpKernelMatrixTools.cxx`.  Coefficients are in a commutative
ring, so nothing is rounded.  An array is its number of components and its values.

Simplification: a matrix owns its values; the array shared between a matrix and its shallow copies is not in the model.
-/

namespace MC

/-- `DenseMatrix` (MEDCouplingMatrix.hxx 35-108): `_nb_rows`, `_nb_cols` and the values of `_data`, row after row -/
structure DMat (K : Type) where
  rows : Nat
  cols : Nat
  data : List K
deriving DecidableEq

/-- a `DataArrayDouble *`: none when null or not allocated, else the number of components and the values -/
abbrev DArrPtr (K : Type) := Option (Nat × List K)

variable {K : Type}

/-- `DenseMatrix::CheckArraySizes` (MEDCouplingMatrix.cxx 340-357), the values -/
def dmCheckArray (arr : DArrPtr K) (nbRows nbCols : Int) : M (List K) :=
  if nbRows < 0 ∨ nbCols < 0 then throwX
  else match arr with
    | none => throwX
    | some (nc, v) => if nc ≠ 1 then throwX else if nbRows * nbCols ≠ v.length then throwX else .ok v

/-- `DenseMatrix::New` on an array (MEDCouplingMatrix.cxx 35-39, 299-304) -/
def dmNew (arr : DArrPtr K) (nbRows nbCols : Int) : M (DMat K) := do
  let v ← dmCheckArray arr nbRows nbCols
  .ok ⟨nbRows.toNat, nbCols.toNat, v⟩

/-- `getNumberOfRowsExt`, `getNumberOfColsExt` (MEDCouplingMatrix.cxx 306-326) -/
def dmExt (old : Nat) (nb : Int) : M Int := if nb < -1 then throwX else if nb = -1 then .ok old else .ok nb

/-- `DenseMatrix::reBuild` (MEDCouplingMatrix.cxx 88-111) -/
def dmReBuild (m : DMat K) (arr : DArrPtr K) (nbRows nbCols : Int) : M (DMat K) := do
  let nbr ← dmExt m.rows nbRows
  let nbc ← dmExt m.cols nbCols
  let v ← dmCheckArray arr nbr nbc
  .ok ⟨nbr.toNat, nbc.toNat, v⟩

/-- `DenseMatrix::reShape` (MEDCouplingMatrix.cxx 122-142) -/
def dmReShape (m : DMat K) (nbRows nbCols : Int) : M (DMat K) :=
  if nbRows < 0 ∨ nbCols < 0 then throwX
  else if nbRows * nbCols ≠ m.data.length then throwX
  else .ok ⟨nbRows.toNat, nbCols.toNat, m.data⟩

/-- reading memory which was written everywhere -/
def allWritten (l : List (Option K)) : M (List K) :=
  l.mapM fun x => match x with
    | some v => .ok v
    | none => undef

/-- `DenseMatrix::transpose` (MEDCouplingMatrix.cxx 144-153) -/
def dmTranspose (m : DMat K) : M (DMat K) := do
  let pt ← toNoInterlace m.cols m.data
  let v ← allWritten pt
  .ok ⟨m.cols, m.rows, v⟩

section
variable [CommRing K]

/-- the loop on k of `matrixProduct` (InterpKernelMatrixTools.cxx 430-431); the sum is in the cell of the result -/
def matCell (A : List K) (p1 : Nat) (B : List K) (p2 i j : Nat) : M K :=
  loop p1 0 fun k c => do
    let a ← rd A ((i * p1 + k : Nat) : Int)
    let b ← rd B ((k * p2 + j : Nat) : Int)
    .ok (c + a * b)

/-- `INTERP_KERNEL::matrixProduct` (InterpKernelMatrixTools.cxx 416-434), into an array of `n1 * p2` values; the cells are written in
order. -/
def matrixProduct (A : List K) (n1 p1 : Nat) (B : List K) (n2 p2 : Nat) : M (List K) :=
  if p1 ≠ n2 then throwX
  else do
    let s ← loop n1 (newCur K (n1 * p2)) fun i w =>
      loop p2 w fun j w => do
        let v ← matCell A p1 B p2 i j
        emit w v
    allWritten s.1

/-- `DenseMatrix::MatVecMult` (MEDCouplingMatrix.cxx 192-218), the values of the result -/
def dmMatVec (m : DMat K) (vec : DArrPtr K) : M (List K) :=
  match vec with
  | none => throwX
  | some (nc, v) =>
    if nc ≠ 1 then throwX
    else if v.length ≠ m.cols then throwX
    else matrixProduct m.data m.rows m.cols v v.length 1

/-- `DenseMatrix::CheckSameSize` (MEDCouplingMatrix.cxx 359-370) -/
def dmSameSize (a b : DMat K) : M Unit := if a.rows ≠ b.rows then throwX else if a.cols ≠ b.cols then throwX else .ok ()

/-- `DenseMatrix::Add`, `addEqual` (MEDCouplingMatrix.cxx 220-239).  `DataArrayDouble::Add` on arrays of one component and the same
length: value by value. -/
def dmAdd (a b : DMat K) : M (DMat K) := do
  dmSameSize a b
  dmNew (some (1, List.zipWith (· + ·) a.data b.data)) a.rows a.cols

/-- `DenseMatrix::Substract`, `substractEqual` (MEDCouplingMatrix.cxx 241-260) -/
def dmSub (a b : DMat K) : M (DMat K) := do
  dmSameSize a b
  dmNew (some (1, List.zipWith (· - ·) a.data b.data)) a.rows a.cols

/-- `DenseMatrix::Multiply` of matrices (MEDCouplingMatrix.cxx 262-283, `CheckCompatibleSizeForMul` 372-383) -/
def dmMultiply (a b : DMat K) : M (DMat K) :=
  if a.cols ≠ b.rows then throwX
  else do
    let v ← matrixProduct a.data a.rows a.cols b.data b.rows b.cols
    dmNew (some (1, v)) a.rows b.cols

/-- `DenseMatrix::Multiply` by an array (MEDCouplingMatrix.cxx 285-294) -/
def dmMultiplyArr (a : DMat K) (arr : DArrPtr K) : M (DMat K) :=
  match arr with
  | none => throwX
  | some (nc, v) =>
    if nc ≠ 1 then throwX
    else do
      let b ← dmNew (some (nc, v)) v.length 1
      dmMultiply a b

end

end MC
