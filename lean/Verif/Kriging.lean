import Verif.MatInvThm

/-!
# Fields given by kriging (`ON_NODES_KR`)

`MEDCouplingFieldDiscretizationKriging` of `MEDCoupling/MEDCouplingFieldDiscretization.cxx`: a value is asked at points, from values on the
nodes of a mesh.  Numbers are in an ordered field; `sqrt` and `log` of the C library are two functions of this field.

Simplifications: the mesh is the array of the coordinates of its nodes (`getLocalizationOfDiscValues` for fields on nodes).  Arrays which are
written from their beginning to their end are lists made in this order; the matrix of distances, of which the code writes the cells
(i, j) and (j, i) together, is made cell after cell.
-/

namespace MC

/-- `sqrt` and `log` -/
structure KrLib (K : Type) where
  sqrt : K → K
  log : K → K

section
variable {K : Type} [Field K] [LinearOrder K]

/-- the distance of two points of `d` coordinates, at positions `i` and `j` of two arrays (MEDCouplingMemArray.cxx 2875-2881, 2939-2945) -/
def krDist (F : KrLib K) (d : Nat) (a : List K) (i : Nat) (b : List K) (j : Nat) : K :=
  F.sqrt ((List.range d).foldl (fun s k => s + (a.getD (i * d + k) 0 - b.getD (j * d + k) 0) * (a.getD (i * d + k) 0 - b.getD (j * d + k) 0)) 0)

/-- a cell of `buildEuclidianDistanceDenseMatrix` (MEDCouplingMemArray.cxx 2870-2886) -/
def krDistCell (F : KrLib K) (d : Nat) (c : List K) (i j : Nat) : K :=
  if i = j then 0 else if i < j then krDist F d c i c j else krDist F d c j c i

/-- `operateOnDenseMatrix`, on one value (MEDCouplingFieldDiscretization.cxx 4055-4104) -/
def krKernel (F : KrLib K) (d : Nat) : M (K → K) :=
  if d = 1 then .ok fun v => v * v * v
  else if d = 2 then .ok fun v => if v ≠ 0 then v * v * F.log v else v
  else if d = 3 then .ok fun v => v
  else throwX

/-- `std::copy` of `n` values from position `s` -/
def krSlice (l : List K) (s n : Nat) : List K := (l.drop s).take n

/-- `n` rows written one after the other -/
def krRows (n : Nat) (f : Nat → List K) : List K := (List.range n).flatMap f

/-- `performDrift` (MEDCouplingFieldDiscretization.cxx 4187-4229) -/
def krDrift (m c : List K) (n d : Nat) : M (List K) :=
  if n * n ≠ m.length then throwX
  else do
    let top := krRows n fun i => krSlice m (i * n) n ++ (1 :: krSlice c (i * d) d)
    let pt ← toNoInterlace d c
    let t ← allWritten pt
    .ok (top ++ ((List.replicate n 1 ++ List.replicate (d + 1) 0) ++ krRows d fun k => krSlice t (k * n) n ++ List.replicate (d + 1) 0))

/-- `computeMatrix` (MEDCouplingFieldDiscretization.cxx 3994-4010): a square matrix of order `n + (d + 1)` -/
def krMatrix (F : KrLib K) (c : List K) (n d : Nat) : M (List K) := do
  let m := (List.range (n * n)).map fun x => krDistCell F d c (x / n) (x % n)
  let g ← krKernel F d
  krDrift (m.map g) c n d

/-- `computeInverseMatrix` (MEDCouplingFieldDiscretization.cxx 3977-3987) -/
def krInverse (F : KrLib K) (c : List K) (n d : Nat) : M (List K) := do
  let m ← krMatrix F c n d
  inverseMatrix m (n + (d + 1))

/-- `computeEvaluationMatrixOnGivenPts` (MEDCouplingFieldDiscretization.cxx 3925-3966), at `nt` points -/
def krEvalMatrix (F : KrLib K) (c : List K) (n d : Nat) (loc : List K) (nt : Nat) : M (List K) := do
  let inv ← krInverse F c n d
  let m2 := (List.range (nt * n)).map fun x => krDist F d loc (x / n) c (x % n)
  let g ← krKernel F d
  let m3 := krRows nt fun i => krSlice (m2.map g) (i * n) n ++ (1 :: krSlice loc (i * d) d)
  let r ← matrixProduct m3 nt (n + (d + 1)) inv (n + (d + 1)) (n + (d + 1))
  .ok (krRows nt fun i => krSlice r (i * (n + (d + 1))) n)

/-- `getValueOnMulti` (MEDCouplingFieldDiscretization.cxx 3879-3906): the array, when there is one, has a number of tuples, a number of
components and values -/
def krValues (F : KrLib K) (c : List K) (n d : Nat) (arr : Option (Nat × Nat × List K)) (loc : List K) (nt : Nat) : M (List K) :=
  match arr with
  | none => throwX
  | some (nbT, nc, data) =>
    if nbT ≠ n then throwX
    else do
      let m ← krEvalMatrix F c n d loc nt
      matrixProduct m nt n data n nc

/-- `computeVectorOfCoefficients` and `PerformDriftOfVec` (MEDCouplingFieldDiscretization.cxx 4025-4046, 4157-4174), for an array of one
component -/
def krCoefs (F : KrLib K) (c : List K) (n d : Nat) (arr : List K) : M (List K) := do
  let inv ← krInverse F c n d
  let arr2 := arr ++ List.replicate (d + 1) 0
  matrixProduct inv (n + (d + 1)) (n + (d + 1)) arr2 arr2.length 1

end

end MC
