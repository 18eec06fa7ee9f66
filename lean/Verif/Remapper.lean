import Verif.StdAlg
import Mathlib.Algebra.Order.Field.Basic

/-!
# Remapper: denominators of the natures of fields, products and reverse products (MEDCoupling/MEDCouplingRemapper.cxx)

The numbers are the elements of an ordered field `K` instead of doubles: the roundings are not modelled, and a division by zero gives zero.
The crude matrix, a vector of `std::map`, is a list of rows, each row being a list of pairs sorted by column.  The computation of the crude
matrix itself from the geometry is not modelled: the matrix is given, as in `setCrudeMatrix`.
-/

namespace MC
section
variable {K : Type} [Field K] [LinearOrder K] [IsStrictOrderedRing K]

/-- `std::map<mcIdType, double>` -/
abbrev Row (K : Type) := List (Int × K)

/-- `NatureOfField` (MEDCouplingNatureOfFieldEnum:27-35) -/
inductive Nature where
  | noNature
  | intensiveMaximum
  | extensiveMaximum
  | extensiveConservation
  | intensiveConservation
deriving DecidableEq, Repr

/-- `MEDCouplingFieldTemplate`: the spatial discretization and the number of tuples expected -/
structure RTempl where
  disc : Nat
  nbTup : Nat
deriving DecidableEq, Repr

/-- `MEDCouplingFieldDouble`: the spatial discretization, the nature, the number of tuples expected, the dimension of the mesh,
`getMeasureField(getMesh(), isAbs)` of the discretization, the array (number of components and values) -/
structure RField (K : Type) where
  disc : Nat
  nature : Nature
  nbTup : Nat
  meshDim : Int
  measure : List K
  arr : Option (Nat × List K)
deriving DecidableEq, Repr

/-- `MEDCouplingRemapper`: `_src_ft`, `_target_ft`, `_matrix`, `_deno_multiply`, `_deno_reverse_multiply`, `_nature_of_deno` and the time label of
the object (MEDCouplingRemapper.hxx:150-162).  `_time_deno_update` is set to 0 by the constructor and never changed: it is left out. -/
structure Rem (K : Type) where
  ft : Option (RTempl × RTempl)
  matrix : List (Row K)
  deno : List (Row K)
  denoR : List (Row K)
  nature : Nature
  time : Nat
deriving DecidableEq, Repr

/-- `checkConsistencyLight()` of a field: the array is set and has the expected number of tuples (MEDCouplingFieldDiscretization.cxx:1027-1040) -/
def RField.check (f : RField K) : M (Nat × List K) :=
  match f.arr with
  | none => throwX
  | some a => if a.2.length = f.nbTup * a.1 then .ok a else throwX

/-- the constructor (MEDCouplingRemapper.cxx:46-49) -/
def newRemapper (clock : Nat) : Rem K := ⟨none, [], [], [], .noNature, clock⟩

/-- `setCrudeMatrixEx` with `restartUsing` and `synchronizeSizeOfSideMatricesAfterMatrixComputation` (MEDCouplingRemapper.cxx:118-150, 1240-1248,
1321-1333).  `clock` is the global time given by `declareAsNew`. -/
def setCrudeMatrix (r : Rem K) (clock : Nat) (src trg : RTempl) (m : List (Row K)) : M (Rem K) :=
  if m.length ≠ trg.nbTup then throwX
  else if m.any fun row => row.any fun e => decide (e.1 < 0 ∨ e.1 ≥ src.nbTup) then throwX
  else .ok ⟨some (src, trg), m, List.replicate m.length [], List.replicate src.nbTup [], r.nature, clock⟩

/-! ## Denominators -/

/-- `deno[idx][k] = f(k)` for all the columns `k` of a row -/
def fillRow (deno : List (Row K)) (idx : Nat) (row : Row K) (f : Int → M K) : M (List (Row K)) :=
  row.foldlM (fun d e => do
    let v ← f e.1
    let r ← rd d idx
    wr d idx (mapSet r e.1 v)) deno

/-- `denoReverse[k][idx] = f(k)` for all the columns `k` of a row -/
def fillCol (denoR : List (Row K)) (idx : Nat) (row : Row K) (f : Int → M K) : M (List (Row K)) :=
  row.foldlM (fun d e => do
    let v ← f e.1
    let r ← rd d e.1
    wr d e.1 (mapSet r (idx : Int) v)) denoR

/-- `values[k] += w` for the elements of a row -/
def addToCols (values row : Row K) : Row K := row.foldl (fun v e => mapSet v e.1 (mapAt v 0 e.1 + e.2)) values

/-- `sum` of a row -/
def rowSumC (row : Row K) : K := row.foldl (fun s e => s + e.2) 0

/-- `ComputeRowSumAndColSum` (MEDCouplingRemapper.cxx:1580-1608) -/
def computeRowSumAndColSum (m deno denoR : List (Row K)) : M (List (Row K) × List (Row K)) := do
  let s ← loop m.length (deno, ([] : Row K)) fun i s => do
    let row ← rd m i
    let d ← fillRow s.1 i row fun _ => .ok (rowSumC row)
    .ok (d, addToCols s.2 row)
  let dr ← loop m.length denoR fun i d => do
    let row ← rd m i
    fillCol d i row fun k => .ok (mapAt s.2 0 k)
  .ok (s.1, dr)

/-- `ComputeColSumAndRowSum` (MEDCouplingRemapper.cxx:1610-1638) -/
def computeColSumAndRowSum (m deno denoR : List (Row K)) : M (List (Row K) × List (Row K)) := do
  let s ← loop m.length (denoR, ([] : Row K)) fun i s => do
    let row ← rd m i
    let d ← fillCol s.1 i row fun _ => .ok (rowSumC row)
    .ok (d, addToCols s.2 row)
  let d ← loop m.length deno fun i d => do
    let row ← rd m i
    fillRow d i row fun k => .ok (mapAt s.2 0 k)
  .ok (d, s.1)

/-- the change of the measures of meshes of dimension -1 (MEDCouplingRemapper.cxx:1418-1427, 1455-1464): the arrays `deno` and `denoR` after the
two tests, on the dimension of the target mesh and on that of the source mesh -/
def minusOneMeasures (trgDim srcDim : Int) (deno denoR : List K) : M (List K × List K) := do
  let denoR ← (if trgDim = -1 then wr denoR 0 (deno.foldl (· + ·) 0) else .ok denoR : M (List K))
  let deno ← (if srcDim = -1 then wr deno 0 (denoR.foldl (· + ·) 0) else .ok deno : M (List K))
  .ok (deno, denoR)

/-- `computeDenoFromScratch` (MEDCouplingRemapper.cxx:1397-1482) -/
def computeDenoFromScratch (r : Rem K) (nat : Nature) (src trg : RField K) : M (Rem K) :=
  match nat with
  | .noNature => throwX
  | .intensiveMaximum => do
    let d ← computeRowSumAndColSum r.matrix r.deno r.denoR
    .ok { r with nature := nat, deno := d.1, denoR := d.2 }
  | .extensiveMaximum => do
    let me ← minusOneMeasures trg.meshDim src.meshDim src.measure trg.measure
    let d ← loop r.matrix.length (r.deno, r.denoR) fun i d => do
      let row ← rd r.matrix i
      let a ← fillRow d.1 i row fun k => rd me.1 k
      let b ← fillCol d.2 i row fun _ => rd me.2 i
      .ok (a, b)
    .ok { r with nature := nat, deno := d.1, denoR := d.2 }
  | .extensiveConservation => do
    let d ← computeColSumAndRowSum r.matrix r.deno r.denoR
    .ok { r with nature := nat, deno := d.1, denoR := d.2 }
  | .intensiveConservation => do
    let me ← minusOneMeasures trg.meshDim src.meshDim trg.measure src.measure
    let d ← loop r.matrix.length (r.deno, r.denoR) fun i d => do
      let row ← rd r.matrix i
      let a ← fillRow d.1 i row fun _ => rd me.1 i
      let b ← fillCol d.2 i row fun k => rd me.2 k
      .ok (a, b)
    .ok { r with nature := nat, deno := d.1, denoR := d.2 }

/-- `computeDeno` (MEDCouplingRemapper.cxx:1384-1395); `_time_deno_update` is 0 -/
def computeDeno (r : Rem K) (nat : Nature) (src trg : RField K) : M (Rem K) :=
  if nat = .noNature then computeDenoFromScratch r nat src trg
  else if nat ≠ r.nature then computeDenoFromScratch r nat src trg
  else if nat = r.nature ∧ 0 ≠ r.time then computeDenoFromScratch r nat src trg
  else .ok r

/-! ## Products -/

/-- `std::fill(res + a, res + a + n, v)` -/
def fillN (res : List K) (a n : Nat) (v : K) : M (List K) :=
  loop n res fun c s => wr s ((a + c : Nat) : Int) v

/-- `res[b + c] += input[a + c] * q` for the components `c` (MEDCouplingRemapper.cxx:1505-1518): the temporary array is not represented -/
def addScaled (nc : Nat) (input : List K) (a : Int) (q : K) (b : Int) (res : List K) : M (List K) :=
  loop nc res fun c s => do
    let x ← rd input (a * nc + c)
    let y ← rd s (b * nc + c)
    wr s (b * nc + c) (y + x * q)

/-- the loop over one row (MEDCouplingRemapper.cxx:1501-1519): `iter3` runs along the row of `_deno_multiply`, whatever its columns are -/
def productRow (nc : Nat) (input : List K) (idx : Nat) : Row K → Row K → List K → M (List K)
  | [], _, res => .ok res
  | _ :: _, [], _ => undef
  | e :: row, d :: deno, res => do
    let res ← addScaled nc input e.1 (e.2 / d.2) idx res
    productRow nc input idx row deno res

/-- `computeProduct` (MEDCouplingRemapper.cxx:1484-1522); `dft` is `none` when `isDftVal` is false -/
def computeProduct (r : Rem K) (input : List K) (nc : Nat) (dft : Option K) (res : List K) : M (List K) :=
  loop r.matrix.length res fun i s => do
    let row ← rd r.matrix i
    if row = [] then
      match dft with
      | some v => fillN s (i * nc) nc v
      | none => .ok s
    else do
      let s ← fillN s (i * nc) nc 0
      let d ← rd r.deno i
      productRow nc input i row d s

/-- `computeReverseProduct` (MEDCouplingRemapper.cxx:1524-1563).  `_deno_reverse_multiply[k][idx]` is value-initialised when it is missing. -/
def computeReverseProduct (r : Rem K) (input : List K) (nc : Nat) (dft : K) (res : List K) : M (List K) := do
  let res ← fillN res 0 (nc * r.denoR.length) 0
  let s ← loop r.matrix.length (res, List.replicate r.denoR.length false) fun i s => do
    let row ← rd r.matrix i
    row.foldlM (fun s e => do
      let reached ← wr s.2 e.1 true
      let d ← rd r.denoR e.1
      let res ← addScaled nc input i (e.2 / mapAt d 0 (i : Int)) e.1 s.1
      .ok (res, reached)) s
  loop s.2.length s.1 fun j res => do
    let b ← rd s.2 j
    if b then .ok res else fillN res (j * nc) nc dft

/-! ## Transfers -/

/-- the array which receives the values (MEDCouplingRemapper.cxx:1360-1376, 290-303): the array of the field, which must have the right number of
components, or a new array, unless the array is required -/
def receiver (f : RField K) (nc : Nat) (required : Bool) (junk : K) : M (List K) :=
  match f.arr with
  | some _ => do
    let b ← f.check
    if nc ≠ b.1 then throwX else .ok b.2
  | none => if required then throwX else .ok (List.replicate (f.nbTup * nc) junk)

/-- `transferUnderground` (MEDCouplingRemapper.cxx:1335-1381), called by `transfer` (`dft` is the default value) and by `partialTransfer` (`dft` is
`none`).  The pointers are not null.  `junk` is the content of a fresh array. -/
def transferUnderground (r : Rem K) (src trg : RField K) (dft : Option K) (junk : K) : M (Rem K × RField K) := do
  let a ← src.check
  match r.ft with
  | none => throwX
  | some ft =>
    if ft.1.disc ≠ src.disc then throwX
    else if ft.2.disc ≠ trg.disc then throwX
    else if src.nature ≠ trg.nature then throwX
    else if src.nbTup ≠ ft.1.nbTup then throwX
    else do
      let res ← receiver trg a.1 (dft = none) junk
      let r ← computeDeno r src.nature src trg
      let res ← computeProduct r a.2 a.1 dft res
      .ok (r, { trg with arr := some (a.1, res) })

/-- `reverseTransfer` (MEDCouplingRemapper.cxx:268-310) -/
def reverseTransfer (r : Rem K) (src trg : RField K) (dft junk : K) : M (Rem K × RField K) :=
  match r.ft with
  | none => throwX
  | some ft => do
    let a ← trg.check
    if ft.1.disc ≠ src.disc then throwX
    else if ft.2.disc ≠ trg.disc then throwX
    else if src.nature ≠ trg.nature then throwX
    else if trg.nbTup ≠ ft.2.nbTup then throwX
    else do
      let res ← receiver src a.1 false junk
      let r ← computeDeno r src.nature src trg
      let res ← computeReverseProduct r a.2 a.1 dft res
      .ok (r, { src with arr := some (a.1, res) })

/-! ## Changes of the crude matrix -/

/-- `nullifiedTinyCoeffInCrudeMatrixAbs` (MEDCouplingRemapper.cxx:1718-1740): the number of coefficients put to zero and the object -/
def nullifiedTinyCoeffAbs (r : Rem K) (maxVal : K) : Nat × Rem K :=
  let s := r.matrix.foldl (fun (s : List (Row K) × Nat) row =>
    let t := row.foldl (fun (t : Row K × Nat) e => if |e.2| > maxVal then (mapSet t.1 e.1 e.2, t.2) else (t.1, t.2 + 1)) (([] : Row K), s.2)
    (s.1 ++ [t.1], t.2)) ([], 0)
  (s.2, if s.2 > 0 then { r with matrix := s.1 } else r)

/-- `getMaxValueInCrudeMatrix` (MEDCouplingRemapper.cxx:1770-1779) -/
def getMaxValueInCrudeMatrix (r : Rem K) : K :=
  r.matrix.foldl (fun m row => row.foldl (fun m e => if |e.2| > m then |e.2| else m) m) 0

/-- `nullifiedTinyCoeffInCrudeMatrix` (MEDCouplingRemapper.cxx:1756-1763); -1 when all the coefficients are null -/
def nullifiedTinyCoeff (r : Rem K) (scale : K) : Int × Rem K :=
  if getMaxValueInCrudeMatrix r = 0 then (-1, r)
  else
    let s := nullifiedTinyCoeffAbs r (scale * getMaxValueInCrudeMatrix r)
    (s.1, s.2)

/-- `ReverseMatrix` (MEDCouplingRemapper.cxx:1565-1577) -/
def reverseMatrix (m : List (Row K)) (nbCols : Nat) : M (List (Row K)) :=
  loop m.length (List.replicate nbCols []) fun i out => do
    let row ← rd m i
    row.foldlM (fun out e => do
      let r ← rd out e.1
      wr out e.1 (mapSet r (i : Int) e.2)) out

/-- `buildFinalInterpolationMatrixByConvolution` (MEDCouplingRemapper.cxx:1640-1674), for extruded meshes -/
def matrixByConvolution (m1 m2 : List (Row K)) (corrSrc : List Int) (nb2Src : Nat) (corrTrg : List Int) : M (List (Row K)) :=
  loop m2.length (List.replicate (m2.length * m1.length) []) fun r2 out => do
    let row2 ← rd m2 r2
    row2.foldlM (fun out c2 =>
      loop m1.length out fun r1 out => do
        let row1 ← rd m1 r1
        row1.foldlM (fun out c1 => do
          let t ← rd corrTrg ((r1 * m2.length + r2 : Nat) : Int)
          let s ← rd corrSrc (c1.1 * nb2Src + c2.1)
          let row ← rd out t
          wr out t (mapSet row s (c1.2 * c2.2))) out) out

end
end MC
