import Verif.Tuple
import Verif.Slices

/-!
# Renumbering, selection and inversion of permutations – model

`MEDCouplingMemArray.txx`.  Arrays are allocated (`checkAllocated` is not modelled); component names are not modelled.
Results that may hold never-written cells are returned as raw buffers `List (Option α)`.
-/

namespace MC
section
variable {α : Type}

/-- The checked loop of `renumberInPlace`, MEDCouplingMemArray.txx:1143-1157, filling `tmp`. -/
def renumberInPlaceTmp (a : DArr α) (old2New : List Int) : M (List (Option α)) :=
  loop a.nt (mallocN α (a.nt * a.nc)) fun i tmp => do
    let v ← rd old2New i
    if 0 ≤ v ∧ v < a.nt then copyTuple a.nc a.data i tmp v else throwX

/-- `DataArrayTemplate<T>::renumberInPlace`, MEDCouplingMemArray.txx:1138-1161: outcome and content of the array
afterwards.  `this` is written only by the `std::copy` of line 1158, after the loop. -/
def renumberInPlace (a : DArr α) (old2New : List Int) : M Unit × List (Option α) :=
  match renumberInPlaceTmp a old2New with
  | .ok tmp => (.ok (), tmp)
  | .error e => (.error e, a.data.map some)

/-- The checked loop of `renumberInPlaceR`, MEDCouplingMemArray.txx:1178-1192. -/
def renumberInPlaceRTmp (a : DArr α) (new2Old : List Int) : M (List (Option α)) :=
  loop a.nt (mallocN α (a.nt * a.nc)) fun i tmp => do
    let v ← rd new2Old i
    if 0 ≤ v ∧ v < a.nt then copyTuple a.nc a.data v tmp i else throwX

/-- `DataArrayTemplate<T>::renumberInPlaceR`, MEDCouplingMemArray.txx:1173-1196. -/
def renumberInPlaceR (a : DArr α) (new2Old : List Int) : M Unit × List (Option α) :=
  match renumberInPlaceRTmp a new2Old with
  | .ok tmp => (.ok (), tmp)
  | .error e => (.error e, a.data.map some)

/-- `DataArrayTemplate<T>::renumber`, MEDCouplingMemArray.txx:1274-1289 (no check of the ids). -/
def renumber (a : DArr α) (old2New : List Int) : M (List (Option α)) :=
  loop a.nt (mallocN α (a.nt * a.nc)) fun i o => do
    let v ← rd old2New i
    copyTuple a.nc a.data i o v

/-- `DataArrayTemplate<T>::renumberR`, MEDCouplingMemArray.txx:1304-1319 (no check of the ids). -/
def renumberR (a : DArr α) (new2Old : List Int) : M (List (Option α)) :=
  loop a.nt (mallocN α (a.nt * a.nc)) fun i o => do
    let v ← rd new2Old i
    copyTuple a.nc a.data v o i

/-- `DataArrayTemplate<T>::renumberAndReduce`, MEDCouplingMemArray.txx:1336-1354. -/
def renumberAndReduce (a : DArr α) (old2New : List Int) (newNbOfTuple : Nat) : M (List (Option α)) :=
  loop a.nt (mallocN α (newNbOfTuple * a.nc)) fun i o => do
    let w ← rd old2New i
    if w ≥ 0 then copyTuple a.nc a.data i o w else .ok o

/-- `DataArrayTemplate<T>::mySelectByTupleId`, MEDCouplingMemArray.txx:1374-1389 (no check of the ids). -/
def selectByTupleId (a : DArr α) (ids : List Int) : M (List (Option α)) :=
  loop ids.length (mallocN α (ids.length * a.nc)) fun i o => do
    let w ← rd ids i
    copyTuple a.nc a.data w o i

/-- `DataArrayTemplate<T>::mySelectByTupleIdSafe`, MEDCouplingMemArray.txx:1454-1478. -/
def selectByTupleIdSafe (a : DArr α) (ids : List Int) : M (List (Option α)) :=
  loop ids.length (mallocN α (ids.length * a.nc)) fun i o => do
    let w ← rd ids i
    if 0 ≤ w ∧ w < a.nt then copyTuple a.nc a.data w o i else throwX

/-- `DataArrayTemplate<T>::mySelectByTupleIdSafeSlice`, MEDCouplingMemArray.txx:1693-1709; `srcPt` is
`begin + (bg + i*step)*nbComp` at iteration `i`.  Despite its name the method does not check that the tuple ids
are in range. -/
def selectByTupleIdSafeSlice (a : DArr α) (bg end2 step : Int) : M (List (Option α)) := do
  let n ← getNumberOfItemGivenBESRelative bg end2 step
  loop n.toNat (mallocN α (n.toNat * a.nc)) fun i o => copyTuple a.nc a.data (bg + i * step) o i

/-- `DataArrayTemplate<T>::subArray`, MEDCouplingMemArray.txx:1639-1674 (`tupleIdEnd = -1` means "up to the end").
Nothing refuses `trueEnd < tupleIdBg`: the (negative) number of tuples is converted to `std::size_t` by `alloc`
(line 1670, 819-824) and `std::copy` gets an inverted range, hence `undef`. -/
def subArray (a : DArr α) (bg endId : Int) : M (List (Option α)) :=
  if bg < 0 then throwX
  else if bg > a.nt then throwX
  else if endId ≠ -1 ∧ endId > a.nt then throwX
  else
    let trueEnd := if endId ≠ -1 then endId else (a.nt : Int)
    if trueEnd - bg < 0 then undef
    else copyRange a.data (a.nc * bg) (a.nc * trueEnd) (mallocN α ((trueEnd - bg).toNat * a.nc)) 0

/-- `DataArrayDiscrete<T>::invertArrayO2N2N2O`, MEDCouplingMemArray.txx:5086-5110. -/
def invertArrayO2N2N2O (o2n : List Int) (newNb : Nat) : M (List (Option Int)) :=
  loop o2n.length (mallocN Int newNb) fun i pt => do
    let newp ← rd o2n i
    if newp ≠ -1 then
      if 0 ≤ newp ∧ newp < newNb then wr pt newp (some (i : Int)) else throwX
    else .ok pt

/-- `DataArrayDiscrete<T>::invertArrayN2O2O2N`, MEDCouplingMemArray.txx:5131-5154. -/
def invertArrayN2O2O2N (n2o : List Int) (oldNb : Nat) : M (List Int) :=
  loop n2o.length (List.replicate oldNb (-1)) fun i pt => do
    let v ← rd n2o i
    if 0 ≤ v ∧ v < oldNb then wr pt v (i : Int) else throwX

/-- `DataArrayDiscrete<T>::invertArrayO2N2N2OBis`, MEDCouplingMemArray.txx:5163-5187: the loop index `i` goes down
from `n-1` to 0, here `i = n - 1 - k` at iteration `k`. -/
def invertArrayO2N2N2OBis (o2n : List Int) (newNb : Nat) : M (List (Option Int)) :=
  loop o2n.length (mallocN Int newNb) fun k pt => do
    let i := o2n.length - 1 - k
    let newp ← rd o2n i
    if newp ≠ -1 then
      if 0 ≤ newp ∧ newp < newNb then wr pt newp (some (i : Int)) else throwX
    else .ok pt

end
end MC
