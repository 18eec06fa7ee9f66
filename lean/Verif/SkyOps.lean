import Verif.Cursor
import Verif.Index
import Verif.StdAlg

/-!
# Operations on indexed arrays (model)

Static methods of `DataArrayDiscrete<T>` in `MEDCouplingMemArray.txx` working on pairs (array, index array).
-/

namespace MC
variable {α : Type}

/-- `DataArrayDiscrete<T>::AggregateIndexes`, the checks – MEDCouplingMemArray.txx:8412-8454.  A null pointer is `none`. -/
def aggregateIndexesSizeStep (retSz : Nat) (a : Option (List Int)) : M Nat :=
  match a with
  | none => throwX
  | some [] => throwX
  | some (f :: t) => if f ≠ 0 then throwX else .ok (retSz + ((f :: t).length - 1))

/-- the whole first pass, lines 8412-8454 -/
def aggregateIndexesSize (arrs : List (Option (List Int))) : M Nat := do
  let n ← arrs.foldlM aggregateIndexesSizeStep 1
  if arrs = [] then throwX else .ok n

/-- `std::transform((*it)->begin()+1, (*it)->end(), pt, bind(plus, _1, pt[-1]))`, lines 8459-8462: `pt[-1]` is evaluated once
per array. -/
def aggregateIndexesStep (s : Cur Int) (a : Option (List Int)) : M (Cur Int) := do
  let prev ← rdI s.1 (s.2 - 1)
  (a.getD []).tail.foldlM (fun s x => emit s (x + prev)) s

/-- `DataArrayDiscrete<T>::AggregateIndexes` – MEDCouplingMemArray.txx:8410-8465. -/
def aggregateIndexes (arrs : List (Option (List Int))) : M (List (Option Int)) := do
  let n ← aggregateIndexesSize arrs
  let s ← emit (newCur Int n) 0
  let s ← arrs.foldlM aggregateIndexesStep s
  .ok s.1

/-- One component arrays of possibly several components: (nbOfComp, values). -/
structure MArr (α : Type) where
  nc : Nat
  vals : List α

/-- `DataArrayDiscrete<T>::Aggregate` – MEDCouplingMemArray.txx:8371-8397.  Null pointers are skipped; the number of tuples is
`nbElems / nbComp`, the allocation is in elements. -/
def aggregate (arrs : List (Option (MArr α))) : M (MArr α) :=
  match arrs.filterMap id with
  | [] => throwX
  | a :: as => do
    let nbt ← as.foldlM (fun (nbt : Nat) b => if b.nc ≠ a.nc then (throwX : M Nat) else .ok (nbt + b.vals.length)) a.vals.length
    let s ← (a :: as).foldlM (fun s b => emitCopy s b.vals 0 b.vals.length) (newCur α nbt)
    match s.1.mapM id with
    | some v => .ok ⟨a.nc, v⟩
    | none => undef

/-- `DataArrayDiscrete<T>::PutIntoToSkylineFrmt` – MEDCouplingMemArray.txx:8568-8584.  (`ptid[1] = ptid[0] + size` fills the
exactly sized index from the left: modelled by the running sums.) -/
def putIntoToSkylineFrmt (v : List (List α)) : M (List (Option α) × List Int) := do
  let idx := (v.map fun g => (g.length : Int)).scanl (· + ·) 0
  let n ← rd idx (v.length : Int)
  let s ← v.foldlM (fun s g => emitCopy s g 0 g.length) (newCur α n.toNat)
  .ok (s.1, idx)

/-- one step of the first loop, lines 8637-8658; state = (index written so far, `lgth`); `work[-1]` is the last one written -/
def extractIdxStep (arrI : List Int) (s : List Int × Int) (id : Int) : M (List Int × Int) :=
  if 0 ≤ id ∧ id < (arrI.length : Int) - 1 then do
    let b ← rd arrI (id + 1)
    let a ← rd arrI id
    let prev ← rd s.1 ((s.1.length : Int) - 1)
    if prev ≤ s.2 + (b - a) then .ok (s.1 ++ [s.2 + (b - a)], s.2 + (b - a)) else throwX
  else throwX

/-- one step of the second loop, lines 8662-8674 -/
def extractCopyStep (arr : List α) (arrI : List Int) (s : Cur α) (id : Int) : M (Cur α) := do
  let a ← rd arrI id
  let b ← rd arrI (id + 1)
  if 0 ≤ a ∧ b ≤ arr.length then emitCopy s arr a b else throwX

/-- `DataArrayDiscrete<T>::ExtractFromIndexedArrays` – MEDCouplingMemArray.txx:8603-8677. -/
def extractFromIndexedArrays (ids : List Int) (arr : List α) (arrI : List Int) : M (List (Option α) × List Int) :=
  if (arrI.length : Int) - 1 < 0 then throwX else do
    let s ← ids.foldlM (extractIdxStep arrI) ([0], 0)
    let d ← ids.foldlM (extractCopyStep arr arrI) (newCur α s.2.toNat)
    .ok (d.1, s.1)

/-- `DataArrayDiscrete<T>::ExtractFromIndexedArraysSlice` – MEDCouplingMemArray.txx:8871-8951.  Same loops with
`idsIt = start, start+step, ...`. -/
def extractFromIndexedArraysSlice (start stop step : Int) (arr : List α) (arrI : List Int) : M (List (Option α) × List Int) := do
  let n ← getNumberOfItemGivenBESRelative start stop step
  extractFromIndexedArrays (stepping start step n.toNat) arr arrI

/-- one step of the first loop, lines 8996-9010; state = (marks `v`, `offset`, rank in the source index) -/
def setPartMark (arrI srcI : List Int) (s : List Bool × Int × Int) (id : Int) : M (List Bool × Int × Int) :=
  if 0 ≤ id ∧ id < (arrI.length : Int) - 1 then do
    let v ← wr s.1 id false
    let b ← rd srcI (s.2.2 + 1)
    let a ← rd srcI s.2.2
    let d ← rd arrI (id + 1)
    let c ← rd arrI id
    .ok (v, s.2.1 + ((b - a) - (d - c)), s.2.2 + 1)
  else throwX

/-- one iteration of the second loop, lines 9019-9032; state = (output cursor, index written so far) -/
def setPartCopy (ids : List Int) (arr : List α) (arrI : List Int) (src : List α) (srcI : List Int) (v : List Bool) (ii : Nat)
    (s : Cur α × List Int) : M (Cur α × List Int) := do
  let m ← rd v (ii : Int)
  let prev ← rd s.2 ((s.2.length : Int) - 1)
  if m then do
    let a ← rd arrI (ii : Int)
    let b ← rd arrI ((ii : Int) + 1)
    let c ← emitCopy s.1 arr a b
    .ok (c, s.2 ++ [prev + (b - a)])
  else do
    let a ← rd srcI (ids.idxOf (ii : Int) : Int)
    let b ← rd srcI ((ids.idxOf (ii : Int) : Int) + 1)
    let c ← emitCopy s.1 src a b
    .ok (c, s.2 ++ [prev + (b - a)])

/-- `DataArrayDiscrete<T>::SetPartOfIndexedArrays` – MEDCouplingMemArray.txx:8974-9035.  A negative size given to
`std::vector` or to `alloc` is refused by an exception. -/
def setPartOfIndexedArrays (ids : List Int) (arr : List α) (arrI : List Int) (src : List α) (srcI : List Int) :
    M (List (Option α) × List Int) :=
  if (arrI.length : Int) - 1 < 0 then throwX else do
    let s ← ids.foldlM (setPartMark arrI srcI) (List.replicate (arrI.length - 1) true, 0, 0)
    if (arr.length : Int) + s.2.1 < 0 then throwX else do
      let c ← loop (arrI.length - 1) (newCur α ((arr.length : Int) + s.2.1).toNat, [0]) (setPartCopy ids arr arrI src srcI s.1)
      .ok (c.1.1, c.2)

/-- one step of `SetPartOfIndexedArraysSameIdx`, lines 9157-9181; state = (array, rank in the source index) -/
def setSameIdxStep (arrI : List Int) (src : List α) (srcI : List Int) (s : List α × Int) (id : Int) : M (List α × Int) :=
  if 0 ≤ id ∧ id < (arrI.length : Int) - 1 then do
    let b ← rd srcI (s.2 + 1)
    let a ← rd srcI s.2
    let d ← rd arrI (id + 1)
    let c ← rd arrI id
    if b - a = d - c then do
      let r ← copyInto src a b s.1 c
      .ok (r, s.2 + 1)
    else throwX
  else throwX

/-- `DataArrayDiscrete<T>::SetPartOfIndexedArraysSameIdx` – MEDCouplingMemArray.txx:9139-9182 (in place; returns the array). -/
def setPartOfIndexedArraysSameIdx (ids : List Int) (arr : List α) (arrI : List Int) (src : List α) (srcI : List Int) : M (List α) := do
  let s ← ids.foldlM (setSameIdxStep arrI src srcI) (arr, 0)
  .ok s.1

/-- The processing of the values of one group in `RemoveIdsFromIndexedArrays`, lines 9284-9291: `prev`, `cur` are the bounds of
the group. -/
def removeLoop (s : List Int) (arr : List Int) (off prev cur : Int) (out : List Int) : M (List Int) :=
  if cur - prev > off then
    (if 0 ≤ prev + off ∧ cur ≤ arr.length then .ok (out ++ (slice arr (prev + off) cur).filter fun x => decide (x ∉ s)) else undef)
  else .ok out

/-- one iteration of the loop on the groups, lines 9282-9294; state = (index written so far, `previousArrI`, `arrOut`) -/
def removeStep (s : List Int) (arr : List Int) (off : Int) (st : List Int × Int × List Int) (cur : Int) : M (List Int × Int × List Int) := do
  let out ← removeLoop s arr off st.2.1 cur st.2.2
  .ok (st.1 ++ [(out.length : Int)], cur, out)

/-- `DataArrayDiscrete<T>::RemoveIdsFromIndexedArrays` – MEDCouplingMemArray.txx:9263-9300; returns (modified?, array, index).
The index is overwritten in place from the left, each cell after it was read.  `*arrIPtr++ = 0` on an empty index is
out of bounds. -/
def removeIdsFromIndexedArrays (ids arr arrI : List Int) (off : Int) : M (Bool × List Int × List Int) :=
  if off < 0 then throwX
  else match arrI with
    | [] => undef
    | _ :: rest => do
      let st ← rest.foldlM (removeStep (setInsertAll [] ids) arr off) ([0], 0, [])
      if arr.length = st.2.2.length then .ok (false, arr, st.1) else .ok (true, st.2.2, st.1)

/-- The marking loop of `ConvertIndexArrayToO2N`, line 9376. -/
def o2nMark (arr arrI : List Int) (i : Nat) (pt : List Int) : M (List Int) := do
  let c ← rd arrI (i : Int)
  let a ← rd arr c
  wr pt a (-((i : Int) + 2))

/-- The loop on one group, lines 9387-9398. -/
def o2nGroup (arr : List Int) (n : Nat) (c : Int) (newNb : Int) (j : Nat) (pt : List Int) : M (List Int) := do
  let a ← rd arr (c + (j : Int))
  if 0 ≤ a ∧ a < n then wr pt a newNb else throwX

/-- One iteration of the main loop, lines 9378-9402; state = (`pt`, `newNb`). -/
def o2nStep (arr arrI : List Int) (n : Nat) (iNode : Nat) (s : List Int × Int) : M (List Int × Int) := do
  let p ← rd s.1 (iNode : Int)
  if p < 0 then
    if p = -1 then do
      let pt ← wr s.1 (iNode : Int) s.2
      .ok (pt, s.2 + 1)
    else do
      let c ← rd arrI (-(p + 2))
      let d ← rd arrI (-(p + 2) + 1)
      let pt ← loop (d - c).toNat s.1 (o2nGroup arr n c s.2)
      .ok (pt, s.2 + 1)
  else .ok s

/-- `DataArrayDiscrete<T>::ConvertIndexArrayToO2N` – MEDCouplingMemArray.txx:9362-9405; returns (old-to-new, newNb). -/
def convertIndexArrayToO2N (n : Nat) (arr arrI : List Int) : M (List Int × Int) := do
  let pt ← loop (arrI.length - 1) (List.replicate n (-1)) (o2nMark arr arrI)
  loop n (pt, 0) (o2nStep arr arrI n)

/-- `signatures[*e][word] |= bit`, lines 9458-9474 -/
def signStep (n : Nat) (i : Nat) (sig : List (List Nat)) (e : Int) : M (List (List Nat)) :=
  if 0 ≤ e ∧ e < n then do
    let s ← rd sig e
    let w ← rd s ((i / 64 : Nat) : Int)
    let s' ← wr s ((i / 64 : Nat) : Int) (w ||| (1 <<< (i % 64)))
    wr sig e s'
  else throwX

/-- The signatures, lines 9454-9475: 64-bit words as `Nat`, bit `i%64` of word `i/64` for group `i`. -/
def signatures (n : Nat) (groups : List (List Int)) : M (List (List Nat)) :=
  groups.zipIdx.foldlM (fun sig (p : List Int × Nat) => p.1.foldlM (signStep n p.2) sig)
    (List.replicate n (List.replicate ((groups.length + 63) / 64) 0))

/-- `std::unordered_map<std::vector<uint64_t>, mcIdType>::find` -/
def sigFind : List (List Nat × Int) → List Nat → Option Int
  | [], _ => none
  | (k, v) :: m, s => if k = s then some v else sigFind m s

/-- The numbering loop, lines 9495-9509; state = (map, next id, ids written so far).  The loop variable is an `int` in the
sources: for more than 2^31-1 elements it would overflow, which is not modelled. -/
def partitionStep (s : List (List Nat × Int) × Int × List Int) (sig : List Nat) : List (List Nat × Int) × Int × List Int :=
  match sigFind s.1 sig with
  | none => (s.1 ++ [(sig, s.2.1)], s.2.1 + 1, s.2.2 ++ [s.2.1])
  | some v => (s.1, s.2.1, s.2.2 ++ [v])

/-- The families of a group, lines 9514-9522. -/
def fidsOfGroup (ret : List Int) (g : List Int) : M (List Int) := do
  let l ← g.mapM fun p => rd ret p
  .ok (setInsertAll [] l)

/-- `DataArrayDiscrete<T>::MakePartition` – MEDCouplingMemArray.txx:9433-9524; returns (family of each element, families of
each group).  Null groups are skipped. -/
def makePartition (groups : List (Option (List Int))) (n : Nat) : M (List Int × List (List Int)) := do
  let sig ← signatures n (groups.filterMap id)
  let s := sig.foldl partitionStep ([], 1, [])
  let fids ← (groups.filterMap id).mapM (fidsOfGroup s.2.2)
  .ok (s.2.2, fids)

end MC
