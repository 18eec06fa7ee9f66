import Verif.Cursor
import Verif.Slices
import Verif.StdAlg

/-!
# Offsets, ranges and their expansions (model)

`DataArrayDiscrete<T>` methods of `MEDCouplingMemArray.txx` on one-component arrays.
-/

namespace MC

/-- `DataArrayDiscrete<T>::deltaShiftIndex` – MEDCouplingMemArray.txx:6698-6712.  `std::transform` with `std::minus` on
`[ptr+1,ptr+n)` and `ptr` is a `zipWith`. -/
def deltaShiftIndex (l : List Int) : M (List Int) :=
  if l.length < 1 then throwX else .ok (List.zipWith (fun a b => a - b) l.tail l)

/-- loop body of `computeOffsets`, lines 6744-6749; state = (array, `tmp`) -/
def computeOffsetsStep (i : Nat) (s : List Int × Int) : M (List Int × Int) := do
  let tmp2 ← rd s.1 ((i : Int) + 1)
  let p ← rd s.1 (i : Int)
  let w ← wr s.1 ((i : Int) + 1) (p + s.2)
  .ok (w, tmp2)

/-- `DataArrayDiscrete<T>::computeOffsets` – MEDCouplingMemArray.txx:6733-6751 (in place). -/
def computeOffsets (l : List Int) : M (List Int) :=
  if l.length = 0 then .ok l else do
    let tmp ← rd l 0
    let w ← wr l 0 0
    let s ← loop (l.length - 1) (w, tmp) computeOffsetsStep
    .ok s.1

/-- loop body of `computeOffsetsFull`, line 6780 -/
def computeOffsetsFullStep (l : List Int) (i : Nat) (ret : List (Option Int)) : M (List (Option Int)) := do
  let w ← rd l (i : Int)
  let p ← rdI ret (i : Int)
  wr ret ((i : Int) + 1) (some (w + p))

/-- `DataArrayDiscrete<T>::computeOffsetsFull` – MEDCouplingMemArray.txx:6771-6783. -/
def computeOffsetsFull (l : List Int) : M (List (Option Int)) := do
  let ret ← wr (mallocN Int (l.length + 1)) 0 (some 0)
  loop l.length ret (computeOffsetsFullStep l)

/-- The inner loop of `findIdsRangesInListOfIds`, lines 6839-6843, on the rest of the list of ids.  The end of the list is
tested *after* `*tupPtr` was read: reaching the end while `i < hi` reads past the end. -/
def scanRange (hi : Int) : (i : Int) → (tup : List Int) → M (Int × List Int)
  | i, [] => if i < hi then undef else .ok (i, [])
  | i, t :: ts => if i < hi then (if t = i then scanRange hi (i + 1) ts else .ok (i, t :: ts)) else .ok (i, t :: ts)

/-- The outer loop of `findIdsRangesInListOfIds`, lines 6834-6858, on the rests of the two arrays; `k` is
`distance(offBg,offPtr)`.  An iteration which changes nothing never ends: out of fuel is undefined behaviour.
The values pushed at line 6847 are the `hi-lo` last ones consumed by the inner loop, i.e. the first ones of `tup`. -/
def findRangesLoop : (fuel : Nat) → (k : Nat) → (tup off : List Int) → (r0 r1 : List Int) → M (List Int × List Int)
  | 0, _, _, _, _, _ => undef
  | fuel + 1, k, t :: ts, lo :: hi :: os, r0, r1 =>
    if t = lo then
      match scanRange hi lo (t :: ts) with
      | .error e => .error e
      | .ok (i, tup') =>
        if i = hi then
          findRangesLoop fuel (k + 1) tup' (hi :: os) (r0 ++ [(k : Int)]) (r1 ++ (t :: ts).take (hi - lo).toNat)
        else findRangesLoop fuel k tup' (lo :: hi :: os) r0 r1
    else if t < lo then findRangesLoop fuel k ts (lo :: hi :: os) r0 r1
    else findRangesLoop fuel (k + 1) (t :: ts) (hi :: os) r0 r1
  | _ + 1, _, _, _, r0, r1 => .ok (r0, r1)

/-- `DataArrayDiscrete<T>::findIdsRangesInListOfIds` – MEDCouplingMemArray.txx:6811-6861.  `end()-1` of an empty array is
undefined behaviour. -/
def findIdsRangesInListOfIds (off listOfIds : List Int) : M (List Int × List Int) :=
  if off = [] then undef else findRangesLoop (listOfIds.length + off.length + 1) 0 listOfIds off [] []

/-- one step of the counting loop, lines 6907-6930 -/
def explicitCount (off : List Int) (cnt : Int) (val : Int) : M Int :=
  if 0 ≤ val ∧ val < (off.length : Int) - 1 then do
    let b ← rd off (val + 1)
    let a ← rd off val
    if 0 ≤ b - a then .ok (cnt + (b - a)) else throwX
  else throwX

/-- one step of the filling loop, lines 6934-6940 -/
def explicitFill (off : List Int) (s : Cur Int) (val : Int) : M (Cur Int) := do
  let start ← rd off val
  let b ← rd off (val + 1)
  loop (b - start).toNat s (fun j s => emit s (start + (j : Int)))

/-- `DataArrayDiscrete<T>::buildExplicitArrByRanges` – MEDCouplingMemArray.txx:6888-6942. -/
def buildExplicitArrByRanges (l off : List Int) : M (List (Option Int)) := do
  let n ← l.foldlM (explicitCount off) 0
  let s ← l.foldlM (explicitFill off) (newCur Int n.toNat)
  .ok s.1

/-- one step of the counting loop, lines 6984-7005 -/
def scaledCount (ids : List Int) (sz : Int) (pos : Int) : M Int :=
  if 0 ≤ pos ∧ pos < (ids.length : Int) - 1 then do
    let b ← rd ids (pos + 1)
    let a ← rd ids pos
    if b - a < 0 then throwX else .ok (sz + (b - a))
  else throwX

/-- one step of the filling loop, lines 7010-7014 -/
def scaledFill (ids : List Int) (s : Cur Int) (pos : Int) : M (Cur Int) := do
  let b ← rd ids (pos + 1)
  let a ← rd ids pos
  loop (b - a).toNat s (fun _ s => emit s pos)

/-- The successive values of `pos` in `for (i = 0; i < n; i++, pos += step)` starting from `bg`. -/
def stepping (bg step : Int) (n : Nat) : List Int := (List.range n).map fun i : Nat => bg + (i : Int) * step

/-- `DataArrayDiscrete<T>::buildExplicitArrOfSliceOnScaledArr` – MEDCouplingMemArray.txx:6966-7016. -/
def buildExplicitArrOfSliceOnScaledArr (ids : List Int) (bg stop step : Int) : M (List (Option Int)) :=
  if ids.length = 0 then throwX else do
    let n ← getNumberOfItemGivenBESRelative bg stop step
    let sz ← (stepping bg step n.toNat).foldlM (scaledCount ids) 0
    let s ← (stepping bg step n.toNat).foldlM (scaledFill ids) (newCur Int sz.toNat)
    .ok s.1

/-- The search loop common to `findRangeIdForEachTuple` (lines 7059-7064) and `findIdInRangeForEachTuple` (lines 7121-7126):
first `j` with `ranges[2j] <= val < ranges[2j+1]`.  The two-component array `ranges` is a list of pairs. -/
def firstRange (ranges : List (Int × Int)) (val : Int) : Option Nat :=
  ranges.findIdx? fun r => decide (r.1 ≤ val) && decide (val < r.2)

/-- `DataArrayDiscrete<T>::findRangeIdForEachTuple` – MEDCouplingMemArray.txx:7037-7075. -/
def findRangeIdForEachTuple (l : List Int) (ranges : List (Int × Int)) : M (List Int) :=
  l.mapM fun val => match firstRange ranges val with
    | some j => (.ok (j : Int) : M Int)
    | none => throwX

/-- `DataArrayDiscrete<T>::findIdInRangeForEachTuple` – MEDCouplingMemArray.txx:7097-7137. -/
def findIdInRangeForEachTuple (l : List Int) (ranges : List (Int × Int)) : M (List Int) :=
  l.mapM fun val => match firstRange ranges val with
    | some j => (do let r ← rd ranges (j : Int); .ok (val - r.1) : M Int)
    | none => throwX

/-- one iteration of `splitByValueRange`, lines 4979-4994.  `std::find_if` on the reversed array, `pos2 = nbOfCast - pos` in
unsigned arithmetic: not found (`pos = nbOfCast+1`) wraps to a huge value which is refused by the test `pos2 < nbOfCast`. -/
def castOf (arr : List Int) (v : Int) : M (Int × Int) :=
  match arr.reverse.findIdx? (fun a => decide (a ≤ v)) with
  | none => throwX
  | some pos =>
    if (arr.length - 1) - pos < arr.length - 1 then do
      let a ← rd arr (((arr.length - 1) - pos : Nat) : Int)
      .ok ((((arr.length - 1) - pos : Nat) : Int), v - a)
    else throwX

/-- `DataArrayDiscrete<T>::splitByValueRange` – MEDCouplingMemArray.txx:4944-5001; returns
(castArr, rankInsideCast, castsPresent). -/
def splitByValueRange (l arr : List Int) : M (List Int × List Int × List Int) :=
  if arr.length < 2 then throwX else do
    let r ← l.mapM (castOf arr)
    .ok (r.map Prod.fst, r.map Prod.snd, setInsertAll [] (r.map Prod.fst))

end MC
