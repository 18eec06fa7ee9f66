import Verif.Base

/-!
# Slices `(begin, end, step)` – model

`MEDCouplingMemArray.txx`, class `DataArrayTools<T>` and a few users.
C++ integer division is `Int.tdiv` (truncation towards zero).
-/

namespace MC

/-- `DataArrayTools<T>::GetNumberOfItemGivenBES`, MEDCouplingMemArray.txx:685-702. -/
def getNumberOfItemGivenBES (b e s : Int) : M Int :=
  if e < b then throwX
  else if e = b then .ok 0
  else if s ≤ 0 then throwX
  else .ok ((e - 1 - b).tdiv s + 1)

/-- `DataArrayTools<T>::GetNumberOfItemGivenBESRelative`, MEDCouplingMemArray.txx:706-726. -/
def getNumberOfItemGivenBESRelative (b e s : Int) : M Int :=
  if s = 0 then throwX
  else if e < b ∧ s > 0 then throwX
  else if b < e ∧ s < 0 then throwX
  else if b ≠ e then .ok ((max b e - 1 - min b e).tdiv s.natAbs + 1)
  else .ok 0

/-- `DataArrayTools<T>::GetPosOfItemGivenBESRelativeNoThrow`, MEDCouplingMemArray.txx:730-745. -/
def getPosOfItemGivenBESRelativeNoThrow (v b e s : Int) : Int :=
  if s = 0 then -1
  else if (s > 0 ∧ b ≤ v ∧ v < e) ∨ (s < 0 ∧ b ≥ v ∧ v > e) then
    let id := (v - b).tdiv s
    if b + s * id = v then id else -1
  else -1

/-- `DataArrayTools<T>::GetSlice`, MEDCouplingMemArray.txx:659-681.
Returns `(startSlice, stopSlice)`. -/
def getSlice (start stop step sliceId nbOfSlices : Int) : M (Int × Int) :=
  if nbOfSlices ≤ 0 then throwX
  else if sliceId < 0 ∨ sliceId ≥ nbOfSlices then throwX
  else do
    let nbElems ← getNumberOfItemGivenBESRelative start stop step
    let minNb := nbElems.tdiv nbOfSlices
    let startSlice := start + minNb * step * sliceId
    if sliceId < nbOfSlices - 1 then
      .ok (startSlice, start + minNb * step * (sliceId + 1))
    else
      .ok (startSlice, stop)

/-- The loop `for (i = begin; i < end; i += step, ptr++) *ptr = i;` of `Range`
(MEDCouplingMemArray.txx:9326), `step > 0`. -/
def rangeUp (e s : Int) (hs : 0 < s) (i : Int) (ptr : Int) (buf : List (Option Int)) :
    M (List (Option Int)) :=
  if i < e then do
    let buf ← wr buf ptr (some i)
    rangeUp e s hs (i + s) (ptr + 1) buf
  else .ok buf
termination_by (e - i).toNat
decreasing_by omega

/-- The loop `for (i = begin; i > end; i += step, ptr++) *ptr = i;` of `Range`
(MEDCouplingMemArray.txx:9330), `step < 0`. -/
def rangeDown (e s : Int) (hs : s < 0) (i : Int) (ptr : Int) (buf : List (Option Int)) :
    M (List (Option Int)) :=
  if i > e then do
    let buf ← wr buf ptr (some i)
    rangeDown e s hs (i + s) (ptr + 1) buf
  else .ok buf
termination_by (i - e).toNat
decreasing_by omega

/-- `DataArrayDiscrete<T>::Range`, MEDCouplingMemArray.txx:9318-9333.
The result is the raw buffer (`none` = a cell that was never written).
The case `step = 0` is unreachable: `GetNumberOfItemGivenBESRelative` throws. -/
def rangeArr (b e s : Int) : M (List (Option Int)) := do
  let n ← getNumberOfItemGivenBESRelative b e s
  let buf := mallocN Int n.toNat
  if h : s > 0 then rangeUp e s h b 0 buf
  else if h : s < 0 then rangeDown e s h b 0 buf
  else undef

/-- The inner `while` of `splitInBalancedSlices` (MEDCouplingMemArray.txx:7783-7787):
`while (locSum < sumPerSlc && pos < nbOfTuples) { pos++; locSum += *w++; }`.
`w` always equals `begin() + pos`, so only the remaining weights and `pos` are kept.
Returns the new `pos` and the remaining weights. -/
def balAdvance (sumPerSlc : Int) : (locSum : Int) → (pos : Nat) → (w : List Int) → Nat × List Int
  | _, pos, [] => (pos, [])
  | locSum, pos, x :: w =>
    if locSum < sumPerSlc then balAdvance sumPerSlc (locSum + x) (pos + 1) w else (pos, x :: w)

/-- The outer loop of `splitInBalancedSlices`, MEDCouplingMemArray.txx:7779-7793; `k` is the number
of slices still to build. -/
def balLoop (sumPerSlc : Int) (nbOfTuples : Nat) : (k : Nat) → (pos : Nat) → (w : List Int) →
    List (Nat × Nat)
  | 0, _, _ => []
  | k + 1, pos, w =>
    let (pos', w') := balAdvance sumPerSlc 0 pos w
    (pos, if k = 0 then nbOfTuples else pos') :: balLoop sumPerSlc nbOfTuples k pos' w'

/-- `DataArrayDiscrete<T>::splitInBalancedSlices`, MEDCouplingMemArray.txx:7764-7795, on an allocated
array with one component (the entry check of lines 7766-7770 is the only thing left out). -/
def splitInBalancedSlices (w : List Int) (nbOfSlices : Int) : M (List (Nat × Nat)) :=
  if nbOfSlices ≤ 0 then throwX
  else .ok (balLoop (w.sum.tdiv nbOfSlices) w.length nbOfSlices.toNat 0 w)

end MC
