import Verif.Cursor
import Verif.Tuple
import Verif.Slices

/-!
# Tests, translations and searches on arrays (C30, C32, C35, C36) – model

`MEDCouplingMemArray.txx`, one-component arrays unless said otherwise.  Machine integers are unbounded here.
-/

namespace MC

/-- The loops of `isMonotonic` / `isStrictlyMonotonic`: `ok x ref` is the comparison with the last value. -/
def monoLoop (ok : Int → Int → Bool) : Int → List Int → Bool
  | _, [] => true
  | ref, x :: l => if ok x ref then monoLoop ok x l else false

/-- `DataArrayDiscrete<T>::isMonotonic` – MEDCouplingMemArray.txx:4375-4408. -/
def isMonotonic (increasing : Bool) : List Int → Bool
  | [] => true
  | a :: l => if increasing then monoLoop (fun x r => decide (x ≥ r)) a l else monoLoop (fun x r => decide (x ≤ r)) a l

/-- `DataArrayDiscrete<T>::isStrictlyMonotonic` – MEDCouplingMemArray.txx:4415-4448. -/
def isStrictlyMonotonic (increasing : Bool) : List Int → Bool
  | [] => true
  | a :: l => if increasing then monoLoop (fun x r => decide (x > r)) a l else monoLoop (fun x r => decide (x < r)) a l

/-- `for (i...; tmp += step) if (pt[i] != tmp) return false; return true;` – lines 5050-5053, 5062-5065. -/
def followsFrom (step : Int) : Int → List Int → Bool
  | _, [] => true
  | tmp, x :: l => if x ≠ tmp then false else followsFrom step (tmp + step) l

/-- `DataArrayDiscrete<T>::isRange` – MEDCouplingMemArray.txx:5018-5067; `some (strt, sttoopp, stteepp)` when true. -/
def isRange (l : List Int) : Option (Int × Int × Int) :=
  match l with
  | [] => some (0, 0, 1)
  | [a] => some (a, a + 1, 1)
  | a :: b :: t =>
    let last := (b :: t).getLast (by simp)
    let n1 : Int := ((b :: t).length : Int)
    if a = last then none
    else if last > a then
      if (last - a).tmod n1 ≠ 0 then none
      else if followsFrom ((last - a).tdiv n1) a l then some (a, last + 1, (last - a).tdiv n1) else none
    else
      if (a - last).tmod n1 ≠ 0 then none
      else if followsFrom (-(a - last).tdiv n1) a l then some (a, last - 1, -(a - last).tdiv n1) else none

/-- `DataArrayDiscrete<T>::isIota` – MEDCouplingMemArray.txx:5468-5481, one component. -/
def isIota (l : List Int) (sizeExpected : Int) : Bool :=
  if (l.length : Int) ≠ sizeExpected then false else followsFrom 1 0 l

/-- The loop of `transformWithIndArr` on the rest of the array – MEDCouplingMemArray.txx:4683-4694: outcome and content
afterwards (the array is modified in place up to the first bad value). -/
def transformLoop (table : List Int) : List Int → M Unit × List Int
  | [] => (.ok (), [])
  | x :: l =>
    if 0 ≤ x ∧ x < table.length then
      match rd table x with
      | .ok v => ((transformLoop table l).1, v :: (transformLoop table l).2)
      | .error e => (.error e, x :: l)
    else (throwX, x :: l)

/-- `DataArrayDiscrete<T>::transformWithIndArr` – MEDCouplingMemArray.txx:4672-4696. -/
def transformWithIndArr (table l : List Int) : M Unit × List Int := transformLoop table l

/-- `DataArrayDiscrete<T>::transformWithIndArrR` – MEDCouplingMemArray.txx:4855-4894. -/
def transformWithIndArrR (table l : List Int) : M (List Int) :=
  loop l.length (List.replicate l.length (-1)) fun i tmp => do
    let v ← rd l (i : Int)
    if 0 ≤ v ∧ v < table.length then do
      let pos ← rd table v
      if 0 ≤ pos ∧ pos < l.length then wr tmp pos (i : Int) else throwX
    else throwX

/-- `DataArrayDiscrete<T>::changeValue` – MEDCouplingMemArray.txx:5919-5942: (number of changes, new content). -/
def changeValue (old new : Int) (l : List Int) : Nat × List Int :=
  if old = new then (0, l)
  else l.foldl (fun s v => if v = old then (s.1 + 1, s.2 ++ [new]) else (s.1, s.2 ++ [v])) (0, [])

/-- `OpSwitchedOn/Off::operator()` – MEDCouplingMemArray.txx:9532-9564: state = (cursor, `_cnt`). -/
def switchedStep (which : Bool) (s : Cur Int × Int) (b : Bool) : M (Cur Int × Int) :=
  if b = which then do
    let c ← emit s.1 s.2
    .ok (c, s.2 + 1)
  else .ok (s.1, s.2 + 1)

/-- `BuildListOfSwitchedOn` (`which = true`) / `BuildListOfSwitchedOff` – MEDCouplingMemArray.txx:9574-9595. -/
def buildListOfSwitched (which : Bool) (v : List Bool) : M (List (Option Int)) := do
  let s ← v.foldlM (switchedStep which) (newCur Int (v.count which), 0)
  .ok s.1.1

/-- `std::search(l.begin(), l.end(), pat.begin(), pat.end())` as an offset; the length of `l` when not found. -/
def stdSearch (pat : List Int) : List Int → Nat
  | [] => 0
  | x :: l => if pat.isPrefixOf (x :: l) then 0 else stdSearch pat l + 1

/-- `DataArrayDiscrete<T>::findIdsEqual` – MEDCouplingMemArray.txx:4819-4835. -/
def findIdsEqual (l : List Int) (val : Int) : List Int :=
  (l.zipIdx.foldl (fun r p => if p.1 = val then r ++ [(p.2 : Int)] else r) [])

/-- `DataArrayDiscrete<T>::findIdSequence` – MEDCouplingMemArray.txx:5892-5906. -/
def findIdSequence (l pat : List Int) : Int := if stdSearch pat l ≠ l.length then (stdSearch pat l : Int) else -1

/-- The loop of `findIdsEqualTuple`, lines 5717-5727; `p` is `distance(bg, work)`.  Each turn advances or ends the loop. -/
def equalTupleLoop (nc : Nat) (data pat : List Int) : (fuel p : Nat) → (ret : List Int) → M (List Int)
  | 0, _, _ => undef
  | fuel + 1, p, ret =>
    if p ≠ data.length then
      let q := p + stdSearch pat (data.drop p)
      if q ≠ data.length then
        equalTupleLoop nc data pat fuel (q + 1) (if q % nc = 0 then ret ++ [((q / nc : Nat) : Int)] else ret)
      else equalTupleLoop nc data pat fuel q ret
    else .ok ret

/-- `DataArrayDiscrete<T>::findIdsEqualTuple` – MEDCouplingMemArray.txx:5701-5729. -/
def findIdsEqualTuple (a : DArr Int) (pat : List Int) : M (List Int) :=
  if a.nc ≠ pat.length then throwX
  else if pat.length = 0 then throwX
  else equalTupleLoop a.nc a.data pat (a.data.length + 2) 0 []

/-- The loop of `findIdFirstEqualTuple`, lines 5869-5879. -/
def firstTupleLoop (nc : Nat) (data pat : List Int) : (fuel p : Nat) → M Int
  | 0, _ => undef
  | fuel + 1, p =>
    if p ≠ data.length then
      let q := p + stdSearch pat (data.drop p)
      if q ≠ data.length then
        if q % nc ≠ 0 then firstTupleLoop nc data pat fuel (q + 1) else .ok ((q / nc : Nat) : Int)
      else firstTupleLoop nc data pat fuel q
    else .ok (-1)

/-- `DataArrayDiscrete<T>::findIdFirstEqualTuple` – MEDCouplingMemArray.txx:5854-5881. -/
def findIdFirstEqualTuple (a : DArr Int) (pat : List Int) : M Int :=
  if a.nc = 0 then throwX
  else if a.nc ≠ pat.length then throwX
  else firstTupleLoop a.nc a.data pat (a.data.length + 2) 0

end MC
