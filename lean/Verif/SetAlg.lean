import Verif.StdAlg

/-!
# Set operations on id arrays (C12–C14)

Arrays are mono-component (`getNumberOfComponents()==1` is checked first by every function below, an allocated
array of another width throws); an array is the list of its values, a null pointer is `none`.
-/

namespace MC

/-- `DataArrayDiscrete<T>::BuildUnion`, MEDCouplingMemArray.txx:8479-8503.  Final `std::copy` of the set into the exactly
sized result is the identity on the list of elements. -/
def buildUnion (arrs : List (Option (List Int))) : List Int :=
  (arrs.filterMap id).foldl setInsertAll []

/-- `DataArrayDiscrete<T>::BuildIntersection`, MEDCouplingMemArray.txx:8517-8555. -/
def buildIntersection (arrs : List (Option (List Int))) : M (List Int) :=
  let a := arrs.filterMap id
  if a.length = 1 then throwX
  else match a with
    | [] => .ok []
    | x :: rest => .ok (rest.foldl (fun r y => setIntersection r (setInsertAll [] y)) (setInsertAll [] x))

/-- Lines 6423-6432 of `buildComplement`: mark the present ids in a `vector<bool>`. -/
def complementMarks (l : List Int) (nb : Nat) : M (List Bool) :=
  l.foldlM (fun tmp (w : Int) => if 0 ≤ w ∧ w < nb then wr tmp w true else throwX) (List.replicate nb false)

/-- Lines 6433-6441 of `buildComplement`: `retPtr[j++] = i` into a buffer of `count(false)` cells. -/
def complementFill (tmp : List Bool) (nb : Nat) : M (Nat × List (Option Int)) :=
  loop nb (0, mallocN Int (tmp.count false)) fun i st => do
    let t ← rd tmp i
    if !t then do
      let r ← wr st.2 st.1 (some (i : Int))
      .ok (st.1 + 1, r)
    else .ok st

/-- `DataArrayDiscrete<T>::buildComplement`, MEDCouplingMemArray.txx:6418-6442.  A negative `nbOfElement` makes the
`std::vector<bool>` constructor throw (`std::length_error`). -/
def buildComplement (l : List Int) (nb : Int) : M (List (Option Int)) :=
  if nb < 0 then throwX
  else do
    let tmp ← complementMarks l nb.toNat
    let r ← complementFill tmp nb.toNat
    .ok r.2

/-- `DataArrayDiscrete<T>::buildSubstraction`, MEDCouplingMemArray.txx:6459-6483. -/
def buildSubstraction (a b : List Int) : List Int :=
  setDifference (setInsertAll [] a) (setInsertAll [] b)

/-- `DataArrayDiscrete<T>::buildSubstractionOptimized`, MEDCouplingMemArray.txx:6495-6518; the two lists are the
ranges `[work1,pt1End)` and `[work2,pt2End)`. -/
def buildSubstractionOptimized : List Int → List Int → List Int
  | [], _ => []
  | a :: s, [] => a :: buildSubstractionOptimized s []
  | a :: s, b :: t => if a = b then buildSubstractionOptimized s t else a :: buildSubstractionOptimized s (b :: t)

/-- `DataArrayDiscrete<T>::buildUnique`, MEDCouplingMemArray.txx:6623-6637. -/
def buildUnique (l : List Int) : List Int := stdUnique l

/-- `DataArrayDiscrete<T>::getMinMaxValues`, MEDCouplingMemArray.txx:6132-6150; `tmax` is `std::numeric_limits<T>::max()`. -/
def getMinMaxValues (tmax : Int) (l : List Int) : Int × Int :=
  l.foldl (fun mm v => (if v < mm.1 then v else mm.1, if v > mm.2 then v else mm.2)) (tmax, -tmax)

/-- One iteration of the loop of `buildUniqueNotSorted`, lines 6662-6669. -/
def uniqueNotSortedStep (minV : Int) (st : List Bool × List Int) (v : Int) : M (List Bool × List Int) := do
  let t ← rd st.1 (v - minV)
  if !t then do
    let b ← wr st.1 (v - minV) true
    .ok (b, st.2 ++ [v])
  else .ok st

/-- `DataArrayDiscrete<T>::buildUniqueNotSorted`, MEDCouplingMemArray.txx:6651-6672.  Here the width of `T` matters:
`maxVal - minVal + 1` is computed in `T` (at least `int`), a result out of `[-tmax-1,tmax]` is a signed overflow, hence
undefined.  A representable negative size would make the `std::vector<bool>` constructor throw. -/
def buildUniqueNotSorted (tmax : Int) (l : List Int) : M (List Int) := do
  let mm := getMinMaxValues tmax l
  if mm.2 - mm.1 > tmax ∨ mm.2 - mm.1 < -tmax - 1 ∨ mm.2 - mm.1 + 1 > tmax then undef
  else if mm.2 - mm.1 + 1 < 0 then throwX
  else do
    let r ← l.foldlM (uniqueNotSortedStep mm.1) (List.replicate (mm.2 - mm.1 + 1).toNat false, [])
    .ok r.2

/-- `DataArrayDiscrete<T>::getDifferentValues`, MEDCouplingMemArray.txx:7460-7469. -/
def getDifferentValues (l : List Int) : List Int := setInsertAll [] l

/-- `DataArrayDiscrete<T>::hasUniqueValues`, MEDCouplingMemArray.txx:5546-5559. -/
def hasUniqueValues (l : List Int) : Bool := decide ((setInsertAll [] l).length = l.length)

end MC
