import Verif.Renumber
import Verif.StdAlg
import Mathlib.Data.Prod.Lex

/-!
# Rank permutations, per-level numbering, preimages, value lookup (C09, C10, C11, C22, C24)

All arrays are mono-component (the functions throw otherwise); "`*ptr++ = x` for each element into an array of exactly as
many cells" is modelled by producing the list of the written values.
-/

namespace MC

/-- The map built by `for (i) m[pt[i]] = i`, e.g. MEDCouplingMemArray.txx:8312, 4278, 4325, 5214-5218. -/
def indexMap (l : List Int) : List (Int × Int) :=
  l.zipIdx.foldl (fun m p => mapSet m p.1 (p.2 : Int)) []

/-- `DataArrayDiscrete<T>::CheckAndPreparePermutation`, MEDCouplingMemArray.txx:8298-8317. -/
def checkAndPreparePermutation (l : List Int) : M (List Int) :=
  let work := stdSort l
  if (stdUnique work).length ≠ work.length then throwX
  else
    let m := indexMap work
    .ok (l.map (mapAt m 0))

/-- Mono-component specialisation of `selectByTupleIdSafe` (see `selectSafe1_eq`), MEDCouplingMemArray.txx:1454-1484. -/
def selectSafe1 {α : Type} (l : List α) (ids : List Int) : M (List α) :=
  ids.mapM fun w : Int => if 0 ≤ w ∧ w < l.length then rd l w else throwX

/-- `DataArrayDiscrete<T>::FindPermutationFromFirstToSecond`, MEDCouplingMemArray.txx:8155-8191. -/
def findPermutationFromFirstToSecond (a b : List Int) : M (List (Option Int)) :=
  if a.length ≠ b.length then throwX
  else if stdSort a ≠ stdSort b then throwX
  else do
    let p1 ← checkAndPreparePermutation a
    let p2 ← checkAndPreparePermutation b
    let p2 ← invertArrayO2N2N2O p2 p2.length
    selectSafe1 p2 p1

/-- One iteration of `occurenceRankInThis`, MEDCouplingMemArray.txx:4221-4233. -/
def occStep (st : List (Int × Int) × List Int) (v : Int) : List (Int × Int) × List Int :=
  match mapFind st.1 v with
  | none => (mapSet st.1 v 1, st.2 ++ [0])
  | some c => (mapSet st.1 v (c + 1), st.2 ++ [c])

/-- `DataArrayDiscrete<T>::occurenceRankInThis`, MEDCouplingMemArray.txx:4212-4235. -/
def occurenceRankInThis (l : List Int) : List Int := (l.foldl occStep ([], [])).2

/-- The map `(value, occurrence rank) -> position` of `FindPermutationFromFirstToSecondDuplicate`, lines 8243-8247.
`std::pair` keys are ordered lexicographically. -/
def occPosMap (b : List Int) : List ((Int ×ₗ Int) × Int) :=
  ((b.zip (occurenceRankInThis b)).zipIdx).foldl (fun m p => mapSet m (toLex p.1) (p.2 : Int)) []

/-- One iteration of the second loop, lines 8253-8279. -/
def findPermDupStep (m : List ((Int ×ₗ Int) × Int)) (st : List (Int × Int) × List Int) (v : Int) :
    M (List (Int × Int) × List Int) :=
  let occ : Int := match mapFind st.1 v with
    | none => 0
    | some c => c
  let m1 := match mapFind st.1 v with
    | none => mapSet st.1 v 1
    | some c => mapSet st.1 v (c + 1)
  match mapFind m (toLex (v, occ)) with
  | some p => .ok (m1, st.2 ++ [p])
  | none => throwX

/-- `DataArrayDiscrete<T>::FindPermutationFromFirstToSecondDuplicate`, MEDCouplingMemArray.txx:8221-8281. -/
def findPermutationDuplicate (a b : List Int) : M (List Int) :=
  if a.length ≠ b.length then throwX
  else do
    let r ← a.foldlM (findPermDupStep (occPosMap b)) ([], [])
    .ok r.2

/-- Lines 5440-5446 of `buildPermArrPerLevel`: the counts of the map are replaced, in key order, by running sums. -/
def levelOffsets : Int → List (Int × Int) → List (Int × Int)
  | _, [] => []
  | sum, (k, vt) :: m => (k, sum) :: levelOffsets (sum + vt) m

/-- `DataArrayDiscrete<T>::buildPermArrPerLevel`, MEDCouplingMemArray.txx:5414-5452.  The first loop (5425-5439) is the
one of `occurenceRankInThis`. -/
def buildPermArrPerLevel (l : List Int) : List Int :=
  let st := l.foldl occStep ([], [])
  let m := levelOffsets 0 st.1
  (st.2.zip l).map fun p => p.1 + mapAt m 0 p.2

/-- `retIPtr[0]=0; for each size: retIPtr[1]=retIPtr[0]+size`. -/
def indexFromSizes (sizes : List Int) : List Int := sizes.scanl (· + ·) 0

/-- Lines 5366-5379 of `changeSurjectiveFormat`: `tmp[input[i]].push_back(i)`. -/
def surjectiveGroups (l : List Int) (targetNb : Nat) : M (List (List Int)) :=
  l.zipIdx.foldlM (fun (tmp : List (List Int)) (p : Int × Nat) =>
    if 0 ≤ p.1 ∧ p.1 < targetNb then do
      let g ← rd tmp p.1
      wr tmp p.1 (g ++ [(p.2 : Int)])
    else throwX) (List.replicate targetNb [])

/-- `DataArrayDiscrete<T>::changeSurjectiveFormat`, MEDCouplingMemArray.txx:5359-5396.  A negative `targetNb` makes the
`std::vector` constructor throw. -/
def changeSurjectiveFormat (l : List Int) (targetNb : Int) : M (List Int × List Int) :=
  if targetNb < 0 then throwX
  else do
    let tmp ← surjectiveGroups l targetNb.toNat
    let retI := indexFromSizes (tmp.map fun g => (g.length : Int))
    let last ← rd retI targetNb
    if (l.length : Int) ≠ last then throwX
    else .ok (tmp.flatten, retI)

/-- `DataArrayDiscrete<T>::buildPermutationArr`, MEDCouplingMemArray.txx:4260-4294. -/
def buildPermutationArr (l other : List Int) : M (List Int) :=
  if l.length ≠ other.length then throwX
  else other.mapM fun v => match mapFind (indexMap l) v with
    | some i => .ok i
    | none => throwX

/-- `DataArrayDiscrete<T>::indicesOfSubPart`, MEDCouplingMemArray.txx:4311-4342. -/
def indicesOfSubPart (l part : List Int) : M (List Int) :=
  if (indexMap l).length ≠ l.length then throwX
  else part.mapM fun v => match mapFind (indexMap l) v with
    | some i => .ok i
    | none => throwX

/-- `DataArrayDiscrete<T>::findIdForEach`, MEDCouplingMemArray.txx:5269-5291 with `invertArrayN2O2O2NOptimized` 5205-5220. -/
def findIdForEach (l vals : List Int) : M (List Int) :=
  vals.mapM fun v => match mapFind (indexMap l) v with
    | some i => .ok i
    | none => throwX

/-- `m[*w]++` for every value, MEDCouplingMemArray.txx:7730. -/
def countMap (l : List Int) : List (Int × Int) :=
  l.foldl (fun m v => mapSet m v (mapAt m 0 v + 1)) []

/-- One iteration of the last loop of `partitionByDifferentValues`, lines 7743-7746:
`retPtr[m2[*w]][m3[*w]++] = id`. -/
def partStep (m2 : List (Int × Int)) (st : List (Int × Int) × List (List (Option Int))) (p : Int × Nat) :
    M (List (Int × Int) × List (List (Option Int))) := do
  let k := mapAt m2 0 p.1
  let c := mapAt st.1 0 p.1
  let g ← rd st.2 k
  let g' ← wr g c (some (p.2 : Int))
  let r ← wr st.2 k g'
  .ok (mapSet st.1 p.1 (c + 1), r)

/-- `DataArrayDiscrete<T>::partitionByDifferentValues`, MEDCouplingMemArray.txx:7721-7748: the different values and, for
each, the array of positions (buffers of `m[value]` cells, uninitialised before the last loop). -/
def partitionByDifferentValues (l : List Int) : M (List Int × List (List (Option Int))) := do
  let m := countMap l
  let m2 := indexMap (mapKeys m)
  let r ← l.zipIdx.foldlM (partStep m2) ([], m.map fun p => mallocN Int p.2.toNat)
  .ok (mapKeys m, r.2)

/-- The runs of `indexOfSameConsecutiveValueGroups`, lines 6600-6607: `a` is the value `val` of the current run, `pos` the
position reached by `std::find_if`. -/
def runEnds (a : Int) (pos : Int) : List Int → List Int
  | [] => [pos]
  | b :: l => if a ≠ b then pos :: runEnds b (pos + 1) l else runEnds a (pos + 1) l

/-- `DataArrayDiscrete<T>::indexOfSameConsecutiveValueGroups`, MEDCouplingMemArray.txx:6577-6609 (the first pass only
counts the cells of the result). -/
def indexOfSameConsecutiveValueGroups : List Int → List Int
  | [] => [0]
  | a :: l => 0 :: runEnds a 1 l

end MC
