import Verif.Cursor
import Verif.StdAlg

/-!
# Chains of pairs (C25), grouping by pairs (C38) – model

`MEDCouplingMemArray.txx`.  A two-component array is the list of its tuples.
-/

namespace MC

/-- A tuple of a two-component array. -/
abbrev Seg := Int × Int

/-! ## `PairAggregator` – MEDCouplingMemArray.txx:7236-7296 -/

/-- `front()` – line 7275; `_data.front()` of an empty list is undefined. -/
def aggFront : List Seg → M Int
  | [] => undef
  | p :: _ => .ok p.1

/-- `back()` – line 7276. -/
def aggBack (l : List Seg) : M Int :=
  match l.getLast? with
  | none => undef
  | some p => .ok p.2

/-- `reserse()` – lines 7267-7274. -/
def aggReverse (l : List Seg) : List Seg := l.reverse.map fun p => (p.2, p.1)

/-- `tryToAggregate` – lines 7241-7266; `none` means `false` (nothing changed), `some d` the new `_data` of the receiver. -/
def tryToAggregate (a o : List Seg) : M (Option (List Seg)) := do
  let af ← aggFront a
  let ab ← aggBack a
  let of ← aggFront o
  let ob ← aggBack o
  if ab = of then .ok (some (a ++ o))
  else if af = ob then .ok (some (o ++ a))
  else if af = of then .ok (some (aggReverse o ++ a))
  else if ab = ob then .ok (some (a ++ aggReverse o))
  else .ok none

/-- The `while (it2 != tab.end())` loop – lines 7314-7325: new base, remaining elements, `mergeOpDone` set. -/
def mergeInto : (base : List Seg) → List (List Seg) → M (List Seg × List (List Seg) × Bool)
  | base, [] => .ok (base, [], false)
  | base, o :: rest => do
    match ← tryToAggregate base o with
    | some base' => do
      let r ← mergeInto base' rest
      .ok (r.1, r.2.1, true)
    | none => do
      let r ← mergeInto base rest
      .ok (r.1, o :: r.2.1, r.2.2)

/-- The `do ... while (it != tab.end())` loop over the bases – lines 7308-7327.  The tail only shrinks: `fuel` = its length. -/
def mergePass : (fuel : Nat) → List (List Seg) → M (List (List Seg) × Bool)
  | _, [] => undef
  | 0, _ => undef
  | fuel + 1, base :: rest => do
    let r ← mergeInto base rest
    if r.2.1 = [] then .ok ([r.1], r.2.2)
    else do
      let t ← mergePass fuel r.2.1
      .ok (r.1 :: t.1, r.2.2 || t.2)

/-- `findMaxLengthLines` – lines 7300-7330.  Each turn but the last removes an element. -/
def findMaxLengthLines : (fuel : Nat) → List (List Seg) → M (List (List Seg))
  | 0, _ => undef
  | fuel + 1, tab =>
    if tab ≠ [] then do
      let r ← mergePass tab.length tab
      if r.2 then findMaxLengthLines fuel r.1 else .ok r.1
    else .ok tab

/-- `DataArrayDiscrete<T>::splitPairsIntoChains` – MEDCouplingMemArray.txx:7382-7414. -/
def splitPairsIntoChains (l : List Seg) : M (List (List Seg)) :=
  if l = [] then .ok [] else findMaxLengthLines (l.length + 1) (l.map fun p => [p])

/-- `DataArrayDiscrete<T>::sortToHaveConsecutivePairs` – MEDCouplingMemArray.txx:7341-7373 (the array is untouched when it throws). -/
def sortToHaveConsecutivePairs (l : List Seg) : M (List Seg) :=
  if l = [] then .ok []
  else do
    let tab ← findMaxLengthLines (l.length + 1) (l.map fun p => [p])
    match tab with
    | [c] => .ok c
    | _ => throwX

/-- `DataArrayDiscrete<T>::fromLinkedListOfPairToList` – MEDCouplingMemArray.txx:7423-7451. -/
def fromLinkedListOfPairToList (l : List Seg) : M (List (Option Int)) :=
  if l.length < 1 then throwX
  else do
    let p0 ← rd l 0
    let r0 ← wr (mallocN Int (l.length + 1)) 0 (some p0.1)
    loop l.length r0 fun i r => do
      let p ← rd l (i : Int)
      let r' ← wr r ((i : Int) + 1) (some p.2)
      if (i : Int) < (l.length : Int) - 1 then do
        let q ← rd l ((i : Int) + 1)
        if p.2 ≠ q.1 then throwX else .ok r'
      else .ok r'

/-! ## `sortEachPairToMakeALinkedList` – MEDCouplingMemArray.txx:7155-7232 -/

/-- The iteration `i == 1` on the two first tuples – lines 7195-7230. -/
def linkFirst (p q : Seg) : M (Seg × Seg) :=
  if p.1 = p.2 ∨ q.1 = q.2 then throwX
  else if (setInsertAll [] [p.1, p.2, q.1, q.2]).length ≠ 3 then throwX
  else if [p.1, p.2, q.1, q.2].count p.1 = 2 then
    .ok ((p.2, p.1), (p.1, if q.1 = p.1 then q.2 else q.1))
  else .ok (p, if p.2 = q.2 then (q.2, q.1) else q)

/-- The swap of the iterations `i > 1` – lines 7185-7186. -/
def linkSwap (p q : Seg) : Seg := if q.1 ≠ p.2 ∧ q.2 = p.2 ∧ q.1 ≠ p.1 then (q.2, q.1) else q

/-- The iterations `i > 1`: tuple `q` after tuple `p` – lines 7169-7194. -/
def linkNext (p q : Seg) : M Seg :=
  if q.1 = q.2 then throwX
  else if q.1 ≠ p.2 ∧ q.2 ≠ p.2 then throwX
  else if (linkSwap p q).1 ≠ p.2 ∨ (linkSwap p q).2 = p.2 ∨ (linkSwap p q).2 = p.1 then throwX
  else .ok (linkSwap p q)

/-- The iterations `i > 1` on the rest of the tuples. -/
def linkRest : Seg → List Seg → M (List Seg)
  | _, [] => .ok []
  | p, q :: l => do
    let q' ← linkNext p q
    let l' ← linkRest q' l
    .ok (q' :: l')

/-- `DataArrayDiscrete<T>::sortEachPairToMakeALinkedList`.  Simplification: the content left behind by an exception is not described. -/
def sortEachPairToMakeALinkedList : List Seg → M (List Seg)
  | p :: q :: l => do
    let pq ← linkFirst p q
    let l' ← linkRest pq.2 l
    .ok (pq.1 :: pq.2 :: l')
  | l => .ok l

/-! ## `fromListOfPairsToIndexArray` – MEDCouplingMemArray.txx:7619-7709 -/

/-- `std::map::erase(it)` -/
def mapErase (m : List (Int × List Int)) (k : Int) : List (Int × List Int) := m.filter fun p => p.1 ≠ k

/-- One pair – lines 7633-7654. -/
def pairStep (m : List (Int × List Int)) (p : Seg) : List (Int × List Int) :=
  let zeMin := min p.1 p.2
  let zeMax := max p.1 p.2
  match mapFind m zeMin with
  | some s => mapSet m zeMin (setInsert s zeMax)
  | none =>
    match mapFind m zeMax with
    | none => mapSet m zeMin (setInsertAll [] [zeMin, zeMax])
    | some s => mapSet (mapErase m zeMax) zeMin (setInsert s zeMin)

/-- `zeMap[x] = g` for all `x` of a set. -/
def labelAll (zeMap : List (Int × Int)) (s : List Int) (g : Int) : List (Int × Int) := s.foldl (fun m x => mapSet m x g) zeMap

/-- One entry of `workStruct` – lines 7660-7688; the state holds the entries before `it` (those still in the map) and `zeMap`. -/
def fuseStep (st : List (Int × List Int) × List (Int × Int)) (e : Int × List Int) : M (List (Int × List Int) × List (Int × Int)) :=
  match e.2.findSome? (mapFind st.2) with
  | none => .ok (mapSet st.1 e.1 e.2, labelAll st.2 e.2 e.1)
  | some g =>
    match mapFind st.1 g with
    | none => undef
    | some s => .ok (mapSet st.1 g (setInsertAll s e.2), labelAll st.2 e.2 g)

/-- `arrIndexOutPt[1] = arrIndexOutPt[0] + n` – lines 7696-7701; the state is the pointer and the value it points to. -/
def groupIdxStep (st : Cur Int × Int) (e : Int × List Int) : M (Cur Int × Int) := do
  let c ← emit st.1 (st.2 + e.2.length)
  .ok (c, st.2 + e.2.length)

/-- `DataArrayDiscrete<T>::fromListOfPairsToIndexArray`: (`arrOut`, `arrIndexOut`). -/
def fromListOfPairsToIndexArray (l : List Seg) : M (List (Option Int) × List (Option Int)) := do
  let w ← (l.foldl pairStep []).foldlM fuseStep ([], [])
  let c0 ← emit (newCur Int (w.1.length + 1)) 0
  let ci ← w.1.foldlM groupIdxStep (c0, 0)
  let c ← (w.1.map Prod.snd).foldlM (fun (s : Cur Int) (g : List Int) => emitCopy s g 0 (g.length : Int)) (newCur Int ci.2.toNat)
  .ok (c.1, ci.1.1)

end MC
