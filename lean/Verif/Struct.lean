import Verif.Cursor

/-!
# Structured grids: numbering, boxes in compact format – model

`MEDCouplingStructuredMesh.cxx`. A structure is the list of the sizes along each axis, first axis fastest. A "compact format" part is a list of
half-open intervals, one per axis.

The switches on the dimension (cases 1, 2, 3) contain the same nest of loops with one, two or three levels; they are written once, as an
iteration over `boxPos`. Where ids are added with `std::accumulate(..., 0)` the accumulator is a 32 bit `int`, which is modelled (`wrap32`); the
ids themselves are unbounded.
-/

namespace MC

/-- The positions visited by `for (i2 < d2) for (i1 < d1) for (i0 < d0)`, innermost loop on the first axis. -/
def boxPos : List Int → List (List Int)
  | [] => [[]]
  | d :: ds => (boxPos ds).flatMap fun p => (List.range d.toNat).map fun (k : Nat) => (k : Int) :: p

/-- Conversion of a value to a 32 bit `int`. -/
def wrap32 (x : Int) : Int := x.bmod (2 ^ 32)

/-- `std::accumulate(first, last, 0)` on ids: the accumulator is an `int`. -/
def accumulateInt (l : List Int) : Int := l.foldl (fun acc x => wrap32 (acc + x)) 0

/-- `std::accumulate(first, last, 1, std::multiplies<mcIdType>())`: idem. -/
def accumulateMulInt (l : List Int) : Int := l.foldl (fun acc x => wrap32 (acc * x)) 1

/-- `getMeshDimension`, MEDCouplingStructuredMesh.cxx:198-216. -/
def structMeshDim (ngs : List Int) : M Nat :=
  if ngs.any (fun n => decide (n ≤ 0)) then throwX else .ok (ngs.filter fun n => decide (n > 1)).length

/-- `getCellGridStructure`, MEDCouplingStructuredMesh.cxx:1658-1664. -/
def cellGridStructure (ngs : List Int) : List Int := ngs.map (· + -1)

/-- `GetSplitVectFromStruct`, MEDCouplingStructuredMesh.cxx:1696-1708: the product of the sizes of the previous axes. -/
def splitVect (st : List Int) : List Int := (List.range st.length).map fun q => (st.take q).prod

/-- `GetPosFromId`, MEDCouplingStructuredMesh.cxx:1646-1656, the loop going down from the last axis: what is left of `work`, and the
positions. Division by zero is undefined. -/
def posLoop : List Int → Int → M (Int × List Int)
  | [], w => .ok (w, [])
  | s :: rest, w => do
    let r ← posLoop rest w
    if s = 0 then undef else .ok (r.1.tmod s, r.1.tdiv s :: r.2)

/-- `GetPosFromId`. -/
def getPosFromId (eltId : Int) (split : List Int) : M (List Int) := do
  let r ← posLoop split eltId
  .ok r.2

/-- `getCellIdFromPos`, MEDCouplingStructuredMesh.cxx:1530-1539; `pos` is the array `{i,j,k}`. -/
def getCellIdFromPos (ngs : List Int) (pos : List Int) : M Int := do
  let meshDim ← structMeshDim ngs
  .ok (accumulateInt (List.zipWith (· * ·) (pos.take meshDim) (splitVect (cellGridStructure ngs))))

/-- `getNodeIdFromPos`, MEDCouplingStructuredMesh.cxx:1548-1557; the space dimension is the number of axes. -/
def getNodeIdFromPos (ngs : List Int) (pos : List Int) : Int :=
  accumulateInt (List.zipWith (· * ·) (pos.take ngs.length) (splitVect ngs))

/-- `getLocationFromCellId`, MEDCouplingStructuredMesh.cxx:1601-1618. -/
def getLocationFromCellId (ngs : List Int) (cellId : Int) : M (List Int) := do
  let meshDim ← structMeshDim ngs
  let struc := cellGridStructure ngs
  let nbCells := accumulateMulInt struc
  if cellId < 0 ∨ cellId ≥ nbCells then throwX
  else getPosFromId cellId ((splitVect struc).take meshDim)

/-- `getLocationFromNodeId`, MEDCouplingStructuredMesh.cxx:1627-1644. -/
def getLocationFromNodeId (ngs : List Int) (nodeId : Int) : M (List Int) :=
  if nodeId < 0 ∨ nodeId ≥ accumulateMulInt ngs then throwX
  else getPosFromId nodeId (splitVect ngs)

/-- `getNumberOfCells`, MEDCouplingStructuredMesh.cxx:1559-1583. -/
def structNumberOfCells (ngs : List Int) : M Int :=
  if ngs.any (fun n => decide (n ≤ 0)) then throwX
  else
    let l := ngs.filter fun n => decide (n > 1)
    .ok (if l = [] then 0 else (l.map (· - 1)).prod)

/-- `getNumberOfNodes`, MEDCouplingStructuredMesh.cxx:1585-1592. -/
def structNumberOfNodes (ngs : List Int) : Int := ngs.prod

/-! ## Parts in compact format -/

/-- `DeduceNumberOfGivenStructure`, MEDCouplingStructuredMesh.cxx:979-994. -/
def deduceNumberOfGivenStructure (st : List Int) : M Int :=
  if st.any (fun n => decide (n < 0)) then throwX else .ok (if st = [] then 0 else st.prod)

/-- `DeduceNumberOfGivenRangeInCompactFrmt`, MEDCouplingStructuredMesh.cxx:955-977. -/
def deduceNumberOfGivenRange (part : List (Int × Int)) : M Int :=
  if part.any (fun r => decide (r.1 < 0 ∨ r.2 < 0 ∨ r.2 - r.1 < 0)) then throwX else .ok (part.map fun r => r.2 - r.1).prod

/-- `GetDimensionsFromCompactFrmt`, MEDCouplingStructuredMesh.cxx:1819-1837. -/
def dimensionsFromCompactFrmt (part : List (Int × Int)) : M (List Int) :=
  part.mapM fun r => if r.1 > r.2 then throwX else .ok (r.2 - r.1)

/-- `GetCompactFrmtFromDimensions`, MEDCouplingStructuredMesh.cxx:1846-1863. -/
def compactFrmtFromDimensions (dims : List Int) : M (List (Int × Int)) :=
  dims.mapM fun d => if d < 0 then throwX else .ok (0, d)

/-- The checks on one axis in `IntersectRanges`, lines 1884-1906. -/
def intersectRange (a b : Int × Int) : M (Int × Int) :=
  if a.1 > a.2 then throwX
  else if b.1 > b.2 then throwX
  else if max a.1 b.1 > min a.2 b.2 then throwX
  else .ok (max a.1 b.1, min a.2 b.2)

/-- `IntersectRanges`, MEDCouplingStructuredMesh.cxx:1871-1909. -/
def intersectRanges (r1 r2 : List (Int × Int)) : M (List (Int × Int)) :=
  if r1.length ≠ r2.length then throwX else (List.zip r1 r2).mapM fun ab => intersectRange ab.1 ab.2

/-- The loop of `AreRangesIntersect`, lines 1927-1947. -/
def areRangesLoop : List ((Int × Int) × (Int × Int)) → M Bool
  | [] => .ok true
  | (a, b) :: l =>
    if a.1 > a.2 then throwX
    else if b.1 > b.2 then throwX
    else if a.2 ≤ b.1 then .ok false
    else if a.1 ≥ b.2 then .ok false
    else areRangesLoop l

/-- `AreRangesIntersect`, MEDCouplingStructuredMesh.cxx:1917-1949. -/
def areRangesIntersect (r1 r2 : List (Int × Int)) : M Bool :=
  if r1.length ≠ r2.length then throwX else areRangesLoop (List.zip r1 r2)

/-- `ChangeReferenceFromGlobalOfCompactFrmt`, MEDCouplingStructuredMesh.cxx:2208-2255. -/
def changeReferenceFromGlobal (bigInAbs partInAbs : List (Int × Int)) (check : Bool) : M (List (Int × Int)) :=
  if bigInAbs.length ≠ partInAbs.length then throwX
  else (List.zip bigInAbs partInAbs).mapM fun bp =>
    if check = true ∧ bp.1.1 > bp.1.2 then throwX
    else if check = true ∧ (bp.2.1 < bp.1.1 ∨ bp.2.1 ≥ bp.1.2) then throwX
    else if check = true ∧ (bp.2.2 < bp.2.1 ∨ bp.2.2 > bp.1.2) then throwX
    else .ok (bp.2.1 - bp.1.1, bp.2.2 - bp.1.1)

/-- `ChangeReferenceToGlobalOfCompactFrmt`, MEDCouplingStructuredMesh.cxx:2262-2311. -/
def changeReferenceToGlobal (bigInAbs partRel : List (Int × Int)) (check : Bool) : M (List (Int × Int)) :=
  if bigInAbs.length ≠ partRel.length then throwX
  else (List.zip bigInAbs partRel).mapM fun bp =>
    if check = true ∧ bp.1.1 > bp.1.2 then throwX
    else if check = true ∧ (bp.2.1 < 0 ∨ bp.2.1 ≥ bp.1.2 - bp.1.1) then throwX
    else if check = true ∧ (bp.2.2 < bp.2.1 ∨ bp.2.2 > bp.1.2 - bp.1.1) then throwX
    else .ok (bp.2.1 + bp.1.1, bp.2.2 + bp.1.1)

/-- `TranslateCompactFrmt`, MEDCouplingStructuredMesh.cxx:2318-2333. -/
def translateCompactFrmt (part : List (Int × Int)) (t : List Int) : M (List (Int × Int)) :=
  if t.length ≠ part.length then throwX else .ok (List.zipWith (fun (r : Int × Int) d => (r.1 + d, r.2 + d)) part t)

/-- `FindTranslationFrom`, MEDCouplingStructuredMesh.cxx:2338-2353. -/
def findTranslationFrom (startingFrom goingTo : List (Int × Int)) : M (List Int) :=
  if goingTo.length ≠ startingFrom.length then throwX
  else .ok (List.zipWith (fun (g s : Int × Int) => g.1 - s.1) goingTo startingFrom)

/-- `ApplyGhostOnCompactFrmt`, MEDCouplingStructuredMesh.cxx:2612-2627. -/
def applyGhost (part : List (Int × Int)) (g : Int) : M (List (Int × Int)) :=
  if g < 0 then throwX else .ok (part.map fun r => (r.1 + g, r.2 + g))

/-- `PutInGhostFormat`, MEDCouplingStructuredMesh.cxx:2575-2606. -/
def putInGhostFormat (g : Int) (st : List Int) (part : List (Int × Int)) : M (List Int × List (Int × Int)) :=
  if g < 0 then throwX
  else if st.length ≠ part.length then throwX
  else if (List.zip part st).any (fun rn => decide (rn.1.1 < 0 ∨ rn.1.1 > rn.1.2 ∨ rn.1.2 > rn.2)) then throwX
  else do
    let p ← applyGhost part g
    .ok (st.map (· + 2 * g), p)

/-- The index `part[0].first+k + (part[1].first+j)*st[0] + (part[2].first+i)*st[0]*st[1]` computed in the loops. -/
def partOffset (st : List Int) (part : List (Int × Int)) (p : List Int) : Int :=
  (List.zipWith (· * ·) (List.zipWith (fun (r : Int × Int) k => r.1 + k) part p) (splitVect st)).sum

/-- The checks at the beginning of `BuildExplicitIdsFrom` and `MultiplyPartOf`, lines 2374-2384, 2453-2462. -/
def checkedDims (st : List Int) (part : List (Int × Int)) : M (List Int) :=
  if st.length ≠ part.length then throwX
  else (List.zip part st).mapM fun rn =>
    if rn.1.1 < 0 ∨ rn.1.1 > rn.2 then throwX
    else if rn.1.2 < 0 ∨ rn.1.2 > rn.2 then throwX
    else if rn.1.2 < rn.1.1 then throwX
    else .ok (rn.1.2 - rn.1.1)

/-- `BuildExplicitIdsFrom`, MEDCouplingStructuredMesh.cxx:2363-2423. -/
def buildExplicitIdsFrom (st : List Int) (part : List (Int × Int)) : M (List (Option Int)) := do
  let dims ← checkedDims st part
  if 1 ≤ st.length ∧ st.length ≤ 3 then do
    let c ← (boxPos dims).foldlM (fun c p => emit c (partOffset st part p)) (newCur Int dims.prod.toNat)
    .ok c.1
  else throwX

/-- `SwitchOnIdsFrom`, MEDCouplingStructuredMesh.cxx:1962-2014 (the part is not compared with the structure). -/
def switchOnIdsFrom (st : List Int) (part : List (Int × Int)) (v : List Bool) : M (List Bool) :=
  if st.length ≠ part.length then throwX
  else do
    let n ← deduceNumberOfGivenStructure st
    if (v.length : Int) ≠ n then throwX
    else do
      let dims ← dimensionsFromCompactFrmt part
      if 1 ≤ st.length ∧ st.length ≤ 3 then (boxPos dims).foldlM (fun v p => wr v (partOffset st part p) true) v else throwX

/-- `ExtractFieldOfBoolFrom`, MEDCouplingStructuredMesh.cxx:2029-2085; the output vector is resized, then assigned from its beginning. -/
def extractFieldOfBoolFrom (st : List Int) (v : List Bool) (part : List (Int × Int)) : M (List (Option Bool)) :=
  if st.length ≠ part.length then throwX
  else do
    let n ← deduceNumberOfGivenStructure st
    if (v.length : Int) ≠ n then throwX
    else do
      let dims ← dimensionsFromCompactFrmt part
      let m ← deduceNumberOfGivenStructure dims
      if 1 ≤ st.length ∧ st.length ≤ 3 then do
        let c ← (boxPos dims).foldlM (fun c p => do let x ← rd v (partOffset st part p); emit c x) (newCur Bool m.toNat)
        .ok c.1
      else throwX

/-- `ExtractFieldOfDoubleFrom`, MEDCouplingStructuredMesh.cxx:2099-2177, on an array of `nt` tuples of `nc` components. -/
def extractFieldFrom {α : Type} (st : List Int) (nt nc : Nat) (v : List α) (part : List (Int × Int)) : M (List (Option α)) :=
  if st.length ≠ part.length then throwX
  else do
    let n ← deduceNumberOfGivenStructure st
    if (nt : Int) ≠ n then throwX
    else do
      let dims ← dimensionsFromCompactFrmt part
      let m ← deduceNumberOfGivenStructure dims
      if 1 ≤ st.length ∧ st.length ≤ 3 then do
        let c ← (boxPos dims).foldlM
          (fun c p => emitCopy c v (partOffset st part p * nc) ((partOffset st part p + 1) * nc)) (newCur α (m.toNat * nc))
        .ok c.1
      else throwX

/-- `std::transform(pt + nc*o, pt + nc*(o+1), pt + nc*o, f)`. -/
def mapTuple {α : Type} (f : α → α) (nc : Nat) (v : List α) (o : Int) : M (List α) :=
  loop nc v fun c v => do
    let x ← rd v (nc * o + c)
    wr v (nc * o + c) (f x)

/-- `MultiplyPartOf`, MEDCouplingStructuredMesh.cxx:2436-2534, for an arbitrary function of the value. -/
def mapPartOf {α : Type} (f : α → α) (st : List Int) (part : List (Int × Int)) (nt nc : Nat) (v : List α) : M (List α) := do
  let dims ← checkedDims st part
  let n ← deduceNumberOfGivenStructure st
  if (nt : Int) ≠ n then throwX
  else if 1 ≤ st.length ∧ st.length ≤ 3 then (boxPos dims).foldlM (fun v p => mapTuple f nc v (partOffset st part p)) v
  else throwX

/-- The comparison loops of `IsPartStructured`, lines 1765-1806: `w` runs through the ids. -/
def cmpLoop (off : List Int → Int) : List (List Int) → List Int → M Bool
  | [], _ => .ok true
  | _ :: _, [] => undef
  | p :: ps, w :: ws => if off p ≠ w then .ok false else cmpLoop off ps ws

/-- The loop of `IsPartStructured` on the axes, lines 1751-1762: `none` = `return false`, else the lengths. -/
def partSizesLoop : List ((Int × Int) × Int) → M (Option (List Int))
  | [] => .ok (some [])
  | ((f, l), n) :: rest =>
    if l < 0 ∨ l ≥ n then throwX
    else if l + 1 - f ≤ 0 then .ok none
    else do
      let r ← partSizesLoop rest
      match r with
      | none => .ok none
      | some t => .ok (some ((l + 1 - f) :: t))

/-- `IsPartStructured`, MEDCouplingStructuredMesh.cxx:1717-1810: the part in compact format if the answer is `true`. (When it is `false`, what
the output argument holds is not specified and left out.) -/
def isPartStructured (ids st : List Int) : M (Option (List (Int × Int))) :=
  if st.length < 1 ∨ st.length > 3 then throwX
  else
    match ids.head?, ids.getLast? with
    | some a, some z => do
      let first ← getPosFromId a (splitVect st)
      let lastPos ← rd first ((st.length : Int) - 1)
      let lastSt ← rd st ((st.length : Int) - 1)
      if lastPos < 0 ∨ lastPos ≥ lastSt then throwX
      else if ids.length = 1 then .ok (some (first.map fun x => (x, x + 1)))
      else do
        let last ← getPosFromId z (splitVect st)
        let sizes ← partSizesLoop (List.zip (List.zip first last) st)
        match sizes with
        | none => .ok none
        | some t =>
          if t.prod ≠ ids.length then .ok none
          else do
            let part := List.zipWith (fun f l => (f, l + 1)) first last
            let b ← cmpLoop (partOffset st part) (boxPos t) ids
            .ok (if b then some part else none)
    | _, _ => throwX

end MC
