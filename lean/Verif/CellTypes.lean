import Verif.CommonCells
import Verif.Neigh
import Verif.Perms
import Verif.PartDef

/-!
# Cells sorted by geometric type (`MEDCouplingUMesh`)

The meshes are given by the two arrays of their connectivity and, where it is used, the set `_types` of their geometric types.  The
checks that the arrays are set and have one component are not modelled.
-/

namespace MC
section

/-! ## Runs of cells of the same type -/

/-- `conn[*i]` for `i` a pointer in the index array: the type of a cell -/
def typeAt (conn connI : List Int) (i : Nat) : M Int := do
  let a ← rd connI i
  rd conn a

/-- the search of `std::find_if` on the `k` cells which start at `pos` -/
def findCellLoop (conn connI : List Int) (p : Int → Bool) : (k pos : Nat) → M Nat
  | 0, pos => .ok pos
  | k + 1, pos => do
    let t ← typeAt conn connI pos
    if p t then .ok pos else findCellLoop conn connI p k (pos + 1)

/-- `std::find_if(connI + pos, connI + nbOfCells, ConnReader(conn, t))` and the same with `ConnReader2` (MEDCouplingUMesh.cxx:7334-7355):
the position found.  When `pos` is after the end the search has no end. -/
def findCell (conn connI : List Int) (p : Int → Bool) (pos : Nat) : M Nat :=
  if pos ≤ connI.length - 1 then findCellLoop conn connI p (connI.length - 1 - pos) pos else undef

/-- The loop `for (i = connI; i != connI + nbOfCells;) { typ = conn[*i]; …; i = find_if(i + 1, connI + nbOfCells, ConnReader(conn, typ)); … }`
shared by the functions below.  The body receives the type, the first cell of the run and the first cell after it, and says whether the
function returns.  The search, which has no effect, is done before the body. -/
def forRuns {σ : Type} (conn connI : List Int) (f : σ → Int → Nat → Nat → M (σ × Bool)) : (fuel pos : Nat) → σ → M σ
  | 0, _, _ => undef
  | fuel + 1, pos, s =>
    if pos = connI.length - 1 then .ok s
    else do
      let t ← typeAt conn connI pos
      let next ← findCell conn connI (fun u => decide (u ≠ t)) (pos + 1)
      let r ← f s t pos next
      if r.2 then .ok r.1 else forRuns conn connI f fuel next r.1

/-- `getDistributionOfTypes` (MEDCouplingUMesh.cxx:7369-7397); `geoTypes` is `getAllGeoTypes()`. -/
def getDistributionOfTypes (geoTypes conn connI : List Int) : M (List Int) := do
  let s ← forRuns conn connI (fun (s : List Int × List Int × Nat) t a b =>
    if t ∈ s.2.1 then throwX
    else do
      let ret ← wr s.1 (3 * s.2.2) t
      let ret ← wr ret (3 * s.2.2 + 1) ((b : Int) - a)
      .ok ((ret, setInsert s.2.1 t, s.2.2 + 1), false)) connI.length 0 (List.replicate (3 * geoTypes.length) (-1), [], 0)
  .ok s.1

/-- `checkConsecutiveCellTypes` (MEDCouplingUMesh.cxx:7714-7730) -/
def checkConsecutiveCellTypes (conn connI : List Int) : M Bool := do
  let s ← forRuns conn connI (fun (s : List Int × Bool) t _ _ =>
    .ok (if t ∈ s.1 then ((s.1, false), true) else ((setInsert s.1 t, true), false))) connI.length 0 ([], true)
  .ok s.2

/-- `checkConsecutiveCellTypesAndOrder` (MEDCouplingUMesh.cxx:7751-7787) -/
def checkConsecutiveCellTypesAndOrder (order conn connI : List Int) : M Bool :=
  if connI.length - 1 = 0 then .ok true
  else do
    let s ← forRuns conn connI (fun (s : Int × List Int × Bool) t _ _ =>
      .ok (if order.idxOf t ≠ order.length then
        (if (order.idxOf t : Int) ≤ s.1 then ((s.1, s.2.1, false), true) else (((order.idxOf t : Int), s.2.1, true), false))
      else (if t ∈ s.2.1 then ((s.1, s.2.1, false), true) else ((s.1, setInsert s.2.1 t, true), false)))) connI.length 0 (-1, [], true)
    .ok s.2.2

/-- `MEDMEM_ORDER` (MEDCouplingUMesh.cxx:63-71) -/
def medmemOrder : List Int :=
  [0, 1, 2, 10, 33, 3, 4, 6, 7, 8, 9, 5, 32, 14, 15, 16, 18, 22, 20, 23, 25, 28, 30, 27, 31]

/-- `checkConsecutiveCellTypesForMEDFileFrmt` (MEDCouplingUMesh.cxx:7739-7742) -/
def checkConsecutiveCellTypesForMEDFileFrmt (conn connI : List Int) : M Bool := checkConsecutiveCellTypesAndOrder medmemOrder conn connI

/-! ## Sorting by type -/

/-- `getLevArrPerCellTypes` (MEDCouplingUMesh.cxx:7796-7835): the returned array and `nbPerType` -/
def getLevArrPerCellTypes (order conn connI : List Int) : M (List (Option Int) × List Int) :=
  loop (connI.length - 1) (mallocN Int (connI.length - 1), List.replicate order.length 0) fun i s => do
    let t ← typeAt conn connI i
    if order.idxOf t ≠ order.length then do
      let v ← rd s.2 (order.idxOf t)
      let nb ← wr s.2 (order.idxOf t) (v + 1)
      let lev ← wr s.1 i (some (order.idxOf t : Int))
      .ok (lev, nb)
    else throwX

/-- `getRenumArrForConsecutiveCellTypesSpec` (MEDCouplingUMesh.cxx:7861-7869) -/
def getRenumArrForConsecutiveCellTypesSpec (order conn connI : List Int) : M (List Int) := do
  let r ← getLevArrPerCellTypes order conn connI
  let lev ← initialised r.1
  .ok (buildPermArrPerLevel lev)

/-- `sortCellsInMEDFileFrmt` with `getRenumArrForMEDFileFrmt` (MEDCouplingUMesh.cxx:7701-7707, 7846-7849): the returned array and the new
connectivity -/
def sortCellsInMEDFileFrmt (conn connI : List Int) : M (List Int × List (Option Int) × List (Option Int)) := do
  let o2n ← getRenumArrForConsecutiveCellTypesSpec medmemOrder conn connI
  let r ← renumberCells conn connI o2n false
  .ok (o2n, r)

/-- The loop which lists the types in `rearrange2ConsecutiveCellTypes` (MEDCouplingUMesh.cxx:7888-7894).  Nothing moves `i` when the type
has been seen already. -/
def firstTypes (nbTypes : Nat) (conn connI : List Int) : (fuel pos : Nat) → List Int → M (List Int)
  | 0, _, _ => undef
  | fuel + 1, pos, types =>
    if pos ≠ connI.length - 1 ∧ types.length ≠ nbTypes then do
      let t ← typeAt conn connI pos
      if t ∈ types then firstTypes nbTypes conn connI fuel pos types
      else do
        let next ← findCell conn connI (fun u => decide (u ≠ t)) (pos + 1)
        firstTypes nbTypes conn connI fuel next (types ++ [t])
    else .ok types

/-- one iteration of the last loop of `rearrange2ConsecutiveCellTypes` (MEDCouplingUMesh.cxx:7900-7906) -/
def rearrangeStep (conn connI : List Int) (s : List Int × Int) (t : Int) : M (List Int × Int) :=
  loop (connI.length - 1) s fun i s => do
    let u ← typeAt conn connI i
    if u = t then do
      let ret ← wr s.1 i s.2
      .ok (ret, s.2 + 1)
    else .ok s

/-- `rearrange2ConsecutiveCellTypes` (MEDCouplingUMesh.cxx:7880-7909): the returned array and the new connectivity.  `fuel` bounds the
number of turns of the first loop, which does not always end. -/
def rearrange2ConsecutiveCellTypes (fuel : Nat) (conn connI : List Int) : M (List Int × List (Option Int) × List (Option Int)) := do
  let geoTypes ← computeTypes conn connI
  let types ← firstTypes geoTypes.length conn connI fuel 0 []
  let s ← types.foldlM (rearrangeStep conn connI) (List.replicate (connI.length - 1) (-1), 0)
  let r ← renumberCells conn connI s.1 false
  .ok (s.1, r)

/-- `splitByType` (MEDCouplingUMesh.cxx:7917-7938): the connectivity of each mesh -/
def splitByType (dim : Int) (conn connI : List Int) : M (List (List Int × List Int)) :=
  forRuns conn connI (fun (ret : List (List Int × List Int)) _ a b => do
    let m ← buildPartOfMySelfKeep dim conn connI ((List.range (b - a)).map fun j : Nat => ((a + j : Nat) : Int))
    .ok (ret ++ [m], false)) connI.length 0 []

/-! ## Profiles -/

/-- the loop over the types in `splitProfilePerType` (MEDCouplingUMesh.cxx:7561-7575): `types` and `typeRangeVals` -/
def typeRanges (conn connI : List Int) : M (List Int × List Int) :=
  forRuns conn connI (fun (s : List Int × List Int) t _ b =>
    if t ∈ s.1 then throwX else .ok ((s.1 ++ [t], s.2 ++ [(b : Int)]), false)) connI.length 0 ([], [0])

/-- State of the last loop of `splitProfilePerType`. -/
structure ProfileSplit where
  code : List Int
  idsInPflPerType : List (List Int)
  idsPerType : List (List Int)
deriving DecidableEq, Repr

/-- one iteration of the last loop of `splitProfilePerType` (MEDCouplingUMesh.cxx:7589-7608); `code` is filled in order, which is modelled
by appending. -/
def splitProfileStep (types vals cast rank : List Int) (smart : Bool) (s : ProfileSplit) (castId : Int) : M ProfileSplit := do
  let tmp3 := findIdsEqual cast castId
  let t ← rd types castId
  let sel ← selectByTupleId ⟨rank.length, 1, rank, by simp⟩ tmp3
  let tmp4 ← definite sel
  let b ← rd vals (castId + 1)
  let a ← rd vals castId
  if !smart || !isIota tmp4 (b - a) then
    .ok ⟨s.code ++ [t, (tmp3.length : Int), (s.idsPerType.length : Int)], s.idsInPflPerType ++ [tmp3], s.idsPerType ++ [tmp4]⟩
  else .ok ⟨s.code ++ [t, (tmp3.length : Int), -1], s.idsInPflPerType ++ [tmp3], s.idsPerType⟩

/-- `splitProfilePerType` (MEDCouplingUMesh.cxx:7543-7625) -/
def splitProfilePerType (conn connI profile : List Int) (smart : Bool) : M ProfileSplit := do
  let r ← typeRanges conn connI
  let c ← splitByValueRange profile r.2
  c.2.2.foldlM (splitProfileStep r.1 r.2 c.1 c.2.1 smart) ⟨[], [], []⟩

/-- one iteration of the first loop of `checkTypeConsistencyAndContig` (MEDCouplingUMesh.cxx:7430-7440): `types`, `nb`, `isNoPflUsed` -/
def codeStep (geoTypes code : List Int) (i : Nat) (s : List Int × Int × Bool) : M (List Int × Int × Bool) := do
  let t ← rd code (3 * i)
  if t ∈ s.1 then .ok s
  else do
    let n ← rd code (3 * i + 1)
    let p ← rd code (3 * i + 2)
    if t ∉ geoTypes then throwX
    else .ok (s.1 ++ [t], s.2.1 + n, s.2.2 && decide (p = -1))

/-- one iteration of the main loop of `checkTypeConsistencyAndContig` (MEDCouplingUMesh.cxx:7461-7517); the state is the output pointer and
the position `i`.  A null profile is `none`. -/
def consistStep (code conn connI : List Int) (idsPerType : List (Option (List Int))) (s : Cur Int × Nat) (p : Int × Nat) :
    M (Cur Int × Nat) := do
  let i ← findCell conn connI (fun u => decide (u = p.1)) s.2
  let j ← findCell conn connI (fun u => decide (u ≠ p.1)) (i + 1)
  let c ← rd code (3 * p.2 + 2)
  if c = -1 then do
    let out ← loop (j - i) s.1 fun k o => emit o ((k : Int) + i)
    .ok (out, j)
  else if 0 ≤ c ∧ c < idsPerType.length then do
    let z ← rd idsPerType c
    match z with
    | none => throwX
    | some pfl => do
      let out ← pfl.foldlM (fun (o : Cur Int) (k : Int) =>
        if 0 ≤ k ∧ k < (j : Int) - i then emit o (k + i) else throwX) s.1
      .ok (out, j)
  else throwX

/-- `checkTypeConsistencyAndContig` (MEDCouplingUMesh.cxx:7417-7519): `none` for the null pointer, otherwise the content of the returned
array.  A negative size is converted to a huge one by `alloc`. -/
def checkTypeConsistencyAndContig (geoTypes conn connI code : List Int) (idsPerType : List (Option (List Int))) :
    M (Option (List (Option Int))) :=
  if code = [] then throwX
  else if code.length % 3 ≠ 0 then throwX
  else do
    let s ← loop (code.length / 3) (([] : List Int), (0 : Int), true) (codeStep geoTypes code)
    if s.1.length ≠ code.length / 3 then throwX
    else do
      let contig ← (if s.2.2 then checkConsecutiveCellTypesAndOrder s.1 conn connI else .ok true : M Bool)
      if !contig then throwX
      else if s.2.2 ∧ s.1.length = geoTypes.length then .ok none
      else if s.2.1 < 0 then undef
      else do
        let r ← s.1.zipIdx.foldlM (consistStep code conn connI idsPerType) (newCur Int s.2.1.toNat, 0)
        .ok (some r.1.1)

/-! ## Cells of one type -/

/-- `keepCellIdsByType` (MEDCouplingUMesh.cxx:8164-8177) -/
def keepCellIdsByType (conn connI : List Int) (type : Int) (ids : List Int) : M (List Int) :=
  ids.foldlM (fun (ret : List Int) (w : Int) => do
    let a ← rd connI w
    let t ← rd conn a
    .ok (if t = type then ret ++ [w] else ret)) []

/-- `convertCellArrayPerGeoType` (MEDCouplingUMesh.cxx:8184-8208), content of the result -/
def convertCellArrayPerGeoType (geoTypes conn connI da : List Int) : M (List Int) := do
  let tmp ← geoTypes.foldlM (fun (tmp : List (Option Int)) (t : Int) => do
    let s ← loop (connI.length - 1) (tmp, (0 : Int)) fun i s => do
      let u ← typeAt conn connI i
      if u = t then do
        let tmp ← wr s.1 i (some s.2)
        .ok (tmp, s.2 + 1)
      else .ok s
    .ok s.1) (mallocN Int (connI.length - 1))
  da.mapM fun v => rdI tmp v

/-- one iteration of the first loop of `keepSpecifiedCells` (MEDCouplingUMesh.cxx:8224-8230): `sz`, `szOfType` -/
def keepSizeStep (code : List Int) (type : Int) (i : Nat) (s : Int × Int) : M (Int × Int) := do
  let t ← rd code (3 * i)
  let n ← rd code (3 * i + 1)
  .ok (if t ≠ type then (s.1 + n, s.2) else (s.1, n))

/-- one iteration of the last loop of `keepSpecifiedCells` (MEDCouplingUMesh.cxx:8244-8256): the output pointer and `offset` -/
def keepIdsStep (code : List Int) (type : Int) (ids : List Int) (i : Nat) (s : Cur Int × Int) : M (Cur Int × Int) := do
  let t ← rd code (3 * i)
  let n ← rd code (3 * i + 1)
  let out ← (if t ≠ type then loop n.toNat s.1 fun j o => emit o (s.2 + (j : Int))
    else ids.foldlM (fun (o : Cur Int) (k : Int) => emit o (k + s.2)) s.1 : M (Cur Int))
  .ok (out, s.2 + n)

/-- `keepSpecifiedCells` (MEDCouplingUMesh.cxx:8217-8261): connectivity of the result -/
def keepSpecifiedCells (dim : Int) (geoTypes conn connI : List Int) (type : Int) (ids : List Int) : M (List Int × List Int) := do
  let code ← getDistributionOfTypes geoTypes conn connI
  let z ← loop (code.length / 3) ((0 : Int), (0 : Int)) (keepSizeStep code type)
  if ids.any fun w => decide (w < 0 ∨ w ≥ z.2) then throwX
  else if z.1 + ids.length < 0 then undef
  else do
    let r ← loop (code.length / 3) (newCur Int (z.1 + ids.length).toNat, (0 : Int)) (keepIdsStep code type ids)
    let keep ← initialised r.1.1
    buildPartOfMySelfKeep dim conn connI keep

/-! ## Meshes of one type -/

/-- the loop of `AggregateSortedByTypeMeshesOnSameCoords` over the meshes (MEDCouplingUMesh.cxx:8125-8148): `m1ssm`, `m1ssmSingle`, `ret1`,
`ret2` -/
def aggregateStep (coords : Nat) (dim : Int) (s : List SMesh × List SMesh × List Int × List Int) (p : SMesh × Nat) :
    M (List SMesh × List SMesh × List Int × List Int) :=
  if dim ≠ p.1.dim then throwX
  else if coords ≠ p.1.coords then throwX
  else do
    let sp ← splitByType p.1.dim p.1.conn p.1.connI
    sp.foldlM (fun (s : List SMesh × List SMesh × List Int × List Int) (m : List Int × List Int) => do
      let single ← buildPartOfMySelfKeep p.1.dim m.1 m.2 [0]
      .ok (s.1 ++ [⟨dim, coords, m.1, m.2⟩], s.2.1 ++ [⟨dim, coords, single.1, single.2⟩], s.2.2.1 ++ [(m.2.length : Int) - 1],
        s.2.2.2 ++ [(p.2 : Int)])) s

/-- `AggregateSortedByTypeMeshesOnSameCoords` (MEDCouplingUMesh.cxx:8097-8157): the connectivity of the returned mesh,
`szOfCellGrpOfSameType` and `idInMsOfCellGrpOfSameType`.  None of the meshes is null; their order is the one of `ms`. -/
def aggregateSortedByType (ms : List SMesh) : M ((List (Option Int) × List (Option Int)) × List (Option Int) × List (Option Int)) :=
  match ms with
  | [] => throwX
  | m :: _ => do
    let s ← ms.zipIdx.foldlM (aggregateStep m.coords m.dim) ([], [], [], [])
    let single ← mergeUMeshesOnSameCoords s.2.1
    let conn ← initialised single.1
    let connI ← initialised single.2
    let r ← sortCellsInMEDFileFrmt conn connI
    let fin ← loop s.1.length (List.replicate s.1.length (none : Option SMesh)) fun i v => do
      let k ← rd r.1 i
      let m ← rd s.1 i
      wr v k (some m)
    let fin ← definite fin
    let ret0 ← mergeUMeshesOnSameCoords fin
    let sz ← renumber ⟨s.2.2.1.length, 1, s.2.2.1, by simp⟩ r.1
    let ids ← renumber ⟨s.2.2.2.length, 1, s.2.2.2, by simp⟩ r.1
    .ok (ret0, sz, ids)

/-- `convertNodalConnectivityToStaticGeoTypeMesh` (MEDCouplingUMesh.cxx:7983-8027).  As the range `[connI[i], connI[i+1])` is not checked to
lie in `conn`, a bad copy is undefined. -/
def convertToStatic (geoTypes conn connI : List Int) : M (List (Option Int)) :=
  match geoTypes with
  | [typ] => do
    let cm ← getCellModel typ
    if cm.dyn then throwX
    else do
      let out ← loop (connI.length - 1) (newCur Int ((connI.length - 1) * cm.nbPts)) fun i o => do
        let a ← rd connI i
        let b ← rd connI ((i : Int) + 1)
        let t ← rd conn a
        if t = typ ∧ b - a = (cm.nbPts : Int) + 1 then emitCopy o conn (a + 1) b else throwX
      .ok out.1
  | _ => throwX

/-- `convertNodalConnectivityToDynamicGeoTypeMesh` (MEDCouplingUMesh.cxx:8036-8075): `nodalConn` and `nodalConnIndex` -/
def convertToDynamic (geoTypes conn connI : List Int) : M (List (Option Int) × List (Option Int)) :=
  if geoTypes.length ≠ 1 then throwX
  else if conn.length < connI.length - 1 then throwX
  else do
    let ci ← emit (newCur Int (connI.length - 1 + 1)) 0
    let s ← loop (connI.length - 1) (newCur Int (conn.length - (connI.length - 1)), ci, (0 : Int)) fun i s => do
      let a ← rd connI i
      let b ← rd connI ((i : Int) + 1)
      if b - (a + 1) ≥ 1 then
        if (a + 1 ≥ 0 ∧ a + 1 < conn.length) ∧ b ≥ 0 ∧ b ≤ conn.length then do
          let c ← emitCopy s.1 conn (a + 1) b
          let ci ← emit s.2.1 (s.2.2 + (b - (a + 1)))
          .ok (c, ci, s.2.2 + (b - (a + 1)))
        else throwX
      else throwX
    .ok (s.1.1, s.2.1.1)

end
end MC
