import Verif.CellModel
import Verif.SkyOps
import Verif.Perms
import Verif.Renumber
import Verif.Scan

/-!
# Unstructured meshes (`MEDCouplingUMesh`): cells, consistency checks, nodes in use, renumberings, parts

The nodal connectivity of a mesh is a pair of arrays: `conn` holds, one cell after the other, the geometric type of the cell
followed by its nodes (faces of polyhedra separated by -1); `connI` holds the offsets of the cells.

The loops on the cells read one window of `conn` per cell.  An index array whose windows are not inside `conn` (or are
empty: there is always a geometric type) is modelled by undefined behaviour, whatever the way the loop of the C++ code
ends in this case.
-/

namespace MC
section

/-- One cell: geometric type and nodes. -/
structure Cell where
  type : Int
  nodes : List Int
deriving DecidableEq, Repr

/-- `conn[connI[i]]` and the window `[conn + connI[i] + 1, conn + connI[i+1])` of cell `i`. -/
def rdCell (conn connI : List Int) (i : Int) : M Cell := do
  let a ← rd connI i
  let b ← rd connI (i + 1)
  let t ← rd conn a
  if a + 1 ≤ b ∧ b ≤ conn.length then .ok ⟨t, slice conn (a + 1) b⟩ else undef

/-- `for (i = 0; i < getNumberOfCells(); i++)`, the body receiving the cell `i`. -/
def forCells {σ : Type} (conn connI : List Int) (s : σ) (f : Nat → Cell → σ → M σ) : M σ :=
  loop (connI.length - 1) s fun i s => do
    let c ← rdCell conn connI i
    f i c s

/-! ## Construction -/

/-- State of a `MEDCouplingUMesh`: mesh dimension, number of nodes of the coordinates if they are set, the two arrays of the
connectivity if they are set (the modelled operations set them together), and the set of geometric types
(MEDCouplingUMesh.hxx, constructor MEDCouplingUMesh.cxx:175).  The numbers of components and the component names of
the arrays are not modelled. -/
structure UMesh where
  dim : Int := -2
  nbNodes : Option Nat := none
  arrays : Option (List Int × List Int) := none
  types : List Int := []
deriving DecidableEq

/-- `setMeshDimension` (MEDCouplingUMesh.cxx:361-369) -/
def UMesh.setMeshDimension (u : UMesh) (d : Int) : M UMesh :=
  if d < -1 ∨ d > 3 then throwX else .ok { u with dim := d }

/-- `setCoords` (MEDCouplingPointSet.cxx), seen through the number of nodes. -/
def UMesh.setCoords (u : UMesh) (n : Nat) : M UMesh := .ok { u with nbNodes := some n }

/-- `allocateCells` (MEDCouplingUMesh.cxx:385-407) -/
def UMesh.allocateCells (u : UMesh) (nbOfCells : Int) : M UMesh :=
  if nbOfCells < 0 then throwX else .ok { u with arrays := some ([], [0]), types := [] }

/-- `writeOnPlace(id, element0, others, size)` (MEDCouplingMemArray.txx:105-113) on the content of the array; see
`MState.writeOnPlace` for the memory.  Writing after the end, which leaves cells uninitialised, is taken as undefined. -/
def writeOnPlaceL (l : List Int) (id : Int) (e : Int) (others : List Int) : M (List Int) :=
  if id < 0 ∨ id > l.length then undef
  else .ok (l.take id.toNat ++ e :: others ++ l.drop (id.toNat + 1 + others.length))

/-- `insertNextCell` (MEDCouplingUMesh.cxx:419-456) -/
def UMesh.insertNextCell (u : UMesh) (type : Int) (nodes : List Int) : M UMesh := do
  let cm ← getCellModel type
  match u.arrays with
  | none => throwX
  | some (conn, connI) =>
    if (cm.dim : Int) = u.dim then
      if !cm.dyn ∧ nodes.length ≠ cm.nbPts then throwX
      else do
        let idx ← rd connI ((connI.length : Int) - 1)
        let val := idx + nodes.length + 1
        let conn ← writeOnPlaceL conn idx type nodes
        .ok { u with arrays := some (conn, connI ++ [val]), types := setInsert u.types type }
    else throwX

/-- One call of the public interface which builds a mesh. -/
inductive UOp where
  | setMeshDimension (d : Int)
  | setCoords (n : Nat)
  | allocateCells (n : Int)
  | insertNextCell (type : Int) (nodes : List Int)

def UMesh.step (u : UMesh) : UOp → M UMesh
  | .setMeshDimension d => u.setMeshDimension d
  | .setCoords n => u.setCoords n
  | .allocateCells n => u.allocateCells n
  | .insertNextCell t c => u.insertNextCell t c

/-- A history of calls; a call which throws leaves the mesh as it was and the user goes on.  The second component tells which
calls threw. -/
def UMesh.run (u : UMesh) : List UOp → M (UMesh × List Bool)
  | [] => .ok (u, [])
  | op :: ops =>
    match u.step op with
    | .ok u' => do
      let r ← UMesh.run u' ops
      .ok (r.1, true :: r.2)
    | .error .exn => do
      let r ← UMesh.run u ops
      .ok (r.1, false :: r.2)
    | .error .ub => undef

/-! ## Observers -/

/-- `getNumberOfCells` (MEDCouplingUMesh.cxx:4183-4192) -/
def UMesh.getNumberOfCells (u : UMesh) : M Int :=
  match u.arrays with
  | some (_, connI) => .ok ((connI.length : Int) - 1)
  | none => if u.dim = -1 then .ok 1 else throwX

/-- `getTypeOfCell` (MEDCouplingUMesh.cxx:3845-3859): only the upper bound is checked. -/
def getTypeOfCell (conn connI : List Int) (cellId : Int) : M Int :=
  if cellId < (connI.length : Int) - 1 then do
    let a ← rd connI cellId
    rd conn a
  else throwX

/-- `getNodeIdsOfCell` (MEDCouplingUMesh.cxx:3916-3923): no check; appends to the vector. -/
def getNodeIdsOfCell (conn connI : List Int) (cellId : Int) (out : List Int) : M (List Int) := do
  let c ← rdCell conn connI cellId
  .ok (out ++ c.nodes.filter fun n => decide (n ≥ 0))

/-- `giveCellsWithType` (MEDCouplingUMesh.cxx:3870-3891) -/
def giveCellsWithType (dim : Int) (conn connI : List Int) (type : Int) : M (List Int) := do
  let cm ← getCellModel type
  if dim ≠ (cm.dim : Int) then throwX
  else forCells conn connI [] fun i c ret => .ok (if c.type = type then ret ++ [(i : Int)] else ret)

/-- `getNumberOfCellsWithType` (MEDCouplingUMesh.cxx:3896-3905) -/
def getNumberOfCellsWithType (conn connI : List Int) (type : Int) : M Int :=
  forCells conn connI 0 fun _ c ret => .ok (if c.type = type then ret + 1 else ret)

/-- `getAllGeoTypesSorted` (MEDCouplingUMesh.cxx:521-541) -/
def getAllGeoTypesSorted (conn connI : List Int) : M (List Int) :=
  if connI.length - 1 = 0 then .ok []
  else if conn.length < 1 then throwX
  else do
    let a ← rd connI 0
    let t ← rd conn a
    loop (connI.length - 2) [t] fun i ret => do
      let a ← rd connI ((i : Int) + 1)
      let t ← rd conn a
      if ret.getLast? ≠ some t then .ok (ret ++ [t]) else .ok ret

/-- `ComputeAllTypesInternal` (MEDCouplingUMesh_internal.cxx:2333-2348), used by `computeTypes` (MEDCouplingUMesh.cxx:4171-4175): the set
of the types of the cells. -/
def computeTypes (conn connI : List Int) : M (List Int) :=
  forCells conn connI [] fun _ c s => .ok (setInsert s c.type)

/-! ## Consistency checks -/

/-- `checkConsistencyLight` (MEDCouplingUMesh.cxx:191-235) and `MEDCouplingPointSet::checkConsistencyLight`. -/
def UMesh.checkConsistencyLight (u : UMesh) : M Unit :=
  if u.dim < -1 then throwX
  else if u.dim ≠ -1 ∧ u.nbNodes = none then throwX
  else do
    u.types.forM fun t => do
      let cm ← getCellModel t
      if (cm.dim : Int) ≠ u.dim then throwX else .ok ()
    if u.dim ≠ -1 ∧ u.arrays = none then throwX else .ok ()

/-- The checks on one node id of a cell, lines 296-326 -/
def checkNode (nbNodes : Int) (type : Int) (nodeId : Int) : M Unit :=
  if nodeId ≥ 0 then (if nodeId ≥ nbNodes then throwX else .ok ())
  else if nodeId < -1 then throwX
  else if type ≠ 31 then throwX
  else .ok ()

/-- `checkConsistency` (MEDCouplingUMesh.cxx:257-329) -/
def UMesh.checkConsistency (u : UMesh) : M Unit := do
  u.checkConsistencyLight
  if u.dim = -1 then .ok ()
  else
    match u.arrays, u.nbNodes with
    | some (conn, connI), some nbNodes =>
      forCells conn connI () fun _ c _ => do
        let cm ← getCellModel c.type
        if (cm.dim : Int) ≠ u.dim then throwX
        else if !cm.dyn ∧ c.nodes.length ≠ cm.nbPts then throwX
        else if cm.quad ∧ cm.dyn ∧ u.dim = 2 ∧ (c.nodes.length % 2 ≠ 0 ∨ c.nodes.length < 4) then throwX
        else c.nodes.forM (checkNode nbNodes c.type)
    | _, _ => throwX

/-- `checkGeomConsistency` (MEDCouplingUMesh.cxx:336-355).  The arrays are dereferenced without being tested. -/
def UMesh.checkGeomConsistency (u : UMesh) : M Unit := do
  u.checkConsistency
  let _ ← u.getNumberOfCells
  match u.arrays with
  | none => undef
  | some (conn, connI) =>
    forCells conn connI () fun _ c _ =>
      if (setInsertAll [] c.nodes).length = c.nodes.length then .ok () else throwX

/-! ## Reverse connectivity -/

/-- one node of the counting loop, lines 710-715; state = (number of values, counts) -/
def revCountNode (s : Nat × List Int) (n : Int) : M (Nat × List Int) :=
  if n ≥ 0 then do
    let v ← rd s.2 (n + 1)
    let idx ← wr s.2 (n + 1) (v + 1)
    .ok (s.1 + 1, idx)
  else .ok s

/-- `std::transform(p + 1, p + n + 1, p, p + 1, std::plus)`, element after element: running sums in place. -/
def runningSums (l : List Int) : List Int :=
  match l with
  | [] => []
  | x :: l => l.scanl (· + ·) x

/-- `*std::find_if(p + a, p + b, == -1) = e`: writing at the end of the window if there is no -1 in it. -/
def fillFirst (p : List Int) (a b : Int) (e : Int) : M (List Int) :=
  if 0 ≤ a ∧ a ≤ b ∧ b ≤ p.length then wr p (a + ((slice p a b).idxOf (-1) : Nat)) e else undef

/-- one node of the filling loop, lines 729-735 -/
def revFillNode (idx : List Int) (e : Int) (rev : List Int) (n : Int) : M (List Int) :=
  if n ≥ 0 then do
    let a ← rd idx n
    let b ← rd idx (n + 1)
    fillFirst rev a b e
  else .ok rev

/-- `getReverseNodalConnectivity` (MEDCouplingUMesh.cxx:694-737): `(revNodal, revNodalIndx)` -/
def getReverseNodalConnectivity (nbNodes : Nat) (conn connI : List Int) : M (List Int × List Int) := do
  let s ← forCells conn connI (0, List.replicate (nbNodes + 1) (0 : Int)) fun _ c s => c.nodes.foldlM revCountNode s
  let idx := runningSums s.2
  let rev ← forCells conn connI (List.replicate s.1 (-1 : Int)) fun e c rev => c.nodes.foldlM (revFillNode idx e) rev
  .ok (rev, idx)

/-! ## Nodes in use -/

/-- one node of `computeNodeIdsAlg`, lines 1826-1838 -/
def markNode (nodeIdsInUse : List Bool) (n : Int) : M (List Bool) :=
  if n ≥ 0 then (if n < nodeIdsInUse.length then wr nodeIdsInUse n true else throwX) else .ok nodeIdsInUse

/-- `computeNodeIdsAlg` (MEDCouplingUMesh.cxx:1820-1840) -/
def computeNodeIdsAlg (conn connI : List Int) (nodeIdsInUse : List Bool) : M (List Bool) :=
  forCells conn connI nodeIdsInUse fun _ c s => c.nodes.foldlM markNode s

/-- `std::max_element` on a non empty list -/
def maxElement : List Int → Int
  | [] => 0
  | x :: l => l.foldl (fun a b => if a < b then b else a) x

/-- `computeFetchedNodeIds` (MEDCouplingUMesh.cxx:1805-1814) -/
def computeFetchedNodeIds (conn connI : List Int) : M (List (Option Int)) := do
  let maxElt : Int := if conn = [] then 0 else |maxElement conn| + 1
  let s ← computeNodeIdsAlg conn connI (List.replicate maxElt.toNat false)
  buildListOfSwitched true s

/-- one node of `getNodeIdsInUse`, lines 1888-1902 -/
def traduceNode (tr : List Int) (n : Int) : M (List Int) :=
  if n ≥ 0 then (if n < tr.length then wr tr n 1 else throwX) else .ok tr

/-- `std::transform(..., MEDCouplingAccVisit())` (MEDCouplingUMesh.cxx:1844-1855) -/
def accVisit : Int → List Int → List Int
  | _, [] => []
  | k, v :: l => if v ≠ -1 then k :: accVisit (k + 1) l else -1 :: accVisit k l

/-- `getNodeIdsInUse` (MEDCouplingUMesh.cxx:1877-1906): the old to new array and the number of nodes in use -/
def getNodeIdsInUse (nbNodes : Nat) (conn connI : List Int) : M (List Int × Int) := do
  let tr ← forCells conn connI (List.replicate nbNodes (-1 : Int)) fun _ c s => c.nodes.foldlM traduceNode s
  .ok (accVisit 0 tr, (tr.count 1 : Int))

/-- `computeNbOfNodesPerCell` (MEDCouplingUMesh.cxx:1917-1937) -/
def computeNbOfNodesPerCell (conn connI : List Int) : M (List Int) :=
  forCells conn connI [] fun _ c ret =>
    .ok (ret ++ [if c.type ≠ 31 then (c.nodes.length : Int) else (c.nodes.length : Int) - (c.nodes.count (-1) : Int)])

/-- `computeEffectiveNbOfNodesPerCell` (MEDCouplingUMesh.cxx:1945-1969) -/
def computeEffectiveNbOfNodesPerCell (conn connI : List Int) : M (List Int) :=
  forCells conn connI [] fun _ c ret =>
    let s := setInsertAll [] c.nodes
    .ok (ret ++ [if c.type ≠ 31 then (s.length : Int) else ((s.erase (-1)).length : Int)])

/-- `computeNbOfFacesPerCell` (MEDCouplingUMesh.cxx:1978-1994) -/
def computeNbOfFacesPerCell (conn connI : List Int) : M (List Int) :=
  forCells conn connI [] fun _ c ret => do
    let cm ← getCellModel c.type
    .ok (ret ++ [(cm.numberOfSons c.nodes : Int)])

/-! ## Renumbering the nodes in the connectivity -/

/-- The loops which rewrite each node id `≥ 0` of each cell in place. -/
def mapNodesInConn (conn connI : List Int) (f : Int → M Int) : M (List Int) :=
  loop (connI.length - 1) conn fun i conn => do
    let a ← rd connI i
    let b ← rd connI ((i : Int) + 1)
    if 0 ≤ a ∧ a + 1 ≤ b ∧ b ≤ conn.length then do
      let w ← (slice conn (a + 1) b).mapM fun n => if n ≥ 0 then f n else .ok n
      .ok (conn.take (a + 1).toNat ++ w ++ conn.drop b.toNat)
    else undef

/-- `renumberNodesInConn(const mcIdType*)` (MEDCouplingUMesh.cxx:3566-3584) -/
def renumberNodesInConn (conn connI o2n : List Int) : M (List Int) :=
  mapNodesInConn conn connI fun n => rd o2n n

/-- `renumberNodesWithOffsetInConn` and `shiftNodeNumbersInConn` (MEDCouplingUMesh.cxx:3509-3527, 3594-3612), whose bodies are
the same -/
def shiftNodeNumbersInConn (conn connI : List Int) (delta : Int) : M (List Int) :=
  mapNodesInConn conn connI fun n => .ok (n + delta)

/-- `duplicateNodesInConn` (MEDCouplingUMesh.cxx:3633-3657) -/
def duplicateNodesInConn (conn connI ids : List Int) (offset : Int) : M (List Int) :=
  let m := ids.zipIdx.foldl (fun m p => mapSet m p.1 (offset + (p.2 : Int))) ([] : List (Int × Int))
  mapNodesInConn conn connI fun n => .ok ((mapFind m n).getD n)

/-- `zipCoordsTraducer` (MEDCouplingPointSet.cxx:1772-1779) with `renumberNodes` (MEDCouplingPointSet.cxx:433-442): new
coordinates, new connectivity and the old to new array -/
def zipCoordsTraducer {α : Type} (coords : DArr α) (conn connI : List Int) : M (List (Option α) × List Int × List Int × Int) := do
  let (tr, newNb) ← getNodeIdsInUse coords.nt conn connI
  let newCoords ← renumberAndReduce coords tr newNb.toNat
  let conn ← renumberNodesInConn conn connI tr
  .ok (newCoords, conn, tr, newNb)

/-! ## Cells: renumbering, extraction, replacement -/

/-- `renumberCells` (MEDCouplingUMesh.cxx:3677-3719): new `(conn, connI)` -/
def renumberCells (conn connI o2n : List Int) (check : Bool) : M (List (Option Int) × List (Option Int)) := do
  let nbCells := connI.length - 1
  let array ← if check then checkAndPreparePermutation o2n else .ok o2n
  let n2o ← invertArrayO2N2N2O array nbCells
  let ci ← emit (newCur Int connI.length) 0
  let s ← loop nbCells (newCur Int conn.length, ci, (0 : Int)) fun i s => do
    let pos ← rdI n2o i
    let b ← rd connI (pos + 1)
    let a ← rd connI pos
    let c ← emitCopy s.1 conn a b
    let loc := s.2.2 + (b - a)
    let ci ← emit s.2.1 loc
    .ok (c, ci, loc)
  .ok (s.1.1, s.2.1.1)

/-- one step of the first loop of `buildPartOfMySelfKeepCoords` -/
def partIdxStep (connI : List Int) (s : List Int) (id : Int) : M (List Int) :=
  if 0 ≤ id ∧ id < (connI.length : Int) - 1 then do
    let prev ← rd s ((s.length : Int) - 1)
    let b ← rd connI (id + 1)
    let a ← rd connI id
    .ok (s ++ [prev + b - a])
  else throwX

/-- `buildPartOfMySelfKeepCoords` (MEDCouplingUMesh_internal.cxx:1047-1090): new `(conn, connI)` and set of types.
`malloc` of a negative size, which an index that is not increasing may ask for, is undefined. -/
def buildPartKeepCoords (conn connI ids : List Int) : M (List (Option Int) × List Int × List Int) := do
  let ci ← ids.foldlM (partIdxStep connI) [0]
  let n ← rd ci ((ci.length : Int) - 1)
  if n < 0 then undef
  else do
    let s ← ids.foldlM (fun (s : Cur Int × List Int) (id : Int) => do
      let a ← rd connI id
      let t ← rd conn a
      let b ← rd connI (id + 1)
      let c ← emitCopy s.1 conn a b
      .ok (c, setInsert s.2 t)) (newCur Int n.toNat, [])
    .ok (s.1.1, ci, s.2)

/-- `buildPartOfMySelfKeepCoordsSlice` (MEDCouplingUMesh_internal.cxx:1096-1145): the same loops on
`start, start + step, ...` -/
def buildPartKeepCoordsSlice (conn connI : List Int) (start stop step : Int) : M (List (Option Int) × List Int × List Int) := do
  let n ← getNumberOfItemGivenBESRelative start stop step
  buildPartKeepCoords conn connI (stepping start step n.toNat)

/-- The loop of `setPartOfMySelf` which decides whether the cells have the same sizes (lines 2765-2780); it stops at the first
difference. -/
def easyAssign (connI connIOther : List Int) : Nat → List Int → M Bool
  | _, [] => .ok true
  | k, id :: ids =>
    if 0 ≤ id ∧ id < (connI.length : Int) - 1 then do
      let b' ← rd connIOther ((k : Int) + 1)
      let a' ← rd connIOther k
      let b ← rd connI (id + 1)
      let a ← rd connI id
      if b' - a' = b - a then easyAssign connI connIOther (k + 1) ids else .ok false
    else throwX

/-- Reading a whole array: all its values must have been written. -/
def initialised (l : List (Option Int)) : M (List Int) :=
  l.mapM fun x => match x with
    | some v => .ok v
    | none => undef

/-- `setPartOfMySelf` (MEDCouplingUMesh.cxx:2732-2809) on meshes which share their coordinates and have the same dimension: new
`(conn, connI)` and set of types -/
def setPartOfMySelf (conn connI ids connO connIO : List Int) : M (List (Option Int) × List Int × List Int) :=
  if (ids.length : Int) ≠ (connIO.length : Int) - 1 then throwX
  else do
    let easy ← easyAssign connI connIO 0 ids
    if easy then do
      let c ← setPartOfIndexedArraysSameIdx ids conn connI connO connIO
      let t ← computeTypes c connI
      .ok (c.map some, connI, t)
    else do
      let r ← setPartOfIndexedArrays ids conn connI connO connIO
      let c ← initialised r.1
      let t ← computeTypes c r.2
      .ok (r.1, r.2, t)

end
end MC
