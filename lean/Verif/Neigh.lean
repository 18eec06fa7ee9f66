import Verif.Desc
import Verif.Spread
import Verif.Index
import Verif.Scan

/-!
# Neighbours, skin and boundary of an unstructured mesh (`MEDCouplingUMesh`)

The meshes are given by their dimension, their number of nodes and the two arrays of their connectivity.  The checks that the arrays
are set and have one component are not modelled.
-/

namespace MC
section

/-! ## Neighbours of the cells -/

/-- `ComputeNeighborsOfCellsAdv` (MEDCouplingUMesh.cxx:1134-1171): `(neighbors, neighborsIndx)`.  `out1` is written in order, which is
modelled by appending; the first write is out of the array when `descIndx` is empty. -/
def computeNeighborsOfCellsAdv (desc descI revDesc revDescI : List Int) : M (List Int × List Int) :=
  if descI.length < 1 then undef
  else loop (descI.length - 1) (([] : List Int), [(0 : Int)]) fun i s => do
    let g ← revGroup desc descI i
    let out0 ← g.foldlM (fun (out : List Int) (w1 : Int) => do
      let r ← revGroup revDesc revDescI w1
      .ok (out ++ (setInsertAll [] r).erase (i : Int))) s.1
    .ok (out0, s.2 ++ [(out0.length : Int)])

/-- `computeNeighborsOfCells` (MEDCouplingUMesh.cxx:1044-1054) -/
def computeNeighborsOfCells (dim : Int) (nbNodes : Nat) (conn connI : List Int) : M (List Int × List Int) := do
  let r ← buildDescendingConnectivity dim nbNodes conn connI
  computeNeighborsOfCellsAdv r.desc r.descIndx r.revDesc r.revDescIndx

/-- `partitionBySpreadZone` (MEDCouplingUMesh.cxx:10157-10164) -/
def partitionBySpreadZone (dim : Int) (nbNodes : Nat) (conn connI : List Int) : M (List (List (Option Int))) := do
  let n ← computeNeighborsOfCells dim nbNodes conn connI
  partitionBySpreadZoneOf n.1 n.2

/-- `computeCellNeighborhoodFromNodesOne` (MEDCouplingUMesh.cxx:1072-1107): `(cellNeigh, cellNeighIndex)`.  `checkConsistencyLight` is not
repeated here (see C52). -/
def computeCellNeighborhoodFromNodesOne (nbNodes : Nat) (conn connI nodeNeigh nodeNeighI : List Int) : M (List Int × List Int) :=
  if nodeNeighI.length ≠ 1 + nbNodes then throwX
  else forCells conn connI (([] : List Int), [(0 : Int)]) fun i c s => do
    let st ← c.nodes.foldlM (fun (st : List Int) (n : Int) => do
      if n ≥ 0 then do
        let g ← revGroup nodeNeigh nodeNeighI n
        .ok (setInsertAll st g)
      else .ok st) ([] : List Int)
    let out := s.1 ++ st.erase (i : Int)
    .ok (out, s.2 ++ [(out.length : Int)])

/-! ## Neighbours of the nodes -/

/-- The end of a segment other than `i` as `computeNeighborsOfNodes` reads it (MEDCouplingUMesh.cxx:1270-1272): three values per cell. -/
def otherEnd (conn : List Int) (i cell : Int) : M Int := do
  let a ← rd conn (3 * cell + 1)
  if a = i then rd conn (3 * cell + 2) else rd conn (3 * cell + 1)

/-- The second part of `computeNeighborsOfNodes` (MEDCouplingUMesh.cxx:1257-1276), on the mesh of edges -/
def neighborsOfNodesIn (nbNodes : Nat) (conn connI : List Int) : M (List (Option Int) × List Int) := do
  let (rn, rni) ← getReverseNodalConnectivity nbNodes conn connI
  let r0 ← loop nbNodes (newCur Int rn.length) fun i r0 => do
    let g ← revGroup rn rni i
    g.foldlM (fun (r0 : Cur Int) (cell : Int) => do
      let v ← otherEnd conn i cell
      emit r0 v) r0
  .ok (r0.1, rni)

/-- `computeNeighborsOfNodes` (MEDCouplingUMesh.cxx:1228-1277): `(neighbors, neighborsIdx)` -/
def computeNeighborsOfNodes (dim : Int) (nbNodes : Nat) (conn connI : List Int) : M (List (Option Int) × List Int) :=
  if dim = 3 then do
    let r ← explode3DMeshTo1D dim nbNodes conn connI
    neighborsOfNodesIn nbNodes r.conn r.connI
  else if dim = 2 then do
    let r ← buildDescendingConnectivity dim nbNodes conn connI
    neighborsOfNodesIn nbNodes r.conn r.connI
  else if dim = 1 then neighborsOfNodesIn nbNodes conn connI
  else throwX

/-- `std::copy(l.begin(), l.end(), out + pos)` -/
def copyAt (out : List (Option Int)) (pos : Int) (l : List Int) : M (List (Option Int)) :=
  if 0 ≤ pos ∧ pos + (l.length : Int) ≤ out.length then
    .ok (out.take pos.toNat ++ l.map some ++ out.drop (pos.toNat + l.length))
  else undef

/-- `computeEnlargedNeighborsOfNodes` (MEDCouplingUMesh.cxx:1288-1335): `(neighbors, neighborsIdx)` -/
def computeEnlargedNeighborsOfNodes (nbNodes : Nat) (conn connI : List Int) : M (List (Option Int) × List Int) := do
  let st0 ← forCells conn connI (List.replicate nbNodes ([] : List Int)) fun _ c st0 =>
    let s := (setInsertAll [] c.nodes).erase (-1)
    s.foldlM (fun (st0 : List (List Int)) (n : Int) => do
      let t ← rd st0 n
      wr st0 n (setInsertAll t s)) st0
  let idx := (st0.foldl (fun (p : List Int × Int) t => 
    let v := if t = [] then p.2 else p.2 + (t.length : Int) - 1
    (p.1 ++ [v], v)) ([(0 : Int)], (0 : Int))).1
  let back ← rd idx ((idx.length : Int) - 1)
  if back < 0 then undef
  else do
    let out ← loop nbNodes (List.replicate back.toNat (none : Option Int)) fun k out => do
      let t ← rd st0 k
      let pos ← rd idx k
      copyAt out pos (t.erase (k : Int))
    .ok (out, idx)

/-! ## Skin and boundary -/

/-- `buildPartOfMySelf` with the coordinates kept (MEDCouplingUMesh.cxx:2703-2716, MEDCouplingPointSet.cxx:1421-1427).  The mesh of
dimension -1 is the mesh itself. -/
def buildPartOfMySelfKeep (dim : Int) (conn connI ids : List Int) : M (List Int × List Int) :=
  if dim ≠ -1 then do
    let p ← buildPartKeepCoords conn connI ids
    let c ← initialised p.1
    .ok (c, p.2.1)
  else if ids = [0] then .ok (conn, connI) else throwX

/-- `computeSkin` (MEDCouplingUMesh.cxx:3098-3115): connectivity of the result -/
def computeSkin (dim : Int) (nbNodes : Nat) (conn connI : List Int) : M (List Int × List Int) := do
  let r ← buildDescendingConnectivity dim nbNodes conn connI
  let delta ← deltaShiftIndex r.revDescIndx
  buildPartOfMySelfKeep (dim - 1) r.conn r.connI (findIdsEqual delta 1)

/-- `findBoundaryNodes` (MEDCouplingUMesh.cxx:3130-3135) -/
def findBoundaryNodes (dim : Int) (nbNodes : Nat) (conn connI : List Int) : M (List (Option Int)) := do
  let s ← computeSkin dim nbNodes conn connI
  computeFetchedNodeIds s.1 s.2

/-- `buildBoundaryMesh` with the coordinates kept (MEDCouplingUMesh.cxx:2948-2971).  `&boundaryCells[0]` is undefined on an empty vector. -/
def buildBoundaryMesh (dim : Int) (nbNodes : Nat) (conn connI : List Int) : M (List Int × List Int) := do
  let r ← buildDescendingConnectivity dim nbNodes conn connI
  let b ← loop (r.connI.length - 1) ([] : List Int) fun i b => do
    let y ← rd r.revDescIndx ((i : Int) + 1)
    let x ← rd r.revDescIndx i
    .ok (if y - x = 1 then b ++ [(i : Int)] else b)
  if b = [] then undef else buildPartOfMySelfKeep (dim - 1) r.conn r.connI b

/-- `findCellIdsOnBoundary` (MEDCouplingUMesh.cxx:2979-3021).  The two counts of the marked cells are those of `BuildListOfSwitchedOn`. -/
def findCellIdsOnBoundary (dim : Int) (nbNodes : Nat) (conn connI : List Int) : M (List (Option Int)) :=
  if connI.length - 1 = 0 then .ok []
  else do
    let r ← buildDescendingConnectivity dim nbNodes conn connI
    let delta ← deltaShiftIndex r.revDescIndx
    let ret1 ← (findIdsEqual delta 1).foldlM (fun (ret1 : List Bool) (f : Int) => do
      let a ← rd r.revDescIndx f
      let c ← rd r.revDesc a
      let b ← rd ret1 c
      if b then .ok ret1 else wr ret1 c true) (List.replicate (connI.length - 1) false)
    buildListOfSwitched true ret1

/-! ## Cells lying on nodes or on a mesh -/

/-- `fillCellIdsToKeepFromNodeIds` (MEDCouplingUMesh_internal.cxx:605-642) and `getCellIdsLyingOnNodes` (MEDCouplingPointSet.cxx:1721-1728) -/
def getCellIdsLyingOnNodes (conn connI nodes : List Int) (fullyIn : Bool) : M (List Int) :=
  if conn = [] then .ok []
  else do
    let sz := max (maxElement conn) 0 + 1
    let fast ← nodes.foldlM (fun (fast : List Bool) (n : Int) =>
      if n ≥ 0 ∧ n < sz then wr fast n true else .ok fast) (List.replicate sz.toNat false)
    forCells conn connI ([] : List Int) fun i c kept => do
      let p ← c.nodes.foldlM (fun (p : Nat × Nat) (n : Int) =>
        if n ≥ 0 then do
          let b ← rd fast n
          .ok (p.1 + 1, if b then p.2 + 1 else p.2)
        else .ok p) (0, 0)
      .ok (if (p.1 = p.2 ∧ fullyIn = true) ∨ (p.2 ≠ 0 ∧ fullyIn = false) then kept ++ [(i : Int)] else kept)

/-- `findCellIdsLyingOn` (MEDCouplingUMesh.cxx:3042-3089): `(cellIdsRk0, cellIdsRk1)`.  The elements of `s1` are already sorted. -/
def findCellIdsLyingOn (nbNodes : Nat) (this other : SMesh) : M (List Int × List Int) :=
  if this.coords ≠ other.coords then throwX
  else if this.dim - 1 ≠ other.dim then throwX
  else do
    let f ← computeFetchedNodeIds other.conn other.connI
    let f ← initialised f
    let s0 ← getCellIdsLyingOnNodes this.conn this.connI f false
    let part ← buildPartOfMySelfKeep this.dim this.conn this.connI s0
    let r ← buildDescendingConnectivity this.dim nbNodes part.1 part.2
    let inc ← areCellsIncludedIn nbNodes ⟨this.dim - 1, this.coords, r.conn, r.connI⟩ other 2
    if inc.2 = false then throwX
    else do
      let s1 ← inc.1.foldlM (fun (s1 : List Int) (id : Int) => do
        let g ← revGroup r.revDesc r.revDescIndx id
        .ok (setInsertAll s1 g)) []
      .ok (s0, s1)

end
end MC
