import Verif.UMesh
import Verif.SkyOps

/-!
# Comparison of cells and search of common cells (`MEDCouplingUMesh`, `MEDCouplingPointSet`)

The functions work on the arrays of the nodal connectivity; the comparison of two cells reads the two windows of the
connectivity (`rdCell`).
-/

namespace MC
section

/-! ## Comparison of two cells -/

/-- `AreCellsEqualPolicy0` (MEDCouplingUMesh.cxx:2050-2056): the types are not compared. -/
def equalPolicy0 (c1 c2 : Cell) : M Int :=
  if c1.nodes.length = c2.nodes.length then .ok (if c1.nodes = c2.nodes then 1 else 0) else .ok 0

/-- `AreCellsEqualPolicy1` (MEDCouplingUMesh.cxx:2061-2097) -/
def equalPolicy1 (c1 c2 : Cell) : M Int :=
  if c1.nodes.length = c2.nodes.length then
    if c1.type = c2.type then do
      let cm ← getCellModel c1.type
      if cm.dim ≠ 3 then
        if cm.dim ≠ 1 then
          let tmp := c1.nodes ++ c1.nodes
          .ok (if stdSearch c2.nodes tmp ≠ tmp.length then 1 else 0)
        else .ok (if c1.nodes = c2.nodes then 1 else 0)
      else throwX
    else .ok 0
  else .ok 0

/-- `AreCellsEqualPolicy2` (MEDCouplingUMesh.cxx:2102-2115); two `std::set` are equal when they hold the same values. -/
def equalPolicy2 (c1 c2 : Cell) : M Int :=
  if c1.nodes.length = c2.nodes.length then
    if c1.type = c2.type then .ok (if setInsertAll [] c1.nodes = setInsertAll [] c2.nodes then 1 else 0)
    else .ok 0
  else .ok 0

/-- `AreCellsEqualPolicy2NoType` (MEDCouplingUMesh.cxx:2121-2133) -/
def equalPolicy3 (c1 c2 : Cell) : M Int :=
  if c1.nodes.length = c2.nodes.length then .ok (if setInsertAll [] c1.nodes = setInsertAll [] c2.nodes then 1 else 0)
  else .ok 0

/-- `AreCellsEqualPolicy7` (MEDCouplingUMesh.cxx:2138-2201).  The nodes of a quadratic edge are read one by one; a cell with
less than three nodes there is outside of what the code expects (`rd` on the nodes). -/
def equalPolicy7 (c1 c2 : Cell) : M Int :=
  if c1.nodes.length = c2.nodes.length then
    if c1.type = c2.type then do
      let cm ← getCellModel c1.type
      if cm.dim ≠ 3 then
        if cm.dim ≠ 1 then
          let tmp := c1.nodes ++ c1.nodes
          if stdSearch c2.nodes tmp ≠ tmp.length then .ok 1
          else .ok (if stdSearch c2.nodes tmp.reverse ≠ tmp.length then 2 else 0)
        else if c1.nodes = c2.nodes then .ok 1
        else if !cm.quad then .ok (if c1.nodes.reverse = c2.nodes then 2 else 0)
        else do
          let a0 ← rd c1.nodes 0
          let a1 ← rd c1.nodes 1
          let a2 ← rd c1.nodes 2
          let b0 ← rd c2.nodes 0
          let b1 ← rd c2.nodes 1
          let b2 ← rd c2.nodes 2
          .ok (if a0 = b1 ∧ a1 = b0 ∧ a2 = b2 then 2 else 0)
      else throwX
    else .ok 0
  else .ok 0

/-- `AreCellsEqualPolicy8` and `AreCellsEqualPolicy9` (MEDCouplingUMesh.cxx:2206-2259); `NORM_SEG3` is 2. -/
def equalPolicy89 (nine : Bool) (c1 c2 : Cell) : M Int :=
  if c1.nodes.length = c2.nodes.length then
    if c1.type = c2.type then
      if c1.type = 2 then do
        let a0 ← rd c1.nodes 0
        let a1 ← rd c1.nodes 1
        let a2 ← rd c1.nodes 2
        let b0 ← rd c2.nodes 0
        let b1 ← rd c2.nodes 1
        let b2 ← rd c2.nodes 2
        let mid : Bool := !nine || decide (a2 ≠ b2)
        .ok (if a0 = b0 ∧ a1 = b1 ∧ mid then 1 else if a0 = b1 ∧ a1 = b0 ∧ mid then 2 else 0)
      else throwX
    else .ok 0
  else .ok 0

/-- `AreCellsEqual` (MEDCouplingUMesh.cxx:2022-2045) on two cells -/
def cellsEqual (compType : Int) (c1 c2 : Cell) : M Int :=
  if compType = 0 then equalPolicy0 c1 c2
  else if compType = 1 then equalPolicy1 c1 c2
  else if compType = 2 then equalPolicy2 c1 c2
  else if compType = 3 then equalPolicy3 c1 c2
  else if compType = 7 then equalPolicy7 c1 c2
  else if compType = 8 then equalPolicy89 false c1 c2
  else if compType = 9 then equalPolicy89 true c1 c2
  else throwX

/-- `AreCellsEqual` (MEDCouplingUMesh.cxx:2022-2045) -/
def areCellsEqual (compType : Int) (conn connI : List Int) (cell1 cell2 : Int) : M Int := do
  let c1 ← rdCell conn connI cell1
  let c2 ← rdCell conn connI cell2
  cellsEqual compType c1 c2

/-- The loop of `AreCellsEqualInPool` (MEDCouplingUMesh_internal.cxx:1023-1038); state = values pushed in `result`. -/
def poolStep (compType : Int) (conn connI : List Int) (start : Int) (pushed : List Int) (x : Int) : M (List Int) := do
  let status ← areCellsEqual compType conn connI start x
  if status ≠ 0 then
    .ok ((if pushed = [] then [start] else pushed) ++ [if status = 1 then x else if status = 2 then x + 1 else -(x + 1)])
  else .ok pushed

/-- `AreCellsEqualInPool` (MEDCouplingUMesh_internal.cxx:1009-1040): what is pushed at the end of `result`; the boolean returned
by the C++ function says that it is not empty. -/
def areCellsEqualInPool (compType : Int) (conn connI : List Int) (candidates : List Int) : M (List Int) :=
  match candidates with
  | [] => .ok []
  | start :: l => l.foldlM (poolStep compType conn connI start) []

/-! ## Search of common cells -/

/-- The group of node `n` in the reverse connectivity. -/
def revGroup (rev revI : List Int) (n : Int) : M (List Int) := do
  let a ← rd revI n
  let b ← rd revI (n + 1)
  if 0 ≤ a ∧ a ≤ b ∧ b ≤ rev.length then .ok (slice rev a b) else undef

/-- Successive intersections while more than one candidate remains (MEDCouplingUMesh.cxx:2321-2334, 2368-2382). -/
def candLoop (grp : Int → M (List Int)) : List Int → List Int → M (List Int)
  | [], v2 => .ok v2
  | n :: ns, v2 =>
    if v2.length > 1 then
      if n ≥ 0 then do
        let g ← grp n
        candLoop grp ns (setIntersection v2 g)
      else candLoop grp ns v2
    else .ok v2

/-- The candidates (MEDCouplingUMesh.cxx:2303-2334, 2354-2382): first node other than -1, then the other nodes. -/
def candidatesOf (grp : Int → M (List Int)) (nodes : List Int) : M (List Int) :=
  match nodes.dropWhile (· = -1) with
  | [] => .ok []
  | n :: ns => do
    let g ← grp n
    candLoop grp ns g

/-- The nodes seen by the search: all (`ClassicalCommonFunctor`) or the first two (`CompType89CommonFunctor`, lines 2261-2273). -/
def functorNodes (compType : Int) (c : Cell) : M (List Int) :=
  if compType = 8 ∨ compType = 9 then (if 2 ≤ c.nodes.length then .ok (c.nodes.take 2) else undef) else .ok c.nodes

/-- `auto it(std::find(v2.begin(), v2.end(), i)); std::swap(*v2.begin(), *it);` when `v2[0] != i` (lines 2386-2390) -/
def toFront (v2 : List Int) (i : Int) : M (List Int) := do
  let x ← rd v2 0
  if x ≠ i then
    if i ∈ v2 then .ok ((v2.set 0 i).set (v2.idxOf i) x) else undef
  else .ok v2

/-- Arrays under construction and `isFetched`. -/
structure Common where
  cc : List Int := []
  ci : List Int := [0]
  fetched : List Bool

/-- The new group: offsets and marks (lines 2337-2343, 2391-2399). -/
def addGroup (s : Common) (g : List Int) : M Common := do
  let pos ← rd s.ci ((s.ci.length : Int) - 1)
  let cc := s.cc ++ g
  let f ← (slice cc pos cc.length).foldlM (fun f x => wr f x true) s.fetched
  .ok ⟨cc, s.ci ++ [(cc.length : Int)], f⟩

/-- Body of the loop when `startCellId == 0` (lines 2299-2346). -/
def commonStep0 (compType : Int) (conn connI rev revI : List Int) (i : Int) (s : Common) : M Common := do
  let f ← rd s.fetched i
  if f then .ok s
  else do
    let c ← rdCell conn connI i
    let nodes ← functorNodes compType c
    let v2 ← candidatesOf (fun n => do let g ← revGroup rev revI n; .ok (g.dropWhile (· ≠ i))) nodes
    if v2.length > 1 then do
      let g ← areCellsEqualInPool compType conn connI v2
      if g ≠ [] then addGroup s g else .ok s
    else .ok s

/-- Body of the loop otherwise (lines 2350-2402): all the candidates, cell `i` first, the group sorted afterwards. -/
def commonStep (compType : Int) (conn connI rev revI : List Int) (i : Int) (s : Common) : M Common := do
  let f ← rd s.fetched i
  if f then .ok s
  else do
    let c ← rdCell conn connI i
    let nodes ← functorNodes compType c
    let v2 ← candidatesOf (revGroup rev revI) nodes
    if v2.length > 1 then do
      let v2 ← toFront v2 i
      let g ← areCellsEqualInPool compType conn connI v2
      if g ≠ [] then addGroup s (stdSort g) else .ok s
    else .ok s

/-- `FindCommonCellsAlgPrivate` (MEDCouplingUMesh.cxx:2275-2406): `(commonCells, commonCellsI)` -/
def findCommonCellsAlg (compType startCellId : Int) (conn connI rev revI : List Int) : M (List Int × List Int) := do
  let nbOfCells : Int := (connI.length : Int) - 1
  if nbOfCells < 0 then throwX
  else do
    let s0 : Common := { fetched := List.replicate nbOfCells.toNat false }
    let s ← loop (nbOfCells - startCellId).toNat s0 fun k s =>
      if startCellId = 0 then commonStep0 compType conn connI rev revI (startCellId + k) s
      else commonStep compType conn connI rev revI (startCellId + k) s
    .ok (s.cc, s.ci)

/-- `findCommonCells` (MEDCouplingUMesh.cxx:2447-2483) -/
def findCommonCells (dim : Int) (nbNodes : Nat) (compType startCellId : Int) (conn connI : List Int) : M (List Int × List Int) := do
  let r ← getReverseNodalConnectivity nbNodes conn connI
  if dim = -2 then throwX
  else if (compType = 8 ∨ compType = 9) ∧ dim ≠ 1 then throwX
  else findCommonCellsAlg compType startCellId conn connI r.1 r.2

/-- `zipConnectivityTraducer` (MEDCouplingPointSet.cxx:1507-1522): `(o2n, new conn, new connI, new types)`; the connectivity of
`this` becomes the one of the extracted part. -/
def zipConnectivityTraducer (dim : Int) (nbNodes : Nat) (compType startCellId : Int) (conn connI : List Int) :
    M (List Int × List (Option Int) × List Int × List Int) := do
  let r ← findCommonCells dim nbNodes compType startCellId conn connI
  let o ← convertIndexArrayToO2N (connI.length - 1) r.1 r.2
  let n2o ← invertArrayO2N2N2O o.1 o.2.toNat
  let ids ← initialised n2o
  let p ← buildPartKeepCoords conn connI ids
  .ok (o.1, p)

/-! ## Meshes on the same coordinates -/

/-- A mesh for the merges: dimension, identity of the array of coordinates, connectivity. -/
structure SMesh where
  dim : Int
  coords : Nat
  conn : List Int
  connI : List Int

/-- the checking loop of `MergeUMeshesOnSameCoords`, lines 8797-8807 (all the arrays are set, see `getNumberOfCells`) -/
def sameCoordsStep (coords : Nat) (dim : Int) (s : Int × Int) (m : SMesh) : M (Int × Int) :=
  if coords ≠ m.coords then throwX
  else if m.dim = -2 then throwX
  else if dim ≠ m.dim then throwX
  else .ok (s.1 + m.conn.length, s.2 + ((m.connI.length : Int) - 1))

/-- the copying loop, lines 8815-8832; state = cursors on `nodal` and `nodalIndex`, offset -/
def mergeSameStep (s : Cur Int × Cur Int × Int) (p : SMesh × Nat) : M (Cur Int × Cur Int × Int) := do
  let nodal ← emitCopy s.1 p.1.conn 0 p.1.conn.length
  let idx ←
    if p.2 ≠ 0 then emitCopy s.2.1 (p.1.connI.map (· + s.2.2)) 1 p.1.connI.length
    else emitCopy s.2.1 p.1.connI 0 p.1.connI.length
  .ok (nodal, idx, s.2.2 + p.1.conn.length)

/-- `MergeUMeshesOnSameCoords` (MEDCouplingUMesh.cxx:8779-8839): `(nodal, nodalIndex)`, with the set of types computed by
`setConnectivity(…, true)`. -/
def mergeUMeshesOnSameCoords (ms : List SMesh) : M (List (Option Int) × List (Option Int)) :=
  match ms with
  | [] => throwX
  | m :: _ =>
    if m.dim = -2 then throwX
    else do
      let z ← ms.foldlM (sameCoordsStep m.coords m.dim) (0, 0)
      if z.2 + 1 < 0 then undef
      else do
        let s ← ms.zipIdx.foldlM mergeSameStep (newCur Int z.1.toNat, newCur Int (z.2 + 1).toNat, 0)
        .ok (s.1.1, s.2.1.1)

/-- the loop of `FuseUMeshesOnSameCoords` (MEDCouplingUMesh.cxx:8877-8886): the part of `o2n` of each mesh -/
def splitCorr (o2n : List Int) : Int → List SMesh → M (List (List Int))
  | _, [] => .ok []
  | offset, m :: ms =>
    let n : Int := (m.connI.length : Int) - 1
    if 0 ≤ offset ∧ 0 ≤ n ∧ offset + n ≤ o2n.length then do
      let r ← splitCorr o2n (offset + n) ms
      .ok (slice o2n offset (offset + n) :: r)
    else undef

/-- `FuseUMeshesOnSameCoords` (MEDCouplingUMesh.cxx:8865-8888): `(corr, new conn, new connI, types)` -/
def fuseUMeshesOnSameCoords (nbNodes : Nat) (ms : List SMesh) (compType : Int) :
    M (List (List Int) × List (Option Int) × List Int × List Int) := do
  let m ← mergeUMeshesOnSameCoords ms
  let conn ← initialised m.1
  let connI ← initialised m.2
  let dim := match ms with
    | [] => -2
    | m :: _ => m.dim
  let z ← zipConnectivityTraducer dim nbNodes compType 0 conn connI
  let corr ← splitCorr z.1 0 ms
  .ok (corr, z.2)

/-- `areCellsIncludedIn` (MEDCouplingUMesh.cxx:2526-2578): `(arr, returned boolean)`.  The two parts of `o2n` are taken directly
(`selectByTupleIdSafeSlice(0, n, 1)` and `subArray(n)`, see C08); `getMaxValueInArray` throws on an empty array. -/
def areCellsIncludedIn (nbNodes : Nat) (this other : SMesh) (compType : Int) : M (List Int × Bool) := do
  let m ← mergeUMeshesOnSameCoords [this, other]
  let conn ← initialised m.1
  let connI ← initialised m.2
  let nbOfCells : Int := (this.connI.length : Int) - 1
  if compType ≠ 0 ∧ compType ≠ 1 ∧ compType ≠ 2 then throwX
  else if (other.connI.length : Int) - 1 = 0 then .ok ([], true)
  else do
    let r ← findCommonCells this.dim nbNodes compType nbOfCells conn connI
    let o ← convertIndexArrayToO2N (connI.length - 1) r.1 r.2
    let p0 := o.1.take nbOfCells.toNat
    if p0 = [] then throwX
    else do
      let maxPart := maxElement p0
      let ret := decide (maxPart = o.2 - 1)
      let p1 ← invertArrayO2N2N2O p0 o.2.toNat
      let p1 ← loop (o.2 - 1 - maxPart).toNat p1 fun k p1 => wr p1 (maxPart + k + 1) (some (maxPart + k + 1))
      let p2 ← (o.1.drop nbOfCells.toNat).mapM fun (v : Int) => if 0 ≤ v ∧ v < p1.length then rdI p1 v else throwX
      .ok (p2, ret)

/-- inner loop of `areCellsIncludedInPolicy7`, lines 2610-2616 -/
def policy7Step (thisNb start : Int) (arr2 : List Int) (x : Int) : M (List Int) :=
  let sig : Int := if x > 0 then 1 else -1
  let val := |x| - 1
  if val ≥ thisNb then wr arr2 (val - thisNb) (sig * (start + 1)) else .ok arr2

/-- `areCellsIncludedInPolicy7` (MEDCouplingUMesh.cxx:2590-2624): the array when all the cells are found -/
def areCellsIncludedInPolicy7 (nbNodes : Nat) (this other : SMesh) : M (Option (List Int)) := do
  let m ← mergeUMeshesOnSameCoords [this, other]
  let conn ← initialised m.1
  let connI ← initialised m.2
  let thisNb : Int := (this.connI.length : Int) - 1
  let r ← findCommonCells this.dim nbNodes 7 thisNb conn connI
  let arr2 ← loop (r.2.length - 1) (List.replicate (other.connI.length - 1) (0 : Int)) fun i arr2 => do
    let a ← rd r.2 i
    let b ← rd r.2 ((i : Int) + 1)
    let start ← rd r.1 a
    if start < thisNb then (slice r.1 (a + 1) b).foldlM (policy7Step thisNb start) arr2 else .ok arr2
  .ok (if 0 ∈ arr2 then none else some arr2)

end
end MC
