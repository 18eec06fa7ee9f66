import Verif.CommonCells
import Verif.UMesh

/-!
# Descending connectivity (`MEDCouplingUMesh::buildDescendingConnectivity` and its variants)

The sub cells of all the cells are generated in order, the ones which are the same cell are fused, and the
correspondences between the cells and the sub cells are built in both directions.
-/

namespace MC
section

/-- The template parameter `SonsGenerator`: `getNumberOfSons2`, `fillSonCellNodalConnectivity2`, `DELTA`. -/
structure SonsGen where
  nb : CellModel → List Int → M Nat
  son : CellModel → Nat → List Int → M (Int × List Int)
  delta : Int

/-- `MinusOneSonsGenerator` (MEDCouplingUMesh_internal.hxx:36-60) -/
def minusOneGen : SonsGen where
  nb cm conn := .ok (cm.numberOfSons conn)
  son cm i conn := cm.son i conn
  delta := 1

/-- `SetRespectingInsertionOrder::insert` (CellModel.cxx:102-114): pairs are compared without orientation (lines 79-82). -/
def insertPair (s : List (Int × Int)) (p : Int × Int) : List (Int × Int) :=
  if s.any fun q => decide (min q.1 q.2 = min p.1 p.2 ∧ max q.1 q.2 = max p.1 p.2) then s else s ++ [p]

/-- `work[i], work[(i + 1) % n]` for all `i` (CellModel.cxx:139-140) -/
def ringPairs (f : List Int) : List (Int × Int) := f.zip (f.rotate 1)

/-- `EgdesOfPolyhedron` (CellModel.cxx:130-146).  `fuel` bounds the number of faces; running out of it is an error, shown
impossible in `DescProps`. -/
def edgesOfPolyhedron : Nat → List Int → List (Int × Int) → M (List (Int × Int))
  | 0, _, _ => undef
  | fuel + 1, work, ret =>
    if work = [] then .ok ret
    else
      let f := work.takeWhile (· ≠ -1)
      edgesOfPolyhedron fuel ((work.dropWhile (· ≠ -1)).drop 1) ((ringPairs f).foldl insertPair ret)

/-- `MinusTwoSonsGenerator` (MEDCouplingUMesh.cxx:862-900): `computeAllEdgesForPolyhedron` (CellModel.cxx:1729-1747) and its cache for
polyhedra; `getNumberOfEdgesIn3D` (CellModel.cxx:1555-1562) and `fillSonEdgesNodalConnectivity3D` for the other types. -/
def minusTwoGen : SonsGen where
  nb cm conn :=
    if cm.code = 31 then do
      let e ← edgesOfPolyhedron (conn.length + 1) conn []
      .ok e.length
    else if !cm.dyn then .ok (match cm.edges with | some e => e.length | none => unsignedMax)
    else do
      let e ← edgesOfPolyhedron (conn.length + 1) conn []
      .ok e.length
  son cm i conn :=
    if cm.code = 31 then do
      let e ← edgesOfPolyhedron (conn.length + 1) conn []
      let p ← rd e i
      .ok (1, [p.1, p.2])
    else cm.edge3D i conn
  delta := 2

/-- `getNumberOfMicroEdges` (CellModel.cxx:1567-1587) -/
def CellModel.numberOfMicroEdges (cm : CellModel) : M Nat :=
  let mul := if cm.quad then 2 else 1
  if !cm.dyn then
    if cm.dim = 2 then .ok (mul * cm.nbSons)
    else if cm.dim = 3 then .ok ((mul * (match cm.edges with | some e => e.length | none => unsignedMax)) % (unsignedMax + 1))
    else throwX
  else throwX

/-- `fillMicroEdgeNodalConnectivity` (CellModel.cxx:1781-1827) -/
def CellModel.microEdge (cm : CellModel) (sonId : Nat) (conn : List Int) : M (Int × List Int) :=
  if cm.quad then
    let edgeId := sonId / 2
    let subEdgeId := sonId % 2
    let sonConn : M (List Nat) :=
      if cm.dim = 2 then
        match cm.sons[edgeId]? with
        | some s => .ok s.2
        | none => undef
      else if cm.dim = 3 then
        match cm.edges with
        | some es =>
          match es[edgeId]? with
          | some e => .ok e
          | none => undef
        | none => undef
      else throwX
    do
      let s ← sonConn
      let s0 ← rd s 0
      let s2 ← rd s 2
      let s1 ← rd s 1
      let tmp := [s0, s2, s1]
      let k ← rd tmp (subEdgeId : Int)
      let k' ← rd tmp ((subEdgeId : Int) + 1)
      let a ← rd conn (k : Int)
      let b ← rd conn (k' : Int)
      .ok (1, [a, b])
  else if cm.dim = 2 then cm.son sonId conn
  else if cm.dim = 3 then cm.edge3D sonId conn
  else throwX

/-- `MicroEdgesGenerator2D` (MEDCouplingUMesh_internal.hxx:79-101) -/
def microEdgesGen2D : SonsGen where
  nb cm _ := cm.numberOfMicroEdges
  son cm i conn := cm.microEdge i conn
  delta := 1

/-- State of the loop on the cells: `ret`, `revNodalIndx`, `revDesc2`, `descIndx`. -/
structure NoFuse where
  ret : UMesh
  revNodalIndx : List Int
  revDesc2 : List Int
  descIndx : List Int

/-- `if (tmp[k] >= 0) revNodalIndxPtr[tmp[k] + 1]++;` (MEDCouplingUMesh_internal.hxx:264-266) -/
def countNode (idx : List Int) (n : Int) : M (List Int) :=
  if n ≥ 0 then do
    let v ← rd idx (n + 1)
    wr idx (n + 1) (v + 1)
  else .ok idx

/-- One son (MEDCouplingUMesh_internal.hxx:262-268), `lgth` being the size of `tmp` -/
def sonStep (eltId : Int) (lgth : Nat) (s : NoFuse) (son : Int × List Int) : M NoFuse :=
  if son.2.length > lgth then undef
  else do
    let idx ← son.2.foldlM countNode s.revNodalIndx
    let ret ← s.ret.insertNextCell son.1 son.2
    .ok { s with ret := ret, revNodalIndx := idx, revDesc2 := s.revDesc2 ++ [eltId] }

/-- One cell (MEDCouplingUMesh_internal.hxx:250-272) -/
def noFuseCell (gen : SonsGen) (eltId : Nat) (c : Cell) (s : NoFuse) : M NoFuse := do
  let cm ← getCellModel c.type
  let n ← gen.nb cm c.nodes
  let s ← loop n s fun i s => do
    let son ← gen.son cm i c.nodes
    sonStep eltId (c.nodes.length + 1) s son
  let b ← rd s.descIndx ((s.descIndx.length : Int) - 1)
  .ok { s with descIndx := s.descIndx ++ [b + n] }

/-- `buildDescendingConnectivityNoFuseGen` (MEDCouplingUMesh_internal.hxx:226-281) on a mesh whose connectivity and coordinates are
set.  The names are not modelled. -/
def descNoFuse (gen : SonsGen) (dim : Int) (nbNodes : Nat) (conn connI : List Int) : M NoFuse := do
  let ret ← UMesh.setMeshDimension {} (dim - gen.delta)
  let ret ← ret.setCoords nbNodes
  let ret ← ret.allocateCells (2 * ((connI.length : Int) - 1))
  let s ← forCells conn connI ⟨ret, List.replicate (nbNodes + 1) 0, [], [0]⟩ (noFuseCell gen)
  .ok { s with revNodalIndx := runningSums s.revNodalIndx }

/-- `MEDCouplingFastNbrer`, `MEDCouplingOrientationSensitiveNbrer` (MEDCouplingUMesh_internal.cxx:1144-1177): `compute` holds the model and
the two lists of nodes when the orientation has to be computed. -/
def nbrer (oriented : Bool) (id : Int) (compute : Option (CellModel × List Int × List Int)) : M Int :=
  if !oriented then .ok id
  else
    match compute with
    | none => .ok (id + 1)
    | some (cm, conn1, conn2) => do
      let b ← cm.orientationStatus conn1 conn2
      .ok (if b then id + 1 else -(id + 1))

/-- The loop which fills `isImpacted` (MEDCouplingUMesh_internal.hxx:348-350) -/
def markImpacted (nb : Nat) (cc ci : List Int) : M (List Bool) :=
  loop (ci.length - 1) (List.replicate nb false) fun k p => do
    let g ← revGroup cc ci k
    g.foldlM (fun p x => wr p x true) p

/-- One value of `desc` (MEDCouplingUMesh_internal.hxx:361-384) -/
def descValue (oriented : Bool) (connM1 connIM1 o2n n2o : List Int) (impacted : List Bool) (i : Nat) : M Int := do
  let imp ← rd impacted i
  let id ← rd o2n i
  if !imp then nbrer oriented id none
  else do
    let first ← rd n2o id
    if (i : Int) ≠ first then do
      let c ← rdCell connM1 connIM1 i
      let cms ← getCellModel c.type
      let c1 ← rdCell connM1 connIM1 first
      if c1.nodes.length < c.nodes.length then undef
      else nbrer oriented id (some (cms, c1.nodes.take c.nodes.length, c.nodes))
    else nbrer oriented id none

/-- One face of the reverse correspondence (MEDCouplingUMesh_internal.hxx:391-406); state = `revDesc`, `revDescIndx`, position of
`commonCellsIPtr` -/
def revDescStep (n2o : List Int) (impacted : List Bool) (cc ci revDesc2 : List Int) (i : Nat) (s : List Int × List Int × Nat) :
    M (List Int × List Int × Nat) := do
  let old ← rd n2o i
  let imp ← rd impacted old
  let last ← rd s.2.1 ((s.2.1.length : Int) - 1)
  if !imp then do
    let x ← rd revDesc2 old
    .ok (s.1 ++ [x], s.2.1 ++ [last + 1], s.2.2)
  else do
    let g ← revGroup cc ci (s.2.2 : Int)
    let xs ← g.mapM fun k => rd revDesc2 k
    .ok (s.1 ++ xs, s.2.1 ++ [last + g.length], s.2.2 + 1)

/-- The results: connectivity of the sub mesh, `desc`, `descIndx`, `revDesc`, `revDescIndx`. -/
structure Descending where
  conn : List Int
  connI : List Int
  types : List Int
  desc : List Int
  descIndx : List Int
  revDesc : List Int
  revDescIndx : List Int
deriving DecidableEq

/-- `buildDescendingConnectivityGen` (MEDCouplingUMesh_internal.hxx:287-410) -/
def buildDescendingGen (gen : SonsGen) (oriented : Bool) (dim : Int) (nbNodes : Nat) (conn connI : List Int) : M Descending := do
  let nf ← descNoFuse gen dim nbNodes conn connI
  match nf.ret.arrays with
  | none => undef
  | some (connM1, connIM1) => do
    let nbM1 := connIM1.length - 1
    let back ← rd nf.revNodalIndx ((nf.revNodalIndx.length : Int) - 1)
    if back < 0 then undef
    else do
      let rev ← forCells connM1 connIM1 (List.replicate back.toNat (-1 : Int)) fun e c rev => c.nodes.foldlM (revFillNode nf.revNodalIndx e) rev
      let cc ← findCommonCellsAlg 3 0 connM1 connIM1 rev nf.revNodalIndx
      let o ← convertIndexArrayToO2N nbM1 cc.1 cc.2
      let impacted ← markImpacted nbM1 cc.1 cc.2
      let n2o ← invertArrayO2N2N2OBis o.1 o.2.toNat
      let n2o ← initialised n2o
      let p ← buildPartKeepCoords connM1 connIM1 n2o
      let pc ← initialised p.1
      let db ← rd nf.descIndx ((nf.descIndx.length : Int) - 1)
      if db < 0 then undef
      else do
        let d ← loop nbM1 (newCur Int db.toNat) fun i d => do
          let v ← descValue oriented connM1 connIM1 o.1 n2o impacted i
          emit d v
        let desc ← initialised d.1
        let r ← loop o.2.toNat (([] : List Int), [(0 : Int)], 0) fun i s => revDescStep n2o impacted cc.1 cc.2 nf.revDesc2 i s
        .ok ⟨pc, p.2.1, p.2.2, desc, nf.descIndx, r.1, r.2.1⟩

/-- `buildDescendingConnectivity` (MEDCouplingUMesh.cxx:783-791) -/
def buildDescendingConnectivity (dim : Int) (nbNodes : Nat) (conn connI : List Int) : M Descending :=
  buildDescendingGen minusOneGen false dim nbNodes conn connI

/-- `buildDescendingConnectivity2` (MEDCouplingUMesh.cxx:1018-1026) -/
def buildDescendingConnectivity2 (dim : Int) (nbNodes : Nat) (conn connI : List Int) : M Descending :=
  buildDescendingGen minusOneGen true dim nbNodes conn connI

/-- `explode3DMeshTo1D` (MEDCouplingUMesh.cxx:911-924) -/
def explode3DMeshTo1D (dim : Int) (nbNodes : Nat) (conn connI : List Int) : M Descending :=
  if dim ≠ 3 then throwX else buildDescendingGen minusTwoGen false dim nbNodes conn connI

/-- `explodeMeshIntoMicroEdges` (MEDCouplingUMesh.cxx:946-965): both cases of the `switch` use the generator of dimension 2. -/
def explodeMeshIntoMicroEdges (dim : Int) (nbNodes : Nat) (conn connI : List Int) : M Descending :=
  if dim = 2 then buildDescendingGen microEdgesGen2D false dim nbNodes conn connI
  else if dim = 3 then buildDescendingGen microEdgesGen2D false dim nbNodes conn connI
  else throwX

end
end MC
