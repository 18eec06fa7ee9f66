import Verif.CellTypes
import Verif.SkyOps
import Verif.Slices

/-!
# Meshes with a single geometric type (MEDCoupling1SGTUMesh, MEDCoupling1DGTUMesh)

A mesh of a static type holds the nodes of its cells one after the other, without types nor index; `n` is the number of nodes of its type.
A mesh of a dynamic type holds the nodes and an index, which may start after 0 and stop before the end of the nodes.  The names, the times
and the values of the coordinates are not modelled: the coordinates are a pointer (a number) and a number of nodes.  The arrays are set, are
allocated, have one component and no component name.
-/

namespace MC
section

/-- `MEDCoupling1SGTUMesh::getNumberOfCells` (MEDCoupling1GTUMesh.cxx:884-899).  No static type has zero nodes; a modulo by zero is
undefined. -/
def sgtNbCells (n : Nat) (conn : List Int) : M Nat :=
  if n = 0 then undef else if conn.length % n ≠ 0 then throwX else .ok (conn.length / n)

/-- `MEDCoupling1DGTUMesh::checkConsistencyOfConnectivity` (MEDCoupling1GTUMesh.cxx:3046-3115) -/
def dgtCheck (conn connI : List Int) : M Unit :=
  if connI.length < 1 then throwX
  else do
    let f ← rd connI 0
    let ll ← rd connI ((connI.length : Int) - 1)
    if f < 0 ∨ (conn.length > 0 ∧ f ≥ conn.length) then throwX
    else if ll < 0 ∨ ll > conn.length then throwX
    else if f > ll then throwX
    else if (conn.length : Int) < ll then throwX
    else .ok ()

/-- `MEDCoupling1DGTUMesh::getNumberOfCells` (MEDCoupling1GTUMesh.cxx:3159-3164) -/
def dgtNbCells (conn connI : List Int) : M Nat := do
  dgtCheck conn connI
  .ok (connI.length - 1)

/-! ## Conversions -/

/-- `MEDCoupling1SGTUMesh::New(type)` (MEDCoupling1GTUMesh.cxx:635-651): the model of the type -/
def sgtModel (type : Int) : M CellModel :=
  if type = 40 then throwX else do
    let cm ← getCellModel type
    if cm.dyn then throwX else .ok cm

/-- `MEDCoupling1DGTUMesh::New(type)` (MEDCoupling1GTUMesh.cxx:2819-2835) -/
def dgtModel (type : Int) : M CellModel :=
  if type = 40 then throwX else do
    let cm ← getCellModel type
    if cm.dyn then .ok cm else throwX

/-- `MEDCoupling1SGTUMesh::New(const MEDCouplingUMesh*)` (MEDCoupling1GTUMesh.cxx:653-704): type and nodal connectivity.  `geoTypes` is
`getAllGeoTypes()` of the mesh. -/
def sgtNew (geoTypes conn connI : List Int) : M (Int × List (Option Int)) :=
  match geoTypes with
  | [typ] => do
    let cm ← sgtModel typ
    let out ← loop (connI.length - 1) (newCur Int ((connI.length - 1) * cm.nbPts)) fun i o => do
      let a ← rd connI i
      let t ← rd conn a
      if t = typ then do
        let b ← rd connI ((i : Int) + 1)
        if b - a = (cm.nbPts : Int) + 1 then emitCopy o conn (a + 1) b else throwX
      else throwX
    .ok (typ, out.1)
  | _ => throwX

/-- `MEDCoupling1DGTUMesh::New(const MEDCouplingUMesh*)` (MEDCoupling1GTUMesh.cxx:4868-4917): type, nodal connectivity and index.  The
size given to `alloc` is `conn.length` minus the number of cells; a negative one is refused. -/
def dgtNew (geoTypes conn connI : List Int) : M (Int × List (Option Int) × List (Option Int)) :=
  match geoTypes with
  | [typ] => do
    let _ ← dgtModel typ
    if conn.length < connI.length - 1 then throwX
    else do
      let ci ← emit (newCur Int (connI.length - 1 + 1)) 0
      let s ← loop (connI.length - 1) (newCur Int (conn.length - (connI.length - 1)), ci, (0 : Int)) fun i s => do
        let a ← rd connI i
        let t ← rd conn a
        if t = typ then do
          let b ← rd connI ((i : Int) + 1)
          if b - a ≥ 1 then do
            let c ← emitCopy s.1 conn (a + 1) b
            let ci ← emit s.2.1 (s.2.2 + b - a - 1)
            .ok (c, ci, s.2.2 + b - a - 1)
          else throwX
        else throwX
      .ok (typ, s.1.1, s.2.1.1)
  | _ => throwX

/-- `MEDCoupling1SGTUMesh::buildUnstructured` (MEDCoupling1GTUMesh.cxx:1186-1213): the two arrays of the mesh -/
def sgtBuildUnstructured (type : Int) (conn : List Int) : M (List (Option Int) × List (Option Int)) := do
  let cm ← sgtModel type
  let nb ← sgtNbCells cm.nbPts conn
  let c ← loop nb (newCur Int (nb * (cm.nbPts + 1))) fun i o => do
    let o ← emit o type
    emitCopy o conn ((i : Int) * cm.nbPts) ((i : Int) * cm.nbPts + cm.nbPts)
  let ci ← rangeArr 0 (((nb : Int) + 1) * (cm.nbPts + 1)) (cm.nbPts + 1)
  .ok (c.1, ci)

/-- `MEDCoupling1DGTUMesh::buildUnstructured` (MEDCoupling1GTUMesh.cxx:3549-3588): the two arrays of the mesh -/
def dgtBuildUnstructured (type : Int) (conn connI : List Int) : M (List (Option Int) × List (Option Int)) := do
  let nb ← dgtNbCells conn connI
  let ci ← emit (newCur Int (nb + 1)) 0
  let s ← loop nb (newCur Int (nb + conn.length), ci, (0 : Int)) fun i s => do
    let b ← rd connI ((i : Int) + 1)
    let a ← rd connI i
    if b - a ≥ 0 then do
      let c ← emit s.1 type
      let c ← emitCopy c conn a b
      let ci ← emit s.2.1 (s.2.2 + (b - a) + 1)
      .ok (c, ci, s.2.2 + (b - a) + 1)
    else throwX
  .ok (s.1.1, s.2.1.1)

/-- A mesh with a single type: coordinates (a pointer), type, nodal connectivity and, for the dynamic types, index. -/
structure OneGT where
  coords : Nat
  type : Int
  conn : List Int
  connI : Option (List Int)
deriving DecidableEq, Repr

/-- `getNumberOfCells` of either class -/
def OneGT.nbCells (m : OneGT) (cm : CellModel) : M Nat :=
  match m.connI with
  | none => sgtNbCells cm.nbPts m.conn
  | some connI => dgtNbCells m.conn connI

/-- the first loop of `AggregateOnSameCoordsToUMesh`, lines 546-566; state = (number of cells, size of the connectivity) -/
def aggToUMeshSize (coords : Nat) (dim : Nat) (s : Nat × Nat) (p : OneGT) : M (Nat × Nat) := do
  let cm ← getCellModel p.type
  if cm.dim ≠ dim then throwX
  else if p.coords ≠ coords then throwX
  else do
    let nb ← p.nbCells cm
    .ok (s.1 + nb, s.2 + p.conn.length)

/-- the second loop of `AggregateOnSameCoordsToUMesh`, lines 572-605; state = (connectivity, index, last value of the index) -/
def aggToUMeshStep (s : Cur Int × Cur Int × Int) (p : OneGT) : M (Cur Int × Cur Int × Int) := do
  let cm ← getCellModel p.type
  let nb ← p.nbCells cm
  match p.connI with
  | none =>
    loop nb s fun i s => do
      let c ← emit s.1 p.type
      let c ← emitCopy c p.conn ((i : Int) * cm.nbPts) ((i : Int) * cm.nbPts + cm.nbPts)
      let ci ← emit s.2.1 (s.2.2 + cm.nbPts + 1)
      .ok (c, ci, s.2.2 + cm.nbPts + 1)
  | some connI =>
    loop nb s fun i s => do
      let c ← emit s.1 p.type
      let a ← rd connI i
      let b ← rd connI ((i : Int) + 1)
      let c ← emitCopy c p.conn a b
      let ci ← emit s.2.1 (s.2.2 + b - a + 1)
      .ok (c, ci, s.2.2 + b - a + 1)

/-- `MEDCoupling1GTUMesh::AggregateOnSameCoordsToUMesh` (MEDCoupling1GTUMesh.cxx:530-608): the two arrays of the mesh -/
def aggregateToUMesh (parts : List OneGT) : M (List (Option Int) × List (Option Int)) :=
  match parts with
  | [] => throwX
  | p :: _ => do
    let cm ← getCellModel p.type
    let sz ← parts.foldlM (aggToUMeshSize p.coords cm.dim) (0, 0)
    let ci ← emit (newCur Int (sz.1 + 1)) 0
    let s ← parts.foldlM aggToUMeshStep (newCur Int (sz.2 + sz.1), ci, (0 : Int))
    .ok (s.1.1, s.2.1.1)

end
end MC
