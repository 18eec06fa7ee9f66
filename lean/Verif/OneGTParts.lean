import Verif.OneGT
import Verif.UMesh
import Verif.PartDef

/-!
# Parts, renumbering, packing and merging of the meshes with a single geometric type (model)
-/

namespace MC
section

/-- `MEDCoupling1SGTUMesh::renumberCells` (MEDCoupling1GTUMesh.cxx:1106-1133): the new nodal connectivity -/
def sgtRenumberCells (n : Nat) (conn o2n : List Int) (check : Bool) : M (List (Option Int)) := do
  let nb ← sgtNbCells n conn
  let array ← (if check then checkAndPreparePermutation o2n else .ok o2n : M (List Int))
  let n2o ← invertArrayO2N2N2O array nb
  let o ← loop nb (newCur Int conn.length) fun i o => do
    let pos ← rdI n2o i
    emitCopy o conn (pos * n) ((pos + 1) * n)
  .ok o.1

/-- `MEDCoupling1DGTUMesh::renumberCells` (MEDCoupling1GTUMesh.cxx:3496-3537): the new nodal connectivity and the new index.
`computeOffsetsFull` reads all the sizes. -/
def dgtRenumberCells (conn connI o2n : List Int) (check : Bool) : M (List (Option Int) × List (Option Int)) := do
  let nb ← dgtNbCells conn connI
  let array ← (if check then checkAndPreparePermutation o2n else .ok o2n : M (List Int))
  let sizes ← loop nb (mallocN Int nb) fun i s => do
    let newPos ← rd array i
    let b ← rd connI ((i : Int) + 1)
    let a ← rd connI i
    if b - a ≥ 0 then wr s newPos (some (b - a)) else throwX
  let sizes ← definite sizes
  let newI ← computeOffsetsFull sizes
  let newC ← loop nb (mallocN Int conn.length) fun i s => do
    let newp ← rd array i
    let a ← rd connI i
    let b ← rd connI ((i : Int) + 1)
    let off ← rdI newI newp
    copyRange conn a b s off
  .ok (newC, newI)

/-- `MEDCoupling1SGTUMesh::buildPartOfMySelfKeepCoords` (MEDCoupling1GTUMesh.cxx:1515-1543): the nodal connectivity of the part -/
def sgtPart (n : Nat) (conn ids : List Int) : M (List (Option Int)) := do
  let nb ← sgtNbCells n conn
  let o ← ids.foldlM (fun (o : Cur Int) (id : Int) =>
    if 0 ≤ id ∧ id < nb then emitCopy o conn (id * n) ((id + 1) * n) else throwX) (newCur Int (ids.length * n))
  .ok o.1

/-- `MEDCoupling1SGTUMesh::buildPartOfMySelfKeepCoordsSlice` (MEDCoupling1GTUMesh.cxx:1545-1576): the same loop on
`start, start + step, ...` -/
def sgtPartSlice (n : Nat) (conn : List Int) (start stop step : Int) : M (List (Option Int)) := do
  let _ ← sgtNbCells n conn
  let k ← getNumberOfItemGivenBESRelative start stop step
  sgtPart n conn (stepping start step k.toNat)

/-- `MEDCoupling1DGTUMesh::buildPartOfMySelfKeepCoords` (MEDCoupling1GTUMesh.cxx:3671-3683) -/
def dgtPart (conn connI ids : List Int) : M (List (Option Int) × List Int) := do
  dgtCheck conn connI
  extractFromIndexedArrays ids conn connI

/-- `MEDCoupling1DGTUMesh::buildPartOfMySelfKeepCoordsSlice` (MEDCoupling1GTUMesh.cxx:3685-3697) -/
def dgtPartSlice (conn connI : List Int) (start stop step : Int) : M (List (Option Int) × List Int) := do
  dgtCheck conn connI
  extractFromIndexedArraysSlice start stop step conn connI

/-- `MEDCoupling1DGTUMesh::isPacked` (MEDCoupling1GTUMesh.cxx:4465-4471) -/
def dgtIsPacked (conn connI : List Int) : M Bool := do
  dgtCheck conn connI
  let f ← rd connI 0
  let b ← rd connI ((connI.length : Int) - 1)
  .ok (decide (f = 0 ∧ b = conn.length))

/-- `MEDCoupling1DGTUMesh::retrievePackedNodalConnectivity` (MEDCoupling1GTUMesh.cxx:4432-4454): whether the arrays of the mesh are
returned, nodal connectivity and index.  `applyLin(1, -bg)` is a shift. -/
def dgtPacked (conn connI : List Int) : M (Bool × List (Option Int) × List Int) := do
  let p ← dgtIsPacked conn connI
  if p then .ok (true, conn.map some, connI)
  else do
    let bg ← rd connI 0
    let e ← rd connI ((connI.length : Int) - 1)
    let nc ← selectByTupleIdSafeSlice ⟨conn.length, 1, conn, by simp⟩ bg e 1
    .ok (false, nc, connI.map fun k => 1 * k + -bg)

/-- one iteration of the loop of `Merge1SGTUMeshesOnSameCoords`, lines 1455-1470 -/
def sgtMergeSameCheck (first : OneGT) (n : Nat) (_ : Unit) (m : OneGT) : M Unit :=
  if m.type ≠ first.type then throwX
  else do
    let _ ← sgtNbCells n m.conn
    if m.coords ≠ first.coords then throwX else .ok ()

/-- `MEDCoupling1SGTUMesh::Merge1SGTUMeshesOnSameCoords` (MEDCoupling1GTUMesh.cxx:1433-1474): the nodal connectivity.  No mesh is null. -/
def sgtMergeSame (ms : List OneGT) : M (List Int) :=
  match ms with
  | [] => throwX
  | m :: r => do
    let cm ← sgtModel m.type
    let _ ← sgtNbCells cm.nbPts m.conn
    r.foldlM (sgtMergeSameCheck m cm.nbPts) ()
    let a ← aggregate ((m :: r).map fun m => some ⟨1, m.conn⟩)
    .ok a.vals

/-- one iteration of the loops of `Merge1DGTUMeshesOnSameCoords`: the packed arrays of the mesh -/
def dgtPackedArrays (m : OneGT) : M (List Int × List Int) := do
  let connI := m.connI.getD []
  let _ ← dgtNbCells m.conn connI
  let p ← dgtPacked m.conn connI
  let c ← definite p.2.1
  .ok (c, p.2.2)

/-- one iteration of the loop of `Merge1DGTUMeshesOnSameCoords`, lines 4556-4573 -/
def dgtMergeSameStep (first : OneGT) (s : List (List Int × List Int)) (m : OneGT) : M (List (List Int × List Int)) :=
  if m.type ≠ first.type then throwX
  else do
    let p ← dgtPackedArrays m
    if m.coords ≠ first.coords then throwX else .ok (s ++ [p])

/-- `MEDCoupling1DGTUMesh::Merge1DGTUMeshesOnSameCoords` (MEDCoupling1GTUMesh.cxx:4529-4579): nodal connectivity and index.  No mesh is
null. -/
def dgtMergeSame (ms : List OneGT) : M (List Int × List (Option Int)) :=
  match ms with
  | [] => throwX
  | m :: r => do
    let p ← dgtPackedArrays m
    let s ← r.foldlM (dgtMergeSameStep m) [p]
    let a ← aggregate (s.map fun p => some ⟨1, p.1⟩)
    let i ← aggregateIndexes (s.map fun p => some p.2)
    .ok (a.vals, i)

/-- `MEDCoupling1SGTUMesh::Merge1SGTUMeshesLL` (MEDCoupling1GTUMesh.cxx:1480-1514): the nodal connectivity; each mesh comes with its
number of nodes, and `MergeNodesArray` puts the nodes of the meshes one after the other.  State of the last loop = (cursor, offset). -/
def sgtMergeLL (ms : List (OneGT × Nat)) : M (List (Option Int)) :=
  match ms with
  | [] => throwX
  | m :: r => do
    let cm ← sgtModel m.1.type
    let n0 ← sgtNbCells cm.nbPts m.1.conn
    let nb ← r.foldlM (fun (nb : Nat) (p : OneGT × Nat) =>
      if p.1.type ≠ m.1.type then (throwX : M Nat)
      else do
        let k ← sgtNbCells cm.nbPts p.1.conn
        .ok (nb + k)) n0
    let s ← (m :: r).foldlM (fun (s : Cur Int × Int) (p : OneGT × Nat) => do
      let c ← p.1.conn.foldlM (fun c x => emit c (x + s.2)) s.1
      .ok (c, s.2 + p.2)) (newCur Int (nb * cm.nbPts), (0 : Int))
    .ok s.1.1

/-- `MEDCoupling1DGTUMesh::AggregateNodalConnAndShiftNodeIds` (MEDCoupling1GTUMesh.cxx:4815-4866) -/
def aggregateShift (conns : List (List Int)) (offsets : List Int) : M (List (Option Int)) :=
  if conns.length ≠ offsets.length then throwX
  else if conns.length = 0 then throwX
  else do
    let s ← loop conns.length (newCur Int (conns.map List.length).sum) fun i s => do
      let inPt ← rd conns i
      let off ← rd offsets i
      inPt.foldlM (fun c x => if x ≠ -1 then emit c (x + off) else emit c (-1)) s
    .ok s.1

/-- one iteration of the loop of `Merge1DGTUMeshesLL`, lines 4601-4611; state = (packed arrays, offsets, number of nodes of the
previous mesh) -/
def dgtMergeLLStep (first : OneGT) (s : List (List Int × List Int) × List Int × Nat) (m : OneGT × Nat) :
    M (List (List Int × List Int) × List Int × Nat) :=
  if m.1.type ≠ first.type then throwX
  else do
    let p ← dgtPackedArrays m.1
    let last ← rd s.2.1 ((s.2.1.length : Int) - 1)
    .ok (s.1 ++ [p], s.2.1 ++ [last + s.2.2], m.2)

/-- `MEDCoupling1DGTUMesh::Merge1DGTUMeshesLL` (MEDCoupling1GTUMesh.cxx:4585-4623): nodal connectivity and index -/
def dgtMergeLL (ms : List (OneGT × Nat)) : M (List (Option Int) × List (Option Int)) :=
  match ms with
  | [] => throwX
  | m :: r => do
    let p ← dgtPackedArrays m.1
    let s ← r.foldlM (dgtMergeLLStep m.1) ([p], [0], m.2)
    let c ← aggregateShift (s.1.map Prod.fst) s.2.1
    let i ← aggregateIndexes (s.1.map fun p => some p.2)
    .ok (c, i)

end
end MC
