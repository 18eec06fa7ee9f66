import Verif.UMesh

/-!
# Cells cut in simplices and cells turned into polygons and polyhedra (`simplexize`, `convertToPolyTypes`)

The new arrays are allocated with their final size and filled: an overflow, or a part left uninitialised, is taken as undefined
behaviour.
-/

namespace MC

/-- `SPLIT_NODES_5_WO` (SplitterTetra.hxx:56-57) -/
def splitNodes5WO : List Int := [0, 5, 1, 2, 0, 4, 5, 7, 0, 3, 7, 2, 5, 7, 6, 2, 0, 5, 2, 7]

/-- `SPLIT_NODES_6_WO` (SplitterTetra.hxx:62-63) -/
def splitNodes6WO : List Int := [0, 5, 1, 6, 0, 1, 2, 6, 0, 4, 5, 6, 0, 7, 4, 6, 0, 2, 3, 6, 0, 3, 7, 6]

/-- The two triangles of `simplexizePol0` (MEDCouplingUMesh_internal.cxx:135-145), with their types; `a` is `ci[0]`. -/
def cutQuad0 (oldc : List Int) (a : Int) : M (List (List Int)) := do
  let n1 ← rd oldc (a + 1)
  let n2 ← rd oldc (a + 2)
  let n3 ← rd oldc (a + 3)
  let n4 ← rd oldc (a + 4)
  .ok [[3, n1, n2, n3], [3, n1, n3, n4]]

/-- The two triangles of `simplexizePol1` (MEDCouplingUMesh_internal.cxx:203-213) -/
def cutQuad1 (oldc : List Int) (a : Int) : M (List (List Int)) := do
  let n1 ← rd oldc (a + 1)
  let n2 ← rd oldc (a + 2)
  let n3 ← rd oldc (a + 3)
  let n4 ← rd oldc (a + 4)
  .ok [[3, n1, n2, n4], [3, n2, n3, n4]]

/-- One tetrahedron of the tables (MEDCouplingUMesh_internal.cxx:274-278, 337-341) -/
def cutTetra (tbl oldc : List Int) (a : Int) (j : Nat) : M (List Int) := do
  let k0 ← rd tbl (4 * j)
  let k1 ← rd tbl (4 * j + 1)
  let k2 ← rd tbl (4 * j + 2)
  let k3 ← rd tbl (4 * j + 3)
  let n0 ← rd oldc (a + k0 + 1)
  let n1 ← rd oldc (a + k1 + 1)
  let n2 ← rd oldc (a + k2 + 1)
  let n3 ← rd oldc (a + k3 + 1)
  .ok [14, n0, n1, n2, n3]

/-- The loop on the tetrahedra (MEDCouplingUMesh_internal.cxx:272-281, 335-344) -/
def cutHexa (tbl : List Int) (n : Nat) (oldc : List Int) (a : Int) : M (List (List Int)) :=
  (List.range n).mapM (cutTetra tbl oldc a)

/-- `newConn`, `newConnI` and `ret` as they are filled -/
structure CutSt where
  conn : List Int := []
  connI : List Int := [0]
  ret : List Int := []

/-- One cell written: `ptI[1] = ptI[0] + ...`, `*retPt++ = i` -/
def CutSt.push (i : Int) (s : CutSt) (row : List Int) : CutSt :=
  { conn := s.conn ++ row, connI := s.connI ++ [s.connI.getLastD 0 + row.length], ret := s.ret ++ [i] }

/-- The body of the loop on the cells -/
def cutStep (t : Int) (connI : List Int) (cut : Int → M (List (List Int))) (i : Nat) (c : Cell) (s : CutSt) : M CutSt :=
  if c.type = t then do
    let a ← rd connI i
    let rows ← cut a
    .ok (rows.foldl (CutSt.push i) s)
  else .ok (s.push i (c.type :: c.nodes))

/-- `simplexizePol0`, `simplexizePol1`, `simplexizePlanarFace5` and `simplexizePlanarFace6`
(MEDCouplingUMesh_internal.cxx:104-168, 172-236, 241-299, 304-362): cells of type `t` are cut, the arrays get `dc` more
cells and `dn` more values for each of them. -/
def UMesh.cutCells (u : UMesh) (dim : Int) (t : Int) (dc dn : Nat) (cut : List Int → Int → M (List (List Int))) :
    M (UMesh × List Int) :=
  match u.arrays with
  | none => throwX
  | some (conn, connI) =>
    if u.dim ≠ dim then throwX
    else do
      let nb ← getNumberOfCellsWithType conn connI t
      if nb = 0 then .ok (u, (List.range (connI.length - 1)).map fun (i : Nat) => (i : Int))
      else do
        let s ← forCells conn connI {} (cutStep t connI (cut conn))
        if (s.ret.length : Int) = (connI.length : Int) - 1 + dc * nb ∧ (s.conn.length : Int) = conn.length + dn * nb then do
          let ts ← computeTypes s.conn s.connI
          .ok ({ u with arrays := some (s.conn, s.connI), types := ts }, s.ret)
        else undef

/-- `simplexize` (MEDCouplingUMesh.cxx:6163-6184) -/
def UMesh.simplexize (u : UMesh) (policy : Int) : M (UMesh × List Int) :=
  if policy = 0 then u.cutCells 2 4 1 3 cutQuad0
  else if policy = 1 then u.cutCells 2 4 1 3 cutQuad1
  else if policy = 5 then u.cutCells 3 18 4 16 (cutHexa splitNodes5WO 5)
  else if policy = 6 then u.cutCells 3 18 5 21 (cutHexa splitNodes6WO 6)
  else throwX

/-! ## Polygons and polyhedra -/

/-- The loop of `convertToPolyTypes` on a mesh of dimension 2 (MEDCouplingUMesh.cxx:1366-1390): the array of the connectivity at the
end, and whether the end is reached without exception. -/
def polyLoop2 (connI : List Int) : List Int → List Int → M (List Int × Bool)
  | [], conn => .ok (conn, true)
  | id :: ids, conn =>
    if id ≥ 0 ∧ id < (connI.length : Int) - 1 then do
      let a ← rd connI id
      let t ← rd conn a
      match getCellModel t with
      | .error _ => .ok (conn, false)
      | .ok cm => do
        let conn ← wr conn a (if cm.quad then 32 else 5)
        polyLoop2 connI ids conn
    else .ok (conn, false)

/-- The bitmap of the cells to convert (MEDCouplingUMesh.cxx:1400-1413) -/
def polyMarks (nbOfCells : Nat) (ids : List Int) : M (List Bool) :=
  ids.foldlM (fun toBeDone id => if id ≥ 0 ∧ id < (nbOfCells : Int) then wr toBeDone id true else throwX)
    (List.replicate nbOfCells false)

/-- A cell written as a polyhedron (MEDCouplingUMesh.cxx:1420-1437).  `tmp` has `nbOfFaces * lgthOld + 1` values. -/
def polyRow (c : Cell) : M (List Int) := do
  let cm ← getCellModel c.type
  let sons ← cm.allSons c.nodes
  let tmp := 31 :: sons.flatMap fun f => f.2 ++ [-1]
  if tmp.length ≤ sons.length * c.nodes.length + 1 then .ok (tmp.take (tmp.length - 1)) else undef

/-- One cell of the loop (MEDCouplingUMesh.cxx:1414-1445) -/
def polyStep3 (marks : List Bool) (i : Nat) (c : Cell) (s : List Int × List Int) : M (List Int × List Int) := do
  let b ← rd marks i
  let row ← if b then polyRow c else .ok (c.type :: c.nodes)
  .ok (s.1 ++ row, s.2 ++ [s.2.getLastD 0 + row.length])

/-- `convertToPolyTypes` (MEDCouplingUMesh.cxx:1358-1449): the mesh after the call, and whether the call returned without
exception. -/
def UMesh.convertToPolyTypes (u : UMesh) (ids : List Int) : M (UMesh × Bool) :=
  match u.nbNodes, u.arrays with
  | some _, some (conn, connI) =>
    if u.dim < 2 ∨ u.dim > 3 then .ok (u, false)
    else if u.dim = 2 then do
      let r ← polyLoop2 connI ids conn
      if r.2 then do
        let ts ← computeTypes r.1 connI
        .ok ({ u with arrays := some (r.1, connI), types := ts }, true)
      else .ok ({ u with arrays := some (r.1, connI) }, false)
    else
      match (do
        let marks ← polyMarks (connI.length - 1) ids
        forCells conn connI ([], [0]) (polyStep3 marks) : M (List Int × List Int)) with
      | .error .exn => .ok (u, false)
      | .error .ub => undef
      | .ok s => do
        let ts ← computeTypes s.1 s.2
        .ok ({ u with arrays := some s, types := ts }, true)
  | _, _ => .ok (u, false)

/-- `convertAllToPoly` (MEDCouplingUMesh.cxx:1458-1465); `&cellIds[0]` on an empty vector is undefined. -/
def UMesh.convertAllToPoly (u : UMesh) : M (UMesh × Bool) :=
  match u.getNumberOfCells with
  | .error .exn => .ok (u, false)
  | .error .ub => undef
  | .ok n => if n = 0 then undef else u.convertToPolyTypes ((List.range n.toNat).map fun (i : Nat) => (i : Int))

end MC
