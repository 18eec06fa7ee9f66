import Verif.UMeshProps
import Mathlib.Data.List.Dedup
import Mathlib.Data.List.Rotate

/-!
# Degenerated cells, polygons and polyhedra turned into usual cells (`CellSimplify`, `MEDCouplingUMesh`)

`convertDegeneratedCells`, `convertDegeneratedCellsAndRemoveFlatOnes`, `unPolyze` and `removeDegenerated1DCells`.

The faces of a cell of dimension 3 are a list of lists of nodes, instead of one array with -1 between the faces and the types of the
faces at the end: the positions `conn + 5 * i` of the code are used where all the faces before are quadrangles (and `conn + 4 * i`
where they are triangles).  The functions which look for a usual cell only compare nodes, and are written for nodes of any type.
A `std::set` and the result of `std::set_intersection` are lists without repetition: only the size and the lone element of a set
with one element are used.
-/

namespace MC

section
variable {α : Type} [DecidableEq α]

/-- `std::set_intersection` of the sets of the values of two arrays -/
def meet (a b : List α) : List α := a.dedup.filter fun x => decide (x ∈ b)

/-- `std::set_difference` of the sets of the values of two arrays -/
def minus (a b : List α) : List α := a.dedup.filter fun x => decide (x ∉ b)

/-- The pairs `(face[i], face[(i + 1) % lgth])` -/
def ringEdges {β : Type} (l : List β) : List (β × β) := l.zip (l.rotate 1)

/-- `tmp` and `sideEdges` at the end of the `if (tmp.empty())` (InterpKernelCellSimplify.cxx:251-281): the edges common to the base and to
the side face, which is reversed when there are none -/
def sideTurn (baseEdges sideEdges : List (α × α)) : List (α × α) × List (α × α) :=
  if meet baseEdges sideEdges = [] then (meet baseEdges (sideEdges.map Prod.swap), sideEdges.map Prod.swap)
  else (meet baseEdges sideEdges, sideEdges)

/-- The edge of the side face without node of the edge `e` (InterpKernelCellSimplify.cxx:286-296) -/
def sideFar (e : α × α) (sideEdges : List (α × α)) : Option (α × α) :=
  sideEdges.find? fun s => decide (e.1 ≠ s.1 ∧ e.1 ≠ s.2 ∧ e.2 ≠ s.1 ∧ e.2 ≠ s.2)

/-- The end of `orientOppositeFace` (InterpKernelCellSimplify.cxx:299-314): `tmp3[(offset + i) % lgth] = oppEdges[i].first` -/
def turnOpposite (base ret : List α) (e s : α × α) : Option (List α) :=
  if (s.2, s.1) ∈ ringEdges ret then
    let pos := (ringEdges base).idxOf e
    let pos2 := (ringEdges ret).idxOf (s.2, s.1)
    some (ret.rotate (base.length - (if pos < pos2 then pos + base.length - pos2 else pos - pos2)))
  else none

/-- `orientOppositeFace` (InterpKernelCellSimplify.cxx:227-315): `retConn` at the end if the call returns true. -/
def orientOppositeFace (base ret side : List α) : Option (List α) :=
  if (meet base side).length = 2 then
    match sideTurn (ringEdges base) (ringEdges side) with
    | ([e], se) => (sideFar e se).bind (turnOpposite base ret e)
    | _ => none
  else none

/-- The first face which is neither the base nor the opposite face; the code compares the pointers -/
def firstSide (faces : List (List α)) (b o : Nat) : Option (List α) :=
  (faces.zipIdx.find? fun p => decide (p.2 ≠ b ∧ p.2 ≠ o)).map Prod.fst

/-- `tryToArrangeOppositeFace` (InterpKernelCellSimplify.cxx:330-350).  Only the first side face is used: `isWellOriented`
(InterpKernelCellSimplify.cxx:317-323) returns true. -/
def arrangeOpposite (faces : List (List α)) (b o : Nat) (base opp : List α) : Option (List α) :=
  match firstSide faces b o with
  | some s => orientOppositeFace base (opp.take 1 ++ (opp.drop 1).reverse) s
  | none => some (opp.take 1 ++ (opp.drop 1).reverse)

/-- The base, followed by the arranged opposite face -/
def prismOf (faces : List (List α)) (b o : Nat) : Option (List α) :=
  match faces[b]?, faces[o]? with
  | some base, some opp => (arrangeOpposite faces b o base opp).map (base ++ ·)
  | _, _ => none

/-- `tryToUnPolyHex8` (InterpKernelCellSimplify.cxx:356-397): the nodes of the hexahedron, if one is found -/
def tryHexa8 (fs : List (Int × List α)) : Option (List α) :=
  if fs.all fun f => f.1 == 4 then
    match ((fs.map Prod.snd).drop 1 |>.take 5).findIdx? fun f => (meet (((fs.map Prod.snd).head?).getD []) f).isEmpty with
    | some k => prismOf ((fs.map Prod.snd).take 6) 0 (k + 1)
    | none => none
  else none

/-- The numbers of the first two faces of a type -/
def twoOfType (ts : List Int) (t : Int) : Nat × Nat :=
  (ts.idxOf t, ts.idxOf t + 1 + (ts.drop (ts.idxOf t + 1)).idxOf t)

/-- The prism between two faces without common node -/
def prismBetween (faces : List (List α)) (p : Nat × Nat) : Option (List α) :=
  if meet ((faces[p.1]?).getD []) ((faces[p.2]?).getD []) = [] then prismOf faces p.1 p.2 else none

/-- `tryToUnPolyHexp12` (InterpKernelCellSimplify.cxx:399-449) -/
def tryHexgp12 (fs : List (Int × List α)) : Option (List α) :=
  if (fs.map Prod.fst).count 4 = 6 ∧ (fs.map Prod.fst).count 5 = 2 then
    let p := twoOfType (fs.map Prod.fst) 5
    if (((fs.map Prod.snd)[p.1]?).getD []).length = 6 ∧ (((fs.map Prod.snd)[p.2]?).getD []).length = 6 then
      prismBetween (fs.map Prod.snd) p
    else none
  else none

/-- `tryToUnPolyPenta6` (InterpKernelCellSimplify.cxx:455-509) -/
def tryPenta6 (fs : List (Int × List α)) : Option (List α) :=
  if (fs.map Prod.fst).count 3 = 2 ∧ (fs.map Prod.fst).count 4 = 3 then
    prismBetween (fs.map Prod.snd) (twoOfType (fs.map Prod.fst) 3)
  else none

/-- The loops on the faces around a point (InterpKernelCellSimplify.cxx:541-576, 613-643), `point` being -1 at the beginning: `none` at the
end if they stop, or if there is no face -/
def coneLoop (base : List α) : List (List α) → Option α → Option α
  | [], p => p
  | f :: fs, p =>
    if (meet f base).length = 2 then
      match minus f base, p with
      | [x], none => coneLoop base fs (some x)
      | [x], some y => if y = x then coneLoop base fs (some y) else none
      | _, _ => none
    else none

/-- `tryToUnPolyPyra5` (InterpKernelCellSimplify.cxx:515-589) -/
def tryPyra5 (fs : List (Int × List α)) : Option (List α) :=
  if (fs.map Prod.fst).count 3 = 4 ∧ (fs.map Prod.fst).count 4 = 1 then
    let q := (fs.map Prod.fst).idxOf 4
    match (fs.map Prod.snd)[q]? with
    | some base => (coneLoop base ((fs.map Prod.snd).eraseIdx q) none).map fun p => base ++ [p]
    | none => none
  else none

/-- `tryToUnPolyTetra4` (InterpKernelCellSimplify.cxx:595-648) -/
def tryTetra4 (fs : List (Int × List α)) : Option (List α) :=
  if fs.all fun f => f.1 == 3 then
    match (fs.map Prod.snd).take 4 with
    | base :: others => (coneLoop base others none).map fun p => base ++ [p]
    | [] => none
  else none

/-- `tryToUnPoly3D` (InterpKernelCellSimplify.cxx:191-225), `nbOfNodes` being the number of nodes: the type and the nodes of the usual cell,
if one is found -/
def tryUsual (nbOfNodes : Nat) (fs : List (Int × List α)) : Option (Int × List α) :=
  if 100 * nbOfNodes + fs.length = 806 then (tryHexa8 fs).map fun r => (18, r)
  else if 100 * nbOfNodes + fs.length = 1208 then (tryHexgp12 fs).map fun r => (22, r)
  else if 100 * nbOfNodes + fs.length = 605 then (tryPenta6 fs).map fun r => (16, r)
  else if 100 * nbOfNodes + fs.length = 505 then (tryPyra5 fs).map fun r => (15, r)
  else if 100 * nbOfNodes + fs.length = 404 then (tryTetra4 fs).map fun r => (14, r)
  else none

end

/-- The number of elements of the set of the values of an array, without -1 -/
def nbDistinct (l : List Int) : Nat := (l.dedup.filter fun x => decide (x ≠ -1)).length

/-- The faces one after the other, -1 between them (InterpKernelCellSimplify.cxx:150-183) -/
def faceRow : List (List Int) → List Int
  | [] => []
  | [f] => f
  | f :: g :: fs => f ++ -1 :: faceRow (g :: fs)

/-- `tryToUnPoly3D` (InterpKernelCellSimplify.cxx:191-225) -/
def tryToUnPoly3D (fs : List (Int × List Int)) : Cell :=
  match tryUsual (nbDistinct (fs.flatMap Prod.snd)) fs with
  | some r => ⟨r.1, r.2⟩
  | none => ⟨31, faceRow (fs.map Prod.snd)⟩

/-- `tryToUnPoly2D` (InterpKernelCellSimplify.cxx:105-134): the type; the nodes are copied -/
def unPoly2DType (isQuad : Bool) (lgth : Nat) : Int :=
  if isQuad then (if lgth = 6 then 6 else if lgth = 8 then 8 else 32)
  else (if lgth = 3 then 3 else if lgth = 4 then 4 else 5)

/-- `tmp2` of `getFullPolyh3DCell` (InterpKernelCellSimplify.cxx:162-167): the first occurrences -/
def zipFace (f : List Int) : List Int := f.foldl (fun acc x => if x ∈ acc then acc else acc ++ [x]) []

/-- One turn of the loop on the faces (InterpKernelCellSimplify.cxx:158-180).  `tmp2[0] = work[0]` is out of bounds for a face without node. -/
def zipSon (s : Int × List Int) : M (Option (Int × List Int)) :=
  if s.2 = [] then undef
  else if (zipFace s.2).length < 3 then .ok none
  else do
    let cm ← getCellModel s.1
    .ok (some (unPoly2DType cm.quad (zipFace s.2).length, zipFace s.2))

/-- `getFullPolyh3DCell` (InterpKernelCellSimplify.cxx:142-184).  `--work` goes before the array if no face remains.  The array of
`nbOfFaces * (lgth + 1)` values is large enough for the cells of dimension 3. -/
def getFullPolyh3DCell (c : Cell) : M (List (Int × List Int)) := do
  let cm ← getCellModel c.type
  let sons ← cm.allSons c.nodes
  let fs ← sons.mapM zipSon
  if fs.filterMap id = [] then undef else .ok (fs.filterMap id)

/-- The loop on the nodes of a linear cell of dimension 2 (InterpKernelCellSimplify.cxx:66-71): the positions kept -/
def keptLin (l : List Int) : List Nat := (List.range l.length).filter fun i => decide (l[i]? ≠ l[(i + 1) % l.length]?)

/-- The loop on the nodes of a quadratic cell of dimension 2 (InterpKernelCellSimplify.cxx:74-83): the positions kept -/
def keptQuad (l : List Int) : List Nat :=
  (List.range (l.length / 2)).filter fun i => decide (l[i]? ≠ l[(i + 1) % (l.length / 2)]? ∨ l[i]? ≠ l[i + l.length / 2]?)

/-- The nodes written in `tmp` (InterpKernelCellSimplify.cxx:62-88) -/
def zipNodes (isQuad : Bool) (l : List Int) : List Int :=
  if isQuad then (keptQuad l).filterMap (fun i : Nat => l[i]?) ++ (keptQuad l).filterMap (fun i : Nat => l[(i + l.length / 2) % l.length]?)
  else (keptLin l).filterMap fun i : Nat => l[i]?

/-- `simplifyDegeneratedCell` (InterpKernelCellSimplify.cxx:42-99) -/
def simplifyCell (c : Cell) : M Cell := do
  let cm ← getCellModel c.type
  if (cm.dim = 3 ∧ cm.quad = true) ∨ nbDistinct c.nodes = c.nodes.length then .ok c
  else if cm.dim = 2 then .ok ⟨unPoly2DType cm.quad (zipNodes cm.quad c.nodes).length, zipNodes cm.quad c.nodes⟩
  else if cm.dim = 3 then do
    let fs ← getFullPolyh3DCell c
    .ok (tryToUnPoly3D fs)
  else throwX

/-- One cell of `unPolyze` (MEDCouplingUMesh.cxx:1604-1656); a dynamic type of another dimension gives an empty `NORM_ERROR`. -/
def unPolyCell (c : Cell) : M Cell := do
  let cm ← getCellModel c.type
  if cm.dyn then
    if cm.dim = 2 then .ok ⟨unPoly2DType cm.quad c.nodes.length, c.nodes⟩
    else if cm.dim = 3 then do
      let fs ← getFullPolyh3DCell c
      .ok (tryToUnPoly3D fs)
    else .ok ⟨40, []⟩
  else .ok c

/-! ## The loops on the cells, in place -/

/-- `std::copy(vals, vals + n, l + p)` -/
def putAt (l : List Int) (p : Int) (vals : List Int) : M (List Int) :=
  if 0 ≤ p ∧ p + vals.length ≤ l.length then .ok (l.take p.toNat ++ vals ++ l.drop (p.toNat + vals.length)) else undef

/-- The two arrays, `posOfCurCell`, `newPos`, the value returned by `unPolyze` and the cells removed -/
structure DegSt where
  conn : List Int
  connI : List Int
  pos : Int := 0
  newPos : Int := 0
  chg : Bool := false
  del : List Int := []

/-- The cell of the window `[posOfCurCell, index[i + 1])` -/
def readWindow (conn : List Int) (a b : Int) : M Cell := do
  let t ← rd conn a
  if a + 1 ≤ b ∧ b ≤ conn.length then .ok ⟨t, slice conn (a + 1) b⟩ else undef

/-- The body of the loops of `convertDegeneratedCells` (MEDCouplingUMesh.cxx:6248-6260) and of `unPolyze` (MEDCouplingUMesh.cxx:1603-1656, where
a cell of a static type is copied with its type): the nodes are written before the type. -/
def degStep (f : Cell → M Cell) (i : Nat) (s : DegSt) : M DegSt := do
  let b ← rd s.connI ((i : Int) + 1)
  let c ← readWindow s.conn s.pos b
  let c' ← f c
  let conn ← putAt s.conn (s.newPos + 1) c'.nodes
  let conn ← wr conn s.newPos c'.type
  let connI ← wr s.connI ((i : Int) + 1) (s.newPos + c'.nodes.length + 1)
  .ok { s with conn := conn, connI := connI, pos := b, newPos := s.newPos + c'.nodes.length + 1, chg := s.chg || decide (c'.type ≠ c.type) }

/-- `isFlatCell` (InterpKernelCellSimplify.cxx:650-662) -/
def isFlatCell (conn : List Int) (pos : Int) (lgth : Nat) (type : Int) : M Bool := do
  let cm ← getCellModel type
  if lgth ≤ 2 then .ok true
  else if cm.quad = true ∧ lgth = 4 then do
    let a ← rd conn (pos + 1 + (lgth / 2 : Nat))
    let b ← rd conn (pos + 1 + (lgth / 2 : Nat) + 1)
    .ok (decide (a = b))
  else .ok false

/-- The end of the body of the loop: a flat cell is not kept (MEDCouplingUMesh.cxx:6303-6316) -/
def flatEnd (i : Nat) (s : DegSt) (b : Int) (conn : List Int) (c' : Cell) (flat : Bool) : M DegSt :=
  if flat then do
    let connI ← wr s.connI ((i : Int) + 1 - (s.del.length + 1 : Nat)) s.newPos
    .ok { s with conn := conn, connI := connI, pos := b, del := s.del ++ [(i : Int)] }
  else do
    let conn ← wr conn s.newPos c'.type
    let connI ← wr s.connI ((i : Int) + 1 - (s.del.length : Nat)) (s.newPos + c'.nodes.length + 1)
    .ok { s with conn := conn, connI := connI, pos := b, newPos := s.newPos + c'.nodes.length + 1 }

/-- The body of the loop of `convertDegeneratedCellsAndRemoveFlatOnes` (MEDCouplingUMesh.cxx:6294-6317) -/
def flatStep (i : Nat) (s : DegSt) : M DegSt := do
  let b ← rd s.connI ((i : Int) + 1)
  let c ← readWindow s.conn s.pos b
  let c' ← simplifyCell c
  let conn ← putAt s.conn (s.newPos + 1) c'.nodes
  let flat ← isFlatCell conn s.newPos c'.nodes.length c'.type
  flatEnd i s b conn c' flat

/-- `reAlloc(newPos)` of the connectivity, then `computeTypes` -/
def UMesh.endDeg (u : UMesh) (conn connI : List Int) (newPos : Int) : M UMesh := do
  let ts ← computeTypes (conn.take newPos.toNat) connI
  .ok { u with arrays := some (conn.take newPos.toNat, connI), types := ts }

/-- `convertDegeneratedCells` (MEDCouplingUMesh.cxx:6233-6266) -/
def UMesh.convertDegeneratedCells (u : UMesh) : M UMesh :=
  match u.nbNodes, u.arrays with
  | some _, some (conn, connI) =>
    if u.dim ≤ 1 then throwX
    else if connI.length - 1 < 1 then .ok u
    else do
      let s ← loop (connI.length - 1) { conn := conn, connI := connI : DegSt } (degStep simplifyCell)
      u.endDeg s.conn s.connI s.newPos
  | _, _ => throwX

/-- `convertDegeneratedCellsAndRemoveFlatOnes` (MEDCouplingUMesh.cxx:6276-6325) -/
def UMesh.convertDegeneratedAndRemoveFlat (u : UMesh) : M (UMesh × List Int) :=
  match u.nbNodes, u.arrays with
  | some _, some (conn, connI) =>
    if u.dim ≤ 1 then throwX
    else if connI.length - 1 < 1 then .ok (u, [])
    else do
      let s ← loop (connI.length - 1) { conn := conn, connI := connI : DegSt } flatStep
      let u' ← u.endDeg s.conn (s.connI.take (connI.length - s.del.length)) s.newPos
      .ok (u', s.del)
  | _, _ => throwX

/-- `unPolyze` (MEDCouplingUMesh.cxx:1583-1663): the types are computed again if a type has changed -/
def UMesh.unPolyze (u : UMesh) : M (UMesh × Bool) :=
  match u.nbNodes, u.arrays with
  | some _, some (conn, connI) =>
    if u.dim < 0 then throwX
    else if u.dim ≤ 1 then .ok (u, false)
    else if connI.length - 1 < 1 then .ok (u, false)
    else do
      let s ← loop (connI.length - 1) { conn := conn, connI := connI : DegSt } (degStep unPolyCell)
      if s.chg then do
        let u' ← u.endDeg s.conn s.connI s.newPos
        .ok (u', true)
      else .ok ({ u with arrays := some (s.conn.take s.newPos.toNat, s.connI) }, false)
  | _, _ => throwX

/-- The first loop of `removeDegenerated1DCells` (MEDCouplingUMesh.cxx:6340-6361): is the segment kept -/
def keepsSeg (c : Cell) : M Bool :=
  if c.type = 1 ∨ c.type = 2 then do
    let a ← rd c.nodes 0
    let b ← rd c.nodes 1
    .ok (decide (a ≠ b))
  else throwX

/-- `removeDegenerated1DCells` (MEDCouplingUMesh.cxx:6331-6379).  The two loops make the same test; the second one writes the cells. -/
def UMesh.removeDegenerated1DCells (u : UMesh) : M (UMesh × Bool) :=
  match u.arrays with
  | some (conn, connI) =>
    if u.dim ≠ 1 then throwX
    else do
      let n ← forCells conn connI (0 : Nat) fun _ c n => do
        let k ← keepsSeg c
        .ok (if k then n + 1 else n)
      if n = connI.length - 1 then .ok (u, false)
      else do
        let s ← forCells conn connI (([], [0]) : List Int × List Int) fun _ c s => do
          let k ← keepsSeg c
          .ok (if k then (s.1 ++ c.row, s.2 ++ [s.2.getLastD 0 + c.row.length]) else s)
        let ts ← computeTypes s.1 s.2
        .ok ({ u with arrays := some s, types := ts }, true)
  | none => throwX

end MC
