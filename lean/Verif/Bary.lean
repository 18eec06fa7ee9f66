import Verif.Measure
import Mathlib.Data.List.Sort

/-!
# Centers of mass of cells (`VolSurfFormulae.hxx`, `VolSurfUser.txx`, `computeCellCenterOfMass`)

Same conventions as in `Measure.lean`.  `tiny` is `std::numeric_limits<double>::min()` and `eps` is `1e-12`.  The division by
zero, which gives a value that is not a number in the code, gives 0 in a field: the theorems exclude it.
-/

namespace MC

section
variable {K : Type} [Field K]

/-- Sum over the edges of a polygon of `g` (point, next point), the loops `(i + 1) % lgth` -/
def edgeSum (g : (Nat → K) → (Nat → K) → K) (ps : List (Nat → K)) : K :=
  ((List.range ps.length).map fun i => g (ptRk ps i) (ptRk ps ((i + 1) % ps.length))).sum

/-- `computePolygonBarycenter2DEngine` (VolSurfFormulae.hxx:823-838) -/
def baryPolyg2 (ps : List (Nat → K)) : Nat → K := fun k =>
  edgeSum (fun a b => (a 0 * b 1 - a 1 * b 0) * (a k + b k)) ps / (3 * edgeSum (fun a b => a 0 * b 1 - a 1 * b 0) ps)

/-- Norm of a vector of the space -/
def norm3 (sqrtF : K → K) (a : Nat → K) : K := sqrtF (a 0 * a 0 + a 1 * a 1 + a 2 * a 2)

/-- `integrationOverA3DLine` (VolSurfFormulae.hxx:589-598) -/
def line3D (u1 v1 u2 v2 A B C : K) : K :=
  (u1 - u2) *
    (6 * C * C * (v1 + v2) + B * B * (v1 * v1 * v1 + v1 * v1 * v2 + v1 * v2 * v2 + v2 * v2 * v2) +
      A * A * (2 * u1 * u2 * (v1 + v2) + u1 * u1 * (3 * v1 + v2) + u2 * u2 * (v1 + 3 * v2)) +
      4 * C * (A * (2 * u1 * v1 + u2 * v1 + u1 * v2 + 2 * u2 * v2) + B * (v1 * v1 + v1 * v2 + v2 * v2)) +
      A * B * (u1 * (3 * v1 * v1 + 2 * v1 * v2 + v2 * v2) + u2 * (v1 * v1 + 2 * v1 * v2 + 3 * v2 * v2))) / 24

/-- The three integrals over one edge, times the normal (VolSurfFormulae.hxx:652-667); `u0`, `u1`, `s`, `c` define the
rotation (636-651) and `w` is the height of the plane of the face -/
def edgeMoment (n : Nat → K) (u0 u1 s c w : K) (p1 p2 : Nat → K) (k : Nat) : K :=
  let A := u0 * u0 * (1 - c) + c
  let B := u0 * u1 * (1 - c)
  let D := u1 * s
  let F := B
  let G := u1 * u1 * (1 - c) + c
  let H := -u0 * s
  let L := -u1 * s
  let M := u0 * s
  let N := c
  let CX := -w * D
  let CY := -w * H
  let CZ := -w * N
  let a1 := A * p1 0 + B * p1 1 + D * p1 2
  let a2 := A * p2 0 + B * p2 1 + D * p2 2
  let b1 := F * p1 0 + G * p1 1 + H * p1 2
  let b2 := F * p2 0 + G * p2 1 + H * p2 2
  if k = 0 then line3D a1 b1 a2 b2 A B CX * n 0
  else if k = 1 then line3D a1 b1 a2 b2 F G CY * n 1
  else line3D a1 b1 a2 b2 L M CZ * n 2

end

section
variable {K : Type} [Field K] [LinearOrder K]

/-- One turn of the loop on the triangles (VolSurfFormulae.hxx:503-531) -/
def fanTerm (sqrtF : K → K) (eps : K) (area : Nat → K) (norm : K) (p0 p1 p2 : Nat → K) (k : Nat) : K :=
  let t := areaVector [p0, p1, p2]
  let n2 := norm3 sqrtF t
  if eps < n2 then
    (area 0 / norm * (t 0 / n2) + area 1 / norm * (t 1 / n2) + area 2 / norm * (t 2 / n2)) * n2 *
      ((p0 k + p1 k + p2 k) / 3) / norm
  else 0

/-- `computePolygonBarycenter3D` (VolSurfFormulae.hxx:488-587) -/
def baryPolyg3 (sqrtF : K → K) (tiny eps : K) (ps : List (Nat → K)) : M (Nat → K) :=
  let area := areaVector ps
  let norm := norm3 sqrtF area
  if tiny < norm then
    .ok fun k => ((List.range (ps.length - 2)).map fun j =>
      fanTerm sqrtF eps area norm (ptRk ps 0) (ptRk ps (j + 1)) (ptRk ps (j + 2)) k).sum
  else if ps.length < 1 then throwX
  else
    let lg : (Nat → K) → (Nat → K) → K := fun a b => norm3 sqrtF fun k => b k - a k
    let per := edgeSum lg ps
    if tiny < per then .ok fun k => edgeSum (fun a b => (b k + a k) / 2 * lg a b) ps / per
    else .ok fun k => (ps.map fun p => p k).sum / (ps.length : K)

/-- What one face adds to the three sums (VolSurfFormulae.hxx:613-667); `nn` is the norm of its area vector. -/
def faceMoment (sqrtF : K → K) (eps : K) (ps : List (Nat → K)) (nn : K) (k : Nat) : K :=
  let n : Nat → K := fun k => areaVector ps k / nn
  let u0 := n 1
  let u1 := -n 0
  let s := sqrtF (u0 * u0 + u1 * u1)
  let c := n 2
  let w := n 0 * ptRk ps 0 0 + n 1 * ptRk ps 0 1 + n 2 * ptRk ps 0 2
  if eps < |s| then edgeSum (fun a b => edgeMoment n (u0 / |s|) (u1 / |s|) s c w a b k) ps
  else edgeSum (fun a b => edgeMoment n 1 0 s c w a b k) ps

/-- The loop on the faces (VolSurfFormulae.hxx:608-669).  After `continue` the next turn is on the same face. -/
def momentLoop (sqrtF : K → K) (tiny eps : K) (coords : List (List K)) : Nat → List Int → (Nat → K) → M (Nat → K)
  | 0, _, res => .ok res
  | n + 1, work, res => do
    let f ← nextFace work
    let ps ← nodePts coords f.1 f.1.length
    let nn := norm3 sqrtF (areaVector ps)
    if nn < tiny then momentLoop sqrtF tiny eps coords n work res
    else momentLoop sqrtF tiny eps coords n f.2 fun k => res k + faceMoment sqrtF eps ps nn k

/-- The loop on the faces of a polyhedron without volume (VolSurfFormulae.hxx:679-703) -/
def flatLoop (sqrtF : K → K) (tiny eps : K) (coords : List (List K)) :
    Nat → List Int → K → (Nat → K) → M (K × (Nat → K))
  | 0, _, sum, res => .ok (sum, res)
  | n + 1, work, sum, res => do
    let f ← nextFace work
    let ps ← nodePts coords f.1 f.1.length
    let nn := norm3 sqrtF (areaVector ps)
    if nn < tiny then flatLoop sqrtF tiny eps coords n work sum res
    else do
      let b ← baryPolyg3 sqrtF tiny eps ps
      flatLoop sqrtF tiny eps coords n f.2 (sum + nn) fun k => res k + nn * b k

/-- `barycenterOfPolyhedron` (VolSurfFormulae.hxx:600-705) -/
def baryPolyh (sqrtF : K → K) (tiny eps : K) (coords : List (List K)) (conn : List Int) : M (Nat → K) := do
  let n := conn.count (-1) + 1
  let res ← momentLoop sqrtF tiny eps coords n conn fun _ => 0
  let vol ← volPolyh coords conn
  if tiny < |vol| then .ok fun k => res k / vol
  else do
    let r ← flatLoop sqrtF tiny eps coords n conn 0 fun _ => 0
    .ok fun k => r.2 k / r.1

/-- `conn` of HEXA8 (VolSurfUser.txx:470-503) -/
def hexa8BaryFaces : List Int :=
  [0, 1, 2, 3, -1, 4, 7, 6, 5, -1, 0, 3, 7, 4, -1, 3, 2, 6, 7, -1, 2, 1, 5, 6, -1, 0, 4, 5, 1]

/-- `conn` of PENTA6 (VolSurfUser.txx:506-532) -/
def penta6BaryFaces : List Int := [0, 1, 2, -1, 3, 5, 4, -1, 0, 2, 5, 3, -1, 2, 1, 4, 5, -1, 1, 0, 3, 4]

/-- The nodes of the cell in the place of the ranks -/
def ranksToConn (ranks nodes : List Int) : M (List Int) := ranks.mapM fun r => if r = -1 then .ok (-1) else rd nodes r

/-- What depends on arcs of circle: the centers of a SEG3 and of a quadratic polygon of the plane -/
structure BaryArcs (K : Type) where
  seg : List (Nat → K) → Nat → K
  polyg : List (Nat → K) → Nat → K

/-- Mean of points, `std::plus` then `std::multiplies` (VolSurfUser.txx:288-304, 347-372, 442-460) -/
def meanPts (ps : List (Nat → K)) : Nat → K := fun k => (ps.map fun p => p k).sum / (ps.length : K)

/-- `computeBarycenter2` and `computeBarycenter` (VolSurfUser.txx:283-608).  Cells of dimension 3 out of the space are not
modelled: they read coordinates of other nodes, or past the end. -/
def cellBaryF (arcs : BaryArcs K) (sqrtF : K → K) (tiny eps : K) (sd : Nat) (coords : List (List K)) (t : Int)
    (nodes : List Int) : M (Nat → K) :=
  if ¬ (sd = 1 ∨ sd = 2 ∨ sd = 3) then throwX
  else if t = 1 ∨ t = 10 then do
    let ps ← nodePts coords nodes 2
    .ok (meanPts ps)
  else if t = 2 then
    if sd = 2 then do
      let ps ← nodePts coords nodes 3
      .ok (arcs.seg ps)
    else do
      let ps ← nodePts coords nodes 2
      .ok (meanPts ps)
  else if t = 3 ∨ t = 7 then do
    let ps ← nodePts coords nodes 3
    .ok (meanPts ps)
  else if t = 6 then
    if sd = 2 then do
      let ps ← nodePts coords nodes 6
      .ok (arcs.polyg ps)
    else if sd = 3 then do
      let ps ← nodePts coords nodes (nodes.length / 2)
      baryPolyg3 sqrtF tiny eps ps
    else throwX
  else if t = 4 ∨ t = 5 then
    if sd = 2 then do
      let ps ← nodePts coords nodes nodes.length
      .ok (baryPolyg2 ps)
    else if sd = 3 then do
      let ps ← nodePts coords nodes nodes.length
      baryPolyg3 sqrtF tiny eps ps
    else throwX
  else if t = 8 then
    if sd = 2 then do
      let ps ← nodePts coords nodes 8
      .ok (arcs.polyg ps)
    else if sd = 3 then do
      let ps ← nodePts coords nodes (nodes.length / 2)
      baryPolyg3 sqrtF tiny eps ps
    else throwX
  else if t = 32 then
    if sd = 2 then do
      let ps ← nodePts coords nodes nodes.length
      if nodes.length % 2 = 0 then .ok (arcs.polyg ps) else throwX
    else if sd = 3 then do
      let ps ← nodePts coords nodes (nodes.length / 2)
      baryPolyg3 sqrtF tiny eps ps
    else throwX
  else if t ∈ ([14, 15, 18, 16, 22, 31] : List Int) then
    if sd ≠ 3 then undef
    else if t = 14 then do
      let ps ← nodePts coords nodes 4
      .ok (meanPts ps)
    else if t = 15 then do
      let ps ← nodePts coords nodes (nodes.length - 1)
      let b ← baryPolyg3 sqrtF tiny eps ps
      let c ← rd nodes 4
      let p ← nodePt coords c
      .ok fun k => (p k + 3 * b k) / 4
    else if t = 18 then do
      let c ← ranksToConn hexa8BaryFaces nodes
      baryPolyh sqrtF tiny eps coords c
    else if t = 16 then do
      let c ← ranksToConn penta6BaryFaces nodes
      baryPolyh sqrtF tiny eps coords c
    else if t = 22 then do
      let c ← hexgp12Conn nodes
      baryPolyh sqrtF tiny eps coords c
    else baryPolyh sqrtF tiny eps coords nodes
  else throwX

/-- The tuple written in the array of the results -/
def cellBary (arcs : BaryArcs K) (sqrtF : K → K) (tiny eps : K) (sd : Nat) (coords : List (List K)) (t : Int)
    (nodes : List Int) : M (List K) := do
  let f ← cellBaryF arcs sqrtF tiny eps sd coords t nodes
  .ok ((List.range sd).map f)

/-- `MEDCouplingUMesh::computeCellCenterOfMass` (MEDCouplingUMesh.cxx:8311-8332) -/
def centersOfMass (arcs : BaryArcs K) (sqrtF : K → K) (tiny eps : K) (sd : Nat) (coords : List (List K))
    (conn connI : List Int) : M (List (List K)) :=
  forCells conn connI [] fun _ c out => do
    let v ← cellBary arcs sqrtF tiny eps sd coords c.type c.nodes
    .ok (out ++ [v])

/-- `MEDCouplingUMesh::getPartBarycenterAndOwner` (MEDCouplingUMesh.cxx:8476-8498) -/
def partCenters (arcs : BaryArcs K) (sqrtF : K → K) (tiny eps : K) (sd : Nat) (coords : List (List K))
    (conn connI : List Int) (ids : List Int) : M (List (List K)) :=
  ids.mapM fun i => do
    let c ← rdCell conn connI i
    cellBary arcs sqrtF tiny eps sd coords c.type c.nodes

/-- The sum of the points of nodes, with the test of the ids (MEDCouplingUMesh.cxx:8386-8403, 8424-8437) -/
def nodesSum (sd : Nat) (coords : List (List K)) : List Int → List K → M (List K)
  | [], acc => .ok acc
  | n :: l, acc =>
    if 0 ≤ n ∧ n < coords.length then do
      let p ← nodePt coords n
      nodesSum sd coords l ((List.range sd).map fun k => p k + acc.getD k 0)
    else throwX

/-- The nodes of the cell which are summed: `std::set` for polyhedra (MEDCouplingUMesh.cxx:8384, 8422-8423) -/
def isoNodes (c : Cell) : List Int :=
  if c.type ≠ 31 then c.nodes else ((c.nodes.insertionSort (· ≤ ·)).dedup).filter (· ≠ -1)

/-- One cell of `computeIsoBarycenterOfNodesPerCell` (MEDCouplingUMesh.cxx:8380-8453) -/
def isoBary (sd : Nat) (coords : List (List K)) (c : Cell) : M (List K) := do
  let s ← nodesSum sd coords (isoNodes c) (List.replicate sd 0)
  if 0 < (isoNodes c).length then .ok (s.map fun x => x * (1 / ((isoNodes c).length : K))) else throwX

/-- `MEDCouplingUMesh::computeIsoBarycenterOfNodesPerCell` (MEDCouplingUMesh.cxx:8367-8455) -/
def isoBarys (sd : Nat) (coords : List (List K)) (conn connI : List Int) : M (List (List K)) :=
  forCells conn connI [] fun _ c out => do
    let v ← isoBary sd coords c
    .ok (out ++ [v])

end

end MC
