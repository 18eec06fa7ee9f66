import Verif.PtDist
import Verif.BBTreeClosest
import Verif.UMesh

/-!
# Bounding boxes of the cells and distance from points to a mesh (`getBoundingBoxForBBTree`, `distanceToPoints`)

The numbers are the elements of an ordered field `K`; `big` is `std::numeric_limits<double>::max()`.
-/

namespace MC
section
variable {K : Type} [Field K] [LinearOrder K] [IsStrictOrderedRing K]

/-- the coordinates `coords[dim * n + k]` of node `n` -/
def rdNode (dim : Nat) (coords : List K) (n : Int) : M (List K) :=
  (List.range dim).mapM fun (k : Nat) => rd coords ((dim : Int) * n + k)

/-- body of the loop over the nodes of one cell in `getBoundingBoxForBBTreeFast` (MEDCoupling/MEDCouplingUMesh.cxx:7184-7198): the `2 * spaceDim` bounds of the cell and the counter `kk` -/
def cellBox (dim : Nat) (coords : List K) (big : K) (nodes : List Int) : M (List (K × K) × Nat) :=
  nodes.foldlM (fun s n =>
    if 0 ≤ n ∧ n < ((coords.length / dim : Nat) : Int) then do
      let p ← rdNode dim coords n
      .ok (boxAdd s.1 (p.map fun x => (x, x)), s.2 + 1)
    else .ok s) (List.replicate dim (big, -big), 0)

/-- `getBoundingBoxForBBTreeFast` (MEDCouplingUMesh.cxx:7165-7207), also the result of `getBoundingBoxForBBTree` on meshes without quadratic cells (7126-7152).  The bounds of cell `i` are only written by the turn `i` of the loop, so that they are appended instead of being written in place. -/
def boundingBoxFast (dim : Nat) (coords : List K) (big : K) (conn connI : List Int) : M (List K) :=
  forCells conn connI [] fun _ c out => do
    let s ← cellBox dim coords big c.nodes
    if s.2 = 0 then throwX else .ok (out ++ s.1.flatMap fun b => [b.1, b.2])

/-- the distance of one cell in `DistanceToPoint2DCurveAlg` (MEDCouplingUMesh_internal.cxx:1866-1886).  The nodes are read in the window of the cell only. -/
def curveCellDist (sqrtF : K → K) (coords pt : List K) (c : Cell) : M K :=
  if c.type = 1 then do
    let n0 ← rd c.nodes 0
    let n1 ← rd c.nodes 1
    let x ← rd pt 0
    let y ← rd pt 1
    let x0 ← rd coords (2 * n0)
    let y0 ← rd coords (2 * n0 + 1)
    let x1 ← rd coords (2 * n1)
    let y1 ← rd coords (2 * n1 + 1)
    .ok (sqrtF (sqDistSeg2 sqrtF ⟨x, y⟩ ⟨x0, y0⟩ ⟨x1, y1⟩))
  else throwX

/-- the point `coords + 3 * n` -/
def rdV3 (coords : List K) (n : Int) : M (V3 K) := do
  let x ← rd coords (3 * n)
  let y ← rd coords (3 * n + 1)
  let z ← rd coords (3 * n + 2)
  .ok ⟨x, y, z⟩

/-- the distance of one cell in `DistanceToPoint3DSurfAlg` (MEDCouplingUMesh_internal.cxx:1799-1836).  The distance to a quadrangle or a polygon is a parameter. -/
def surfCellDist (sqrtF : K → K) (tiny : K) (polyDist : List K → List Int → M K) (coords pt : List K) (c : Cell) : M K :=
  if c.type = 3 then do
    let n0 ← rd c.nodes 0
    let n1 ← rd c.nodes 1
    let n2 ← rd c.nodes 2
    let p ← rdV3 pt 0
    let p0 ← rdV3 coords n0
    let p1 ← rdV3 coords n1
    let p2 ← rdV3 coords n2
    .ok (distTri3 sqrtF tiny p p0 p1 p2)
  else if c.type = 4 ∨ c.type = 5 then polyDist pt c.nodes
  else throwX

/-- the loop over the candidate cells in `DistanceToPoint2DCurveAlg` and `DistanceToPoint3DSurfAlg` (MEDCouplingUMesh_internal.cxx:1797-1838, 1862-1888).  The state is `(ret0, cellId)`. -/
def closestCell (conn connI : List Int) (big : K) (cellDist : Cell → M K) (elems : List Nat) : M (K × Int) :=
  elems.foldlM (fun s (c : Nat) => do
    let cell ← rdCell conn connI c
    let tmp ← cellDist cell
    if tmp < s.1 then .ok (tmp, (c : Int)) else .ok s) (big, -1)

/-- one turn of the loop over the points in `distanceToPoints` (MEDCouplingUMesh.cxx:5300-5308, 5317-5325).  `&elems[0]` is not defined when `elems` is empty. -/
def distanceToOnePoint (dim : Nat) (conn connI : List Int) (bbs : List K) (sqrtF : K → K) (big : K) (t : BT K) (cellDist : List K → Cell → M K) (pt : List K) : M (K × Int) := do
  let x ← dstMinOfMax dim bbs sqrtF big pt t big
  let elems ← dstElems dim bbs sqrtF big t pt x []
  if elems = [] then undef else closestCell conn connI big (cellDist pt) elems

/-- `distanceToPoints` (MEDCouplingUMesh.cxx:5253-5330).  `pts` holds the tuples of the array of points and `nbComp` is its number of components; the mesh has no quadratic cell. -/
def distanceToPoints (meshDim : Int) (spaceDim : Nat) (coords : List K) (conn connI : List Int) (sqrtF : K → K) (tiny big : K) (polyDist : List K → List Int → M K)
    (nbComp : Nat) (pts : List (List K)) : M (List (K × Int)) :=
  if meshDim ≠ spaceDim - 1 then throwX
  else if meshDim ≠ 2 ∧ meshDim ≠ 1 then throwX
  else if nbComp ≠ spaceDim then throwX
  else if connI.length - 1 = 0 then throwX
  else do
    let bbs ← boundingBoxFast spaceDim coords big conn connI
    let t ← bbTreeDst spaceDim bbs none (connI.length - 1) big
    pts.mapM (distanceToOnePoint spaceDim conn connI bbs sqrtF big t
      (if spaceDim = 3 then surfCellDist sqrtF tiny polyDist coords else curveCellDist sqrtF coords))

end
end MC
