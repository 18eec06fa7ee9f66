import Verif.MeshDist
import Verif.BBTree

/-!
# Location of points in the cells of a mesh (`getCellsContainingPoints`, `PointLocatorAlgos`)

The numbers are the elements of an ordered field `K`; `sqrtF` is `std::sqrt` and `big` is `std::numeric_limits<double>::max()`.
A division by zero gives a NaN or an infinite value in C++ and zero here.  Every comparison with the NaN is false, so that the sign of the face is 0 in both cases.
-/

namespace MC
section
variable {K : Type} [Field K] [LinearOrder K] [IsStrictOrderedRing K]

/-- `mon_determinant` (INTERP_KERNEL/InterpolationUtils.hxx:87-92) -/
def monDet (p1 p2 p3 : V2 K) : K := (p1.x - p3.x) * (p2.y - p3.y) - (p2.x - p3.x) * (p1.y - p3.y)

/-- the sign of a number up to `eps` (PointLocatorAlgos.txx:138-143, 286-291) -/
def ptSign (eps a : K) : Int := if a < -eps then -1 else if a > eps then 1 else 0

/-- `decideFromSign` (PointLocatorAlgos.txx:363-373) -/
def decideFromSign (sign : List Int) : Bool :=
  let s := sign.foldl (fun (s : Int × Int) v => (if v < s.1 then v else s.1, if v > s.2 then v else s.2)) (1, -1)
  decide (s.1 ≠ -1 ∨ s.2 ≠ 1)

/-- `isElementContainsPointAlg2DSimple` (PointLocatorAlgos.txx:117-147) -/
def contains2DSimple (pt : V2 K) (pts : List (V2 K)) (nbEdges : Nat) (eps : K) : M Bool := do
  let sign ← (List.range nbEdges).mapM fun (i : Nat) => do
    let a ← rd pts (i : Int)
    let b ← rd pts (((i + 1) % nbEdges : Nat) : Int)
    .ok (ptSign eps (monDet pt a b))
  .ok (decideFromSign sign)

/-- the point `coords + 2 * n` -/
def rdV2 (coords : List K) (n : Int) : M (V2 K) := do
  let x ← rd coords (2 * n)
  let y ← rd coords (2 * n + 1)
  .ok ⟨x, y⟩

/-- `isElementContainsPointAlgo2DSimple2` (PointLocatorAlgos.txx:150-180).  The nodes are read in the window of the cell only. -/
def contains2DSimple2 (coords pt : List K) (eps : K) (c : Cell) : M Bool := do
  let cm ← getCellModel c.type
  let p ← rdV2 pt 0
  let pts ← (List.range cm.nbSons).mapM fun (i : Nat) => do
    let n ← rd c.nodes (i : Int)
    rdV2 coords n
  contains2DSimple p pts cm.nbSons eps

/-- `cross` (INTERP_KERNEL/VectorUtils.hxx:115-121) -/
def crossV (a b : V3 K) : V3 K := ⟨a.y * b.z - a.z * b.y, a.z * b.x - a.x * b.z, a.x * b.y - a.y * b.x⟩

/-- all the coordinates of a vector divided by a number -/
def divV (a : V3 K) (s : K) : V3 K := ⟨a.x / s, a.y / s, a.z / s⟩

/-- `isColinear3DPtsRelative` (VectorUtils.hxx:181-200), with `epsilonEqual` (157-162) -/
def isColinear3DRel (sqrtF : K → K) (p1 p2 p3 : V3 K) (eps : K) : Bool :=
  let vec1 := sub3 p2 p1
  let vec2 := sub3 p3 p2
  let v1 := sqrtF (dot3 vec1 vec1)
  let v2 := sqrtF (dot3 vec2 vec2)
  if min v1 v2 < eps then true
  else
    let ref := max v1 v2
    let c := crossV (divV vec1 ref) (divV vec2 ref)
    if 0 < dot3 c c then decide (dot3 c c - 0 < eps) else decide (0 - dot3 c c < eps)

/-- the search of three nodes of one face which are not on a line (PointLocatorAlgos.txx:243-272).  The first argument is `nb_face_nodes - i_permutation`. -/
def pickFace (sqrtF : K → K) (coords : List K) (isPoly : Bool) (eps : K) (face : List Int) : Nat → M (V3 K × V3 K × V3 K)
  | 0 => do
    if face.length = 0 then undef else
    let a ← rd face (((0 + face.length) % face.length : Nat) : Int)
    let b ← rd face (((1 + face.length) % face.length : Nat) : Int)
    let c ← rd face (((2 + face.length) % face.length : Nat) : Int)
    let pa ← rdV3 coords a
    let pb ← rdV3 coords b
    let pc ← rdV3 coords c
    .ok (pa, pb, pc)
  | k + 1 => do
    let i := face.length - (k + 1)
    let a ← rd face (((0 + i) % face.length : Nat) : Int)
    let b ← rd face (((1 + i) % face.length : Nat) : Int)
    let c ← rd face (((2 + i) % face.length : Nat) : Int)
    let pa ← rdV3 coords a
    let pb ← rdV3 coords b
    let pc ← rdV3 coords c
    if isPoly && isColinear3DRel sqrtF pa pb pc eps then pickFace sqrtF coords isPoly eps face k
    else .ok (pa, pb, pc)

/-- the bounds along one axis in `NormalizeTetrahedrizedPolyhedron` (InterpolationUtils.hxx:1432-1448) -/
def axisMinMax (big : K) (l : List K) : K × K := l.foldl (fun s x => (min s.1 x, max s.2 x)) (big, -big)

/-- `NormalizeTetrahedrizedPolyhedron` (InterpolationUtils.hxx:1427-1465): the center and the normalization factor.  The points are normalized by `normPt`. -/
def normalizeBox (big : K) (pts : List (V3 K)) : V3 K × K :=
  let mx := axisMinMax big (pts.map fun p => p.x)
  let my := axisMinMax big (pts.map fun p => p.y)
  let mz := axisMinMax big (pts.map fun p => p.z)
  (⟨(mx.1 + mx.2) / 2, (my.1 + my.2) / 2, (mz.1 + mz.2) / 2⟩, max (mz.2 - mz.1) (max (my.2 - my.1) (max (mx.2 - mx.1) 0)))

/-- one point normalized (InterpolationUtils.hxx:1455-1463, PointLocatorAlgos.txx:275-279) -/
def normPt (c : V3 K) (f : K) (p : V3 K) : V3 K := divV (sub3 p c) f

/-- `TripleProduct` (InterpolationUtils.hxx:1472-1487) -/
def tripleProduct (sqrtF : K → K) (a b c x : V3 K) : K :=
  let n := crossV (sub3 a x) (sub3 b x)
  dot3 n (sub3 c x) / sqrtF (dot3 n n)

/-- `isElementContainsPointAlg3D` (PointLocatorAlgos.txx:222-296) -/
def contains3D (sqrtF : K → K) (big : K) (coords pt : List K) (eps : K) (c : Cell) : M Bool := do
  let cm ← getCellModel c.type
  let p ← rdV3 pt 0
  let sons ← cm.allSons c.nodes
  let faces ← sons.mapM fun s => pickFace sqrtF coords (decide (cm.code = 31)) eps s.2 s.2.length
  let nb := normalizeBox big (faces.flatMap fun f => [f.1, f.2.1, f.2.2])
  .ok (decideFromSign (faces.map fun f =>
    ptSign eps (tripleProduct sqrtF (normPt nb.1 nb.2 f.2.1) (normPt nb.1 nb.2 f.2.2) (normPt nb.1 nb.2 p) (normPt nb.1 nb.2 f.1))))

/-- `isElementContainsPoint` in dimension 1 (PointLocatorAlgos.txx:334-341) -/
def contains1D (coords pt : List K) (eps : K) (c : Cell) : M Bool := do
  let n1 ← rd c.nodes 0
  let n2 ← rd c.nodes 1
  let p1 ← rd coords n1
  let p2 ← rd coords n2
  let x ← rd pt 0
  let delta := |p1 - p2| + eps
  let val := x - min p1 p2
  .ok (decide (val > -eps ∧ val < delta))

/-- the test of one candidate cell in `getCellsContainingPointsAlg` (MEDCoupling/MEDCouplingUMesh_internal.hxx:194-213), with `isElementContainsPoint` (PointLocatorAlgos.txx:302-344).
The test of the polygons of the plane, and of the quadratic cells of the plane (`isElementContainsPointAlgo2DPolygon`), is the parameter `polyIn`. -/
def cellContains (spaceDim : Nat) (sqrtF : K → K) (big : K) (polyIn : List K → K → Cell → M Bool) (coords pt : List K) (eps : K) (c : Cell) : M Bool := do
  let cm ← getCellModel c.type
  if spaceDim = 2 then
    if c.type ≠ 5 ∧ cm.quad = false then contains2DSimple2 coords pt eps c
    else polyIn pt eps c
  else if c.type = 5 then throwX
  else if spaceDim = 3 then contains3D sqrtF big coords pt eps c
  else if spaceDim = 1 then contains1D coords pt eps c
  else throwX

/-- the loop over the candidate cells for one point (MEDCouplingUMesh_internal.hxx:191-218).  The state is the array `elts`. -/
def locateOne (spaceDim : Nat) (conn connI : List Int) (bbs : List K) (eps : K) (t : BT K) (test : List K → Cell → M Bool) (pt : List K) (elts : List Nat) : M (List Nat) := do
  let bb ← (List.range spaceDim).mapM fun (j : Nat) => rd pt (j : Int)
  let candidates ← getIntersectingElems spaceDim bbs (-eps) t (bb.flatMap fun x => [x, x]) []
  candidates.foldlM (fun elts (i : Nat) => do
    let c ← rdCell conn connI i
    let status ← test pt c
    if status then .ok (elts ++ [i]) else .ok elts) elts

/-- `getCellsContainingPoints` (MEDCouplingUMesh.cxx:5394-5500) with `getCellsContainingPointsAlg` (MEDCouplingUMesh_internal.hxx:155-219): the arrays `elts` and `eltsIndex`.
`pts` holds the tuples of the points.  In dimension 2 the mesh has no quadratic cell, so that the boxes are those of `getBoundingBoxForBBTreeFast`; `getCellsContainingPointsLinearPartOnlyOnNonDynType` is the same on these meshes. -/
def getCellsContainingPoints (meshDim : Int) (spaceDim : Nat) (coords : List K) (conn connI : List Int) (sqrtF : K → K) (big : K) (polyIn : List K → K → Cell → M Bool)
    (eps : K) (pts : List (List K)) : M (List Nat × List Nat) :=
  if ¬ ((spaceDim = 3 ∧ meshDim = 3) ∨ (spaceDim = 2 ∧ meshDim = 2) ∨ (spaceDim = 1 ∧ meshDim = 1)) then throwX
  else do
    let bbs ← boundingBoxFast spaceDim coords big conn connI
    let t ← bbTree spaceDim bbs none (connI.length - 1) (-eps) big
    pts.foldlM (fun (s : List Nat × List Nat) pt => do
      let elts ← locateOne spaceDim conn connI bbs eps t (fun pt c => cellContains spaceDim sqrtF big polyIn coords pt eps c) pt s.1
      .ok (elts, s.2 ++ [elts.length])) ([], [0])

/-- `getCellsContainingPoint` (MEDCouplingUMesh.cxx:5385-5392) -/
def getCellsContainingPoint (meshDim : Int) (spaceDim : Nat) (coords : List K) (conn connI : List Int) (sqrtF : K → K) (big : K) (polyIn : List K → K → Cell → M Bool)
    (eps : K) (pt : List K) : M (List Nat) := do
  let r ← getCellsContainingPoints meshDim spaceDim coords conn connI sqrtF big polyIn eps [pt]
  .ok r.1

/-- `getCellContainingPoint` (MEDCouplingUMesh.cxx:5353-5361) -/
def getCellContainingPoint (meshDim : Int) (spaceDim : Nat) (coords : List K) (conn connI : List Int) (sqrtF : K → K) (big : K) (polyIn : List K → K → Cell → M Bool)
    (eps : K) (pt : List K) : M Int := do
  let elts ← getCellsContainingPoint meshDim spaceDim coords conn connI sqrtF big polyIn eps pt
  .ok (match elts with
    | [] => -1
    | e :: _ => (e : Int))

end
end MC
