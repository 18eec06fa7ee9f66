import Verif.BBTree

/-!
# Search of the boxes closest to a point (BBTreeDst, BBTreeClosest, `candidatesClosestTo`)

The numbers are the elements of an ordered ring `K`, as in `Verif.BBTree`.  All the distances are squared, as in the code.
-/

namespace MC
section
variable {K : Type} [CommRing K] [LinearOrder K] [IsStrictOrderedRing K]

/-! ## Distances between a point and a box -/

/-- the `2 * dim` numbers of the box of element `e`, two per axis -/
def rdBox (dim : Nat) (bbs : List K) (e : Nat) : M (List (K × K)) :=
  (List.range dim).mapM fun d => do
    let lo ← bbLo dim bbs d e
    let hi ← bbHi dim bbs d e
    .ok (lo, hi)

/-- `DistInternal` (INTERP_KERNEL/InterpKernelBBoxDistance.txx:28-49): the smallest and largest squared distances along one axis -/
def distInternal (x lo hi : K) : K × K :=
  if x < lo then ((lo - x) * (lo - x), (hi - x) * (hi - x))
  else if x > hi then ((x - hi) * (x - hi), (x - lo) * (x - lo))
  else (0, max (hi - x) (x - lo) * max (hi - x) (x - lo))

/-- `HighLevelDistInternal<dim>` (InterpKernelBBoxDistance.txx:51-76): recursion on the axes; `dim` is at least 1 -/
def highLevelDist : List K → List (K × K) → M (K × K)
  | [x], [b] => .ok (distInternal x b.1 b.2)
  | x :: x' :: xs, b :: b' :: bs => do
    let r ← highLevelDist (x' :: xs) (b' :: bs)
    .ok ((distInternal x b.1 b.2).1 + r.1, (distInternal x b.1 b.2).2 + r.2)
  | _, _ => undef

/-- `BBDistInternal` (InterpKernelBBoxDistance.txx:78-85) -/
def bbDistInternal (loA hiA loB hiB : K) : K × K :=
  let xmin := max 0 (max (loB - hiA) (loA - hiB))
  let xmax := max |hiB - loA| |hiA - loB|
  (xmin * xmin, xmax * xmax)

/-- `HighLevelBBDistInternal<dim>` (InterpKernelBBoxDistance.txx:87-116) -/
def highLevelBBDist : List (K × K) → List (K × K) → M (K × K)
  | [a], [b] => .ok (bbDistInternal a.1 a.2 b.1 b.2)
  | a :: a' :: as, b :: b' :: bs => do
    let r ← highLevelBBDist (a' :: as) (b' :: bs)
    .ok ((bbDistInternal a.1 a.2 b.1 b.2).1 + r.1, (bbDistInternal a.1 a.2 b.1 b.2).2 + r.2)
  | _, _ => undef

/-! ## BBTreeDst -/

/-- `(0. < val) - (val < 0.)` (INTERP_KERNEL/BBTreeDst.txx:222-224) -/
def signC (v : K) : Int := (if 0 < v then 1 else 0) - (if v < 0 then 1 else 0)

/-- `GetMinDistanceFromBBoxToPt` (BBTreeDst.txx:213-236).  Only the first axis tells an empty box. -/
def dstMin (big : K) (pt : List K) (box : List (K × K)) : K :=
  if (box.headD (0, 0)).1 ≤ (box.headD (0, 0)).2 then
    (pt.zip box).foldl (fun res xb =>
      let val1 := xb.1 - xb.2.1
      let val2 := xb.1 - xb.2.2
      let pos := Int.tdiv (signC val1 + signC val2) 2
      if pos ≠ 0 then (let x := if pos = 1 then val2 else val1; res + x * x) else res) 0
  else big

/-- `GetMaxDistanceFromBBoxToPt` (BBTreeDst.txx:196-211) -/
def dstMax (big : K) (pt : List K) (box : List (K × K)) : K :=
  if (box.headD (0, 0)).1 ≤ (box.headD (0, 0)).2 then
    (pt.zip box).foldl (fun res xb =>
      let val1 := xb.1 - xb.2.1
      let val2 := xb.1 - xb.2.2
      let x := max |val1| |val2|
      res + x * x) 0
  else big

/-- one element added to a box: `min` with its lower bounds, `max` with its upper ones (BBTreeDst.txx:188-192; BBTreeClosest.txx:100-104) -/
def boxAdd (b b' : List (K × K)) : List (K × K) := List.zipWith (fun x y => (min x.1 y.1, max x.2 y.2)) b b'

/-- `fillBBoxTerminal` (BBTreeDst.txx:179-194) and `BBTreeBoundaryCompute` (BBTreeClosest.txx:88-106): the box of a list of elements -/
def boxOfElems (dim : Nat) (bbs : List K) (big : K) (es : List Nat) : M (List (K × K)) :=
  es.foldlM (fun b e => do
    let b' ← rdBox dim bbs e
    .ok (boxAdd b b')) (List.replicate dim (big, -big))

/-- `BBTreeDst(bbs, elems, 0, nbelems)` (BBTreeDst.txx:49-107).  The box `_terminal` of a leaf is computed by the searches from the elements
of the leaf instead of being stored. -/
def bbTreeDst (dim : Nat) (bbs : List K) (elems : Option (List Nat)) (nb : Nat) (big : K) : M (BT K) :=
  btBuild (fun level => bbLo dim bbs (level % dim)) (fun level => bbHi dim bbs (level % dim)) (fun v m => decide (v > m)) 0 big 22 0 (btElems elems nb)

/-- `_min_right - pt[_level % dim] > minOfMaxDsts` (BBTreeDst.txx:130, 163) -/
def dstOnlyLeft (dim : Nat) (pt : List K) (sqrtF : K → K) (thr : K) (level : Nat) (minRight : K) : M Bool := do
  let x ← rd pt ((level % dim : Nat) : Int)
  .ok (decide (minRight - x > sqrtF thr))

/-- `pt[_level % dim] - _max_left > minOfMaxDsts` (BBTreeDst.txx:135, 168) -/
def dstOnlyRight (dim : Nat) (pt : List K) (sqrtF : K → K) (thr : K) (level : Nat) (maxLeft : K) : M Bool := do
  let x ← rd pt ((level % dim : Nat) : Int)
  .ok (decide (x - maxLeft > sqrtF thr))

/-- `getElemsWhoseMinDistanceToPtSmallerThan` (BBTreeDst.txx:116-143) -/
def dstElems (dim : Nat) (bbs : List K) (sqrtF : K → K) (big : K) (t : BT K) (pt : List K) (thr : K) (elems : List Nat) : M (List Nat) :=
  btCollect (dstOnlyLeft dim pt sqrtF thr) (dstOnlyRight dim pt sqrtF thr) (fun e => do
    let b ← rdBox dim bbs e
    .ok (decide (dstMin big pt b < thr))) t elems

/-- `getMinDistanceOfMax` (BBTreeDst.txx:149-177) -/
def dstMinOfMax (dim : Nat) (bbs : List K) (sqrtF : K → K) (big : K) (pt : List K) : BT K → K → M K
  | .leaf es, cur => do
    let b ← boxOfElems dim bbs big es
    if dstMin big pt b > cur then .ok cur
    else es.foldlM (fun cur e => do
      let b ← rdBox dim bbs e
      .ok (min cur (dstMax big pt b))) cur
  | .node level maxLeft minRight l r, cur => do
    let a ← dstOnlyLeft dim pt sqrtF cur level minRight
    if a then dstMinOfMax dim bbs sqrtF big pt l cur
    else do
      let b ← dstOnlyRight dim pt sqrtF cur level maxLeft
      if b then dstMinOfMax dim bbs sqrtF big pt r cur
      else do
        let cur ← dstMinOfMax dim bbs sqrtF big pt l cur
        dstMinOfMax dim bbs sqrtF big pt r cur

/-! ## BBTreeClosest -/

/-- A tree: a terminal node with `_bbox`, `_elems`, `_min` and `_candidates`, or a node with `_bbox`, `_min` and its two sons (its own
`_candidates` stays empty). -/
inductive CT (K : Type) where
  | leaf (box : List (K × K)) (elems : List Nat) (mn : K) (cands : List (Nat × K))
  | node (box : List (K × K)) (mn : K) (l r : CT K)
deriving Repr, DecidableEq

/-- `_bbox` -/
def CT.box {K : Type} : CT K → List (K × K)
  | .leaf b _ _ _ => b
  | .node b _ _ _ => b

/-- `_min` -/
def CT.mn {K : Type} : CT K → K
  | .leaf _ _ m _ => m
  | .node _ m _ _ => m

/-- `SplitClosestForNotTerminal` with `FillClosestDataNotTerminal` (BBTreeClosest.txx:186-238).  `arrange keys` is the array of positions left
by `std::nth_element`; the keys are twice the middles of the boxes, which compare in the same way. -/
def splitClosest (dim : Nat) (bbs : List K) (arrange : List K → List Nat) (level : Nat) (elems : List Nat) : M (List Nat × List Nat) := do
  let keys ← elems.mapM fun e => do
    let lo ← bbLo dim bbs (level % dim) e
    let hi ← bbHi dim bbs (level % dim) e
    .ok (lo + hi)
  let es ← (arrange keys).mapM fun (i : Nat) => rd elems (i : Int)
  .ok (es.take (elems.length / 2), es.drop (elems.length / 2))

/-- The constructor `BBTreeClosest(bbs, elems, level, nbelems)` (BBTreeClosest.txx:242-270; the test of a terminal node is BBTree.txx:219-243
with the constants 15 and 12 of BBTreeClosest.txx:124).  `fuel` bounds the depth; the level stops the recursion before. -/
def ctBuild (dim : Nat) (bbs : List K) (arrange : List K → List Nat) (big : K) : (fuel level : Nat) → List Nat → M (CT K)
  | 0, _, _ => undef
  | fuel + 1, level, elems =>
    if elems.length < 15 ∨ level > 12 then do
      let b ← boxOfElems dim bbs big elems
      .ok (.leaf b elems (-big) [])
    else do
      let s ← splitClosest dim bbs arrange level elems
      let l ← ctBuild dim bbs arrange big fuel (level + 1) s.1
      let r ← ctBuild dim bbs arrange big fuel (level + 1) s.2
      .ok (.node (boxAdd l.box r.box) (-big) l r)

/-- `getMinOfMaxes` (BBTreeClosest.txx:386-401): the value and the tree with its `_min` updated -/
def getMinOfMaxes (pt : List K) : CT K → M (K × CT K)
  | .leaf b es _ cands => do
    let r ← highLevelDist pt b
    .ok (r.2, .leaf b es r.1 cands)
  | .node b _ l r => do
    let lr ← getMinOfMaxes pt l
    let rr ← getMinOfMaxes pt r
    .ok (min lr.1 rr.1, .node b (min lr.2.mn rr.2.mn) lr.2 rr.2)

/-- one element in the loop of `refineMax` (BBTreeClosest.txx:415-425): `_min`, `ret` and `_candidates` -/
def refineStep (dim : Nat) (bbs pt : List K) (dist : K) (s : K × K × List (Nat × K)) (e : Nat) : M (K × K × List (Nat × K)) := do
  let b ← rdBox dim bbs e
  let r ← highLevelDist pt b
  .ok (min s.1 r.1, if r.1 ≤ dist then (min s.2.1 r.2, s.2.2 ++ [(e, r.1)]) else s.2)

/-- `refineMax` (BBTreeClosest.txx:406-435) -/
def refineMax (dim : Nat) (bbs pt : List K) (big : K) : CT K → K → M (K × CT K)
  | .leaf b es mn cands, dist =>
    if mn > dist then .ok (dist, .leaf b es mn cands)
    else do
      let s ← es.foldlM (refineStep dim bbs pt dist) (big, big, cands)
      .ok (s.2.1, .leaf b es s.1 s.2.2)
  | .node b mn l r, dist =>
    if mn > dist then .ok (dist, .node b mn l r)
    else do
      let lv ← refineMax dim bbs pt big l dist
      let rv ← refineMax dim bbs pt big r (min dist lv.1)
      .ok (min lv.1 rv.1, .node b (min lv.2.mn rv.2.mn) lv.2 rv.2)

/-- `filter` (BBTreeClosest.txx:439-463): the elements given to the container and the tree afterwards -/
def ctFilter : CT K → K → List Nat × CT K
  | .leaf b es mn cands, dist =>
    if mn > dist then ([], .leaf b es mn [])
    else ((cands.filter fun c => decide (c.2 ≤ dist)).map (·.1), .leaf b es mn [])
  | .node b mn l r, dist =>
    if mn > dist then ([], .node b mn l r)
    else ((ctFilter l dist).1 ++ (ctFilter r dist).1, .node b mn (ctFilter l dist).2 (ctFilter r dist).2)

/-- `getClosestCandidates` (BBTreeClosest.txx:367-379) -/
def getClosestCandidates (dim : Nat) (bbs : List K) (big : K) (t : CT K) (pt : List K) : M (List Nat × CT K) := do
  let m ← getMinOfMaxes pt t
  let v ← refineMax dim bbs pt big m.2 m.1
  .ok (ctFilter v.2 v.1)

/-- the point `i` of an array of coordinates -/
def rdPoint (dim : Nat) (pts : List K) (i : Nat) : M (List K) := (List.range dim).mapM fun d => rd pts ((i * dim + d : Nat) : Int)

/-- `DataArrayDouble::candidatesClosestTo` (MEDCoupling/MEDCouplingMemArray.cxx:1966-2049): the ids, the index and the tree after each
point.  The same tree serves all the points. -/
def candidatesClosestTo (dim : Nat) (pts : List K) (nbPts : Nat) (bbs : List K) (nbCells : Nat) (arrange : List K → List Nat) (big : K) :
    M (List Nat × List Nat) := do
  if dim ≠ 1 ∧ dim ≠ 2 ∧ dim ≠ 3 then throwX
  else do
    let t ← ctBuild dim bbs arrange big 14 0 (List.range nbCells)
    let r ← loop nbPts ((([] : List Nat), [0]), t) fun i s => do
      let p ← rdPoint dim pts i
      let q ← getClosestCandidates dim bbs big s.2 p
      .ok ((s.1.1 ++ q.1, s.1.2 ++ [(s.1.1 ++ q.1).length]), q.2)
    .ok r.1

/-! ### Blocks of a tree and serialisation -/

/-- `LeafIterator` (BBTree.txx:136-198): the leaves given one after the other by `advanceToNextLeaf`, from the stack -/
def leafIter : (fuel : Nat) → List (CT K) → M (List (CT K))
  | _, [] => .ok []
  | 0, _ :: _ => undef
  | fuel + 1, .leaf b es mn c :: st => do
    let rest ← leafIter fuel st
    .ok (.leaf b es mn c :: rest)
  | fuel + 1, .node _ _ l r :: st => leafIter fuel (l :: r :: st)

/-- number of nodes of a tree, which bounds the number of steps of the iterator -/
def CT.nodes {K : Type} : CT K → Nat
  | .leaf _ _ _ _ => 1
  | .node _ _ l r => 1 + l.nodes + r.nodes

/-- `bboxMinOfMaxes` (BBTreeClosest.txx:331-344) -/
def bboxMinOfMaxes (inBox : List (K × K)) : CT K → K → M K
  | .leaf b _ _ _, res => do
    let r ← highLevelBBDist inBox b
    .ok (min res r.2)
  | .node _ _ l r, res => do
    let res ← bboxMinOfMaxes inBox l res
    bboxMinOfMaxes inBox r res

/-- `bboxSelect` (BBTreeClosest.txx:346-362): the selected leaves in the order of the iterator (the code puts them in a set) -/
def bboxSelect (inBox : List (K × K)) (t : CT K) (thres : K) : M (List (CT K)) := do
  let ls ← leafIter t.nodes [t]
  ls.foldlM (fun sel leaf => do
    let r ← highLevelBBDist inBox leaf.box
    .ok (if r.1 < thres then sel ++ [leaf] else sel)) []

/-- `serialize` (BBTreeClosest.txx:272-291): `structure`, `bboxData` and `elemsData` -/
def ctSerialize : CT K → List Bool × List (List (K × K)) × List Nat
  | .leaf b es _ _ => ([false], [b], es.length :: es)
  | .node b _ l r =>
    (true :: ((ctSerialize l).1 ++ (ctSerialize r).1), b :: ((ctSerialize l).2.1 ++ (ctSerialize r).2.1), (ctSerialize l).2.2 ++ (ctSerialize r).2.2)

/-- `vec.insert(end, data + a, data + a + sz)`: the copy of `sz` values from position `a` (BBTreeClosest.txx:143-145) -/
def rdRange (data : List Nat) (a sz : Nat) : M (List Nat) := (List.range sz).mapM fun k => rd data ((a + k : Nat) : Int)

/-- `fillDeserializeInternal` (BBTreeClosest.txx:131-153): the tree, `structurePt` and `elemsDataPt`.  The elements are read from
`structurePt`, as in the code. -/
def ctDeserializeAux (big : K) (struct : List Bool) (bbox : List (List (K × K))) (data : List Nat) : (fuel sp ep : Nat) → M (CT K × Nat × Nat)
  | 0, _, _ => undef
  | fuel + 1, sp, ep => do
    let b ← rd bbox (sp : Int)
    let s ← rd struct (sp : Int)
    if s = false then do
      let sz ← rd data (ep : Int)
      let es ← rdRange data (sp + 1) sz
      .ok (.leaf b es (-big) [], sp + 1, ep + 1 + sz)
    else do
      let l ← ctDeserializeAux big struct bbox data fuel (sp + 1) ep
      let r ← ctDeserializeAux big struct bbox data fuel l.2.1 l.2.2
      .ok (.node b (-big) l.1 r.1, r.2)

/-- `Deserialize` (BBTreeClosest.txx:308-316) -/
def ctDeserialize (big : K) (struct : List Bool) (bbox : List (List (K × K))) (data : List Nat) : M (CT K) := do
  let r ← ctDeserializeAux big struct bbox data (struct.length + 1) 0 0
  .ok r.1

/-- `serializeCompact` (BBTreeClosest.txx:293-306) -/
def ctSerializeCompact : CT K → List Bool × List (List (K × K))
  | .leaf b _ _ _ => ([false], [b])
  | .node b _ l r => (true :: ((ctSerializeCompact l).1 ++ (ctSerializeCompact r).1), b :: ((ctSerializeCompact l).2 ++ (ctSerializeCompact r).2))

/-- `fillDeserializeCompactInternal` (BBTreeClosest.txx:155-170; the same code for `BBTreeClosestCompact`, 58-73) -/
def ctDeserializeCompactAux (big : K) (struct : List Bool) (bbox : List (List (K × K))) : (fuel sp : Nat) → M (CT K × Nat)
  | 0, _ => undef
  | fuel + 1, sp => do
    let b ← rd bbox (sp : Int)
    let s ← rd struct (sp : Int)
    if s = false then .ok (.leaf b [] (-big) [], sp + 1)
    else do
      let l ← ctDeserializeCompactAux big struct bbox fuel (sp + 1)
      let r ← ctDeserializeCompactAux big struct bbox fuel l.2
      .ok (.node b (-big) l.1 r.1, r.2)

/-- `DeserializeCompact` (BBTreeClosest.txx:318-326; BBTreeClosestCompact::Deserialize, 49-55) -/
def ctDeserializeCompact (big : K) (struct : List Bool) (bbox : List (List (K × K))) : M (CT K) := do
  let r ← ctDeserializeCompactAux big struct bbox (struct.length + 1) 0
  .ok r.1

end
end MC
