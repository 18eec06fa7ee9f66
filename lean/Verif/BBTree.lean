import Verif.Base
import Mathlib.Algebra.Order.Ring.Abs
import Mathlib.Data.List.Sort

/-!
# Search trees over boxes and points (BBTree, BBTreePts, BBTreeDiscrete, BBTreeDst)

The numbers are the elements of an ordered ring `K` instead of doubles: the roundings are not modelled.  `big` is
`std::numeric_limits<double>::max()`, any element of `K`.  The square root is a parameter.  The four trees are built by the same recursive
splitting and searched by the same recursive descent, which are modelled once: `btBuild` and `btCollect`.
-/

namespace MC
section

/-- A tree: a terminal node with its elements, or a node with its level, `_max_left`, `_min_right` and its two sons. -/
inductive BT (K : Type) where
  | leaf (elems : List Nat)
  | node (level : Nat) (maxLeft minRight : K) (l r : BT K)
deriving Repr

variable {K : Type} [CommRing K] [LinearOrder K] [IsStrictOrderedRing K]

/-- `std::nth_element(nodes, nodes + n, end)` then `nodes[n]` (INTERP_KERNEL/BBTree.txx:108-109): the value at position `n` of the sorted
array -/
def nthElement (nodes : List K) (n : Nat) : M K := rd (nodes.insertionSort (· ≤ ·)) n

/-- one iteration of the loop which splits the elements (BBTree.txx:115-133; BBTreePts.txx:107-127; BBTreeDst.txx:71-93;
BBTreeDiscrete.txx:94-115): elements on the left, `max_left`, elements on the right, `min_right` -/
def btSplitStep (lo hi : Nat → M K) (toRight : K → Bool) (s : (List Nat × K) × (List Nat × K)) (e : Nat) : M ((List Nat × K) × (List Nat × K)) := do
  let mx ← hi e
  let mn ← lo e
  if toRight mn then .ok (s.1, s.2.1 ++ [e], if mn < s.2.2 then mn else s.2.2)
  else .ok ((s.1.1 ++ [e], if mx > s.1.2 then mx else s.1.2), s.2)

/-- The constructors `BBTreeBase`, with `SplitForNotTerminal` and `FillDataNotTerminal` (BBTree.txx:79-134, 293-313), `BBTreePts`
(BBTreePts.txx:68-138), `BBTreeDst` (BBTreeDst.txx:49-107) and `BBTreeDiscrete` (BBTreeDiscrete.txx:57-128).  `lo level e` and
`hi level e` read the bounds of element `e` along the axis of the level, `right v median` tells whether an element whose lower bound is
`v` goes to the right, and `pad` is added to the bounds.  `fuel` bounds the depth; the level stops the recursion before. -/
def btBuild (lo hi : Nat → Nat → M K) (right : K → K → Bool) (pad big : K) : (fuel level : Nat) → List Nat → M (BT K)
  | 0, _, _ => undef
  | fuel + 1, level, elems =>
    if elems.length < 15 ∨ level > 20 then .ok (.leaf elems)
    else do
      let nodes ← elems.mapM (lo level)
      let median ← nthElement nodes (elems.length / 2)
      let s ← elems.foldlM (btSplitStep (lo level) (hi level) fun v => right v median) (([], -big), ([], big))
      let l ← btBuild lo hi right pad big fuel (level + 1) s.1.1
      let r ← btBuild lo hi right pad big fuel (level + 1) s.2.1
      .ok (.node level (s.1.2 + pad) (s.2.2 - pad) l r)

/-- The recursive searches: `onlyLeft level minRight` and `onlyRight level maxLeft` are the two tests of a non terminal node, `test` the one
on an element of a terminal node. -/
def btCollect (onlyLeft onlyRight : Nat → K → M Bool) (test : Nat → M Bool) : BT K → List Nat → M (List Nat)
  | .leaf es, out => es.foldlM (fun out e => do
      let b ← test e
      .ok (if b then out ++ [e] else out)) out
  | .node level maxLeft minRight l r, out => do
    let a ← onlyLeft level minRight
    if a then btCollect onlyLeft onlyRight test l out
    else do
      let b ← onlyRight level maxLeft
      if b then btCollect onlyLeft onlyRight test r out
      else do
        let out ← btCollect onlyLeft onlyRight test l out
        btCollect onlyLeft onlyRight test r out

/-- The same search when it counts (`getNbOfIntersectingElems`, BBTree.txx:364-393). -/
def btCount (onlyLeft onlyRight : Nat → K → M Bool) (test : Nat → M Bool) : BT K → M Nat
  | .leaf es => es.foldlM (fun n e => do
      let b ← test e
      .ok (if b then n + 1 else n)) 0
  | .node level maxLeft minRight l r => do
    let a ← onlyLeft level minRight
    if a then btCount onlyLeft onlyRight test l
    else do
      let b ← onlyRight level maxLeft
      if b then btCount onlyLeft onlyRight test r
      else do
        let n ← btCount onlyLeft onlyRight test l
        let m ← btCount onlyLeft onlyRight test r
        .ok (n + m)

/-- `size()` (BBTree.txx:219-224; BBTreePts.txx:235-240; BBTreeDiscrete.txx:175-180) -/
def BT.size : BT K → Nat
  | .leaf es => es.length
  | .node _ _ _ l r => l.size + r.size

/-- The elements given to the constructor: all of them when the pointer is null (BBTree.txx:86-90, 229-243) -/
def btElems (elems : Option (List Nat)) (nb : Nat) : List Nat :=
  match elems with
  | none => List.range nb
  | some l => l

/-! ## BBTree -/

/-- `bbs[elem * dim * 2 + axis * 2]` -/
def bbLo (dim : Nat) (bbs : List K) (axis e : Nat) : M K := rd bbs ((e * dim * 2 + axis * 2 : Nat) : Int)

/-- `bbs[elem * dim * 2 + axis * 2 + 1]` -/
def bbHi (dim : Nat) (bbs : List K) (axis e : Nat) : M K := rd bbs ((e * dim * 2 + axis * 2 + 1 : Nat) : Int)

/-- `BBTree(bbs, elems, 0, nbelems, epsilon)` (BBTree.txx:293-313, 437-445) -/
def bbTree (dim : Nat) (bbs : List K) (elems : Option (List Nat)) (nb : Nat) (eps big : K) : M (BT K) :=
  btBuild (fun level => bbLo dim bbs (level % dim)) (fun level => bbHi dim bbs (level % dim)) (fun v m => decide (v > m)) |eps| big 22 0 (btElems elems nb)

/-- the test of a box in `getIntersectingElems` (BBTree.txx:327-334) -/
def bbTest (dim : Nat) (bbs bb : List K) (eps : K) (e : Nat) : M Bool :=
  loop dim true fun d ok => do
    let lo ← bbLo dim bbs d e
    let q ← rd bb ((d * 2 + 1 : Nat) : Int)
    if lo - q > -eps then .ok false
    else do
      let hi ← bbHi dim bbs d e
      let q ← rd bb ((d * 2 : Nat) : Int)
      if hi - q < eps then .ok false else .ok ok

/-- `max < _min_right` (BBTree.txx:345-346) -/
def bbOnlyLeft (dim : Nat) (bb : List K) (level : Nat) (minRight : K) : M Bool := do
  let max ← rd bb (((level % dim) * 2 + 1 : Nat) : Int)
  .ok (decide (max < minRight))

/-- `min > _max_left` (BBTree.txx:344, 351) -/
def bbOnlyRight (dim : Nat) (bb : List K) (level : Nat) (maxLeft : K) : M Bool := do
  let min ← rd bb (((level % dim) * 2 : Nat) : Int)
  .ok (decide (min > maxLeft))

/-- `getIntersectingElems` (BBTree.txx:320-358) -/
def getIntersectingElems (dim : Nat) (bbs : List K) (eps : K) (t : BT K) (bb : List K) (elems : List Nat) : M (List Nat) :=
  btCollect (bbOnlyLeft dim bb) (bbOnlyRight dim bb) (bbTest dim bbs bb eps) t elems

/-- `getNbOfIntersectingElems` (BBTree.txx:364-393) -/
def getNbOfIntersectingElems (dim : Nat) (bbs : List K) (eps : K) (t : BT K) (bb : List K) : M Nat :=
  btCount (bbOnlyLeft dim bb) (bbOnlyRight dim bb) (bbTest dim bbs bb eps) t

/-- the test of a box in `getElementsAroundPoint` (BBTree.txx:406-412) -/
def bbPtTest (dim : Nat) (bbs xx : List K) (eps : K) (e : Nat) : M Bool :=
  loop dim true fun d ok => do
    let lo ← bbLo dim bbs d e
    let x ← rd xx d
    if lo - x > eps then .ok false
    else do
      let hi ← bbHi dim bbs d e
      if hi - x < -eps then .ok false else .ok ok

/-- `xx[_level % dim] < _min_right` (BBTree.txx:422; BBTreePts.txx:221) -/
def ptOnlyLeft (dim : Nat) (xx : List K) (level : Nat) (minRight : K) : M Bool := do
  let x ← rd xx ((level % dim : Nat) : Int)
  .ok (decide (x < minRight))

/-- `xx[_level % dim] > _max_left` (BBTree.txx:427; BBTreePts.txx:226) -/
def ptOnlyRight (dim : Nat) (xx : List K) (level : Nat) (maxLeft : K) : M Bool := do
  let x ← rd xx ((level % dim : Nat) : Int)
  .ok (decide (x > maxLeft))

/-- `getElementsAroundPoint` (BBTree.txx:399-434) -/
def getElementsAroundPoint (dim : Nat) (bbs : List K) (eps : K) (t : BT K) (xx : List K) (elems : List Nat) : M (List Nat) :=
  btCollect (ptOnlyLeft dim xx) (ptOnlyRight dim xx) (bbPtTest dim bbs xx eps) t elems

/-! ## BBTreePts and BBTreeDiscrete -/

/-- `pts[elem * dim + axis]` -/
def ptAt (dim : Nat) (pts : List K) (axis e : Nat) : M K := rd pts ((e * dim + axis : Nat) : Int)

/-- `BBTreePts(pts, elems, 0, nbelems, epsilon)` (BBTreePts.txx:68-138) -/
def bbTreePts (dim : Nat) (pts : List K) (elems : Option (List Nat)) (nb : Nat) (eps big : K) : M (BT K) :=
  btBuild (fun level => ptAt dim pts (level % dim)) (fun level => ptAt dim pts (level % dim)) (fun v m => decide (v > m)) |eps| big 22 0 (btElems elems nb)

/-- the test of a point in `getElementsAroundPoint` (BBTreePts.txx:211-214); the conjunction does not read after a failure -/
def ptsTest (dim : Nat) (pts xx : List K) (eps : K) (e : Nat) : M Bool :=
  loop dim true fun d ok => if ok then do
      let p ← ptAt dim pts d e
      let x ← rd xx d
      .ok (decide (|p - x| ≤ |eps|))
    else .ok false

/-- `BBTreePts::getElementsAroundPoint` (BBTreePts.txx:204-233) -/
def ptsAroundPoint (dim : Nat) (pts : List K) (eps : K) (t : BT K) (xx : List K) (elems : List Nat) : M (List Nat) :=
  btCollect (ptOnlyLeft dim xx) (ptOnlyRight dim xx) (ptsTest dim pts xx eps) t elems

/-- the squared distance computed in `getElementsAroundPoint2` (BBTreePts.txx:162-164) -/
def ptsDist2 (dim : Nat) (pts xx : List K) (e : Nat) : M K :=
  loop dim 0 fun d acc => do
    let p ← ptAt dim pts d e
    let x ← rd xx d
    .ok (acc + (p - x) * (p - x))

/-- `getElementsAroundPoint2` (BBTreePts.txx:154-195): the returned distance and `elem`, `none` when it is not set; `sqrtF` is `sqrt` -/
def ptsAroundPoint2 (dim : Nat) (pts : List K) (sqrtF : K → K) (big : K) (xx : List K) (threshold : K) : BT K → M (K × Option Nat)
  | .leaf es => es.foldlM (fun (s : K × Option Nat) e => do
      let tmp ← ptsDist2 dim pts xx e
      .ok (if tmp < threshold then (if tmp < s.1 then (tmp, some e) else s) else s)) (big, none)
  | .node level maxLeft minRight l r => do
    let s := sqrtF (threshold * dim)
    let x ← rd xx ((level % dim : Nat) : Int)
    if x + s < minRight then ptsAroundPoint2 dim pts sqrtF big xx threshold l
    else if x - s > maxLeft then ptsAroundPoint2 dim pts sqrtF big xx threshold r
    else do
      let a ← ptsAroundPoint2 dim pts sqrtF big xx threshold l
      let b ← ptsAroundPoint2 dim pts sqrtF big xx threshold r
      .ok (if a.1 < b.1 then a else b)

/-- `BBTreeDiscrete(bbs, elems, 0, nbelems)` (BBTreeDiscrete.txx:57-128) -/
def bbTreeDiscrete (dim : Nat) (bbs : List K) (elems : Option (List Nat)) (nb : Nat) (big : K) : M (BT K) :=
  btBuild (fun level => ptAt dim bbs (level % dim)) (fun level => ptAt dim bbs (level % dim)) (fun v m => decide (v ≥ m)) 0 big 22 0 (btElems elems nb)

/-- the test of an element in `BBTreeDiscrete::getIntersectingElems` (BBTreeDiscrete.txx:144-150) -/
def discreteTest (dim : Nat) (bbs bb : List K) (e : Nat) : M Bool :=
  loop dim true fun d ok => do
    let p ← ptAt dim bbs d e
    let q ← rd bb d
    .ok (if p ≠ q then false else ok)

/-- `BBTreeDiscrete::getIntersectingElems` (BBTreeDiscrete.txx:137-173) -/
def discreteElems (dim : Nat) (bbs : List K) (t : BT K) (bb : List K) (elems : List Nat) : M (List Nat) :=
  btCollect (ptOnlyLeft dim bb) (ptOnlyRight dim bb) (discreteTest dim bbs bb) t elems

end
end MC
