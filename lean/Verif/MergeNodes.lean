import Verif.BBTree
import Verif.UMesh
import Verif.SkyOps
import Verif.Renumber

/-!
# Coincident tuples and merge of nodes (`MEDCouplingMemArray.cxx/.txx`, `MEDCouplingPointSet.cxx`)

`K` is an ordered field for `double`.  `big` is `std::numeric_limits<double>::max()`, used by the search tree only.
-/

namespace MC

/-- `isDone` and the two arrays which are filled -/
structure CommonSt where
  done : List Bool
  comm : List Int
  commI : List Int

/-- The loop on `intersectingElems` (MEDCouplingMemArray.cxx:93-101; MEDCouplingMemArray.txx:4747-4755) -/
def commonPick (i : Nat) (limit : Int) (found : List Nat) (done : List Bool) : M (List Bool × List Int) :=
  found.foldlM (fun (s : List Bool × List Int) e =>
    if e ≠ i then
      if (e : Int) ≥ limit then do
        let d ← wr s.1 (e : Int) true
        .ok (d, s.2 ++ [(e : Int)])
      else .ok s
    else .ok s) (done, [])

/-- One turn of the loop on the tuples (MEDCouplingMemArray.cxx:85-110; MEDCouplingMemArray.txx:4738-4764); `search i` is
what the tree finds around tuple `i` -/
def commonTupStep (search : Nat → M (List Nat)) (limit : Int) (i : Nat) (s : CommonSt) : M CommonSt := do
  let d ← rd s.done (i : Int)
  if d then .ok s
  else do
    let found ← search i
    if found.length > 1 then do
      let p ← commonPick i limit found s.done
      if p.2 ≠ [] then do
        let b ← rd s.commI ((s.commI.length : Int) - 1)
        .ok ⟨p.1, s.comm ++ (i : Int) :: p.2, s.commI ++ [b + p.2.length + 1]⟩
      else .ok ⟨p.1, s.comm, s.commI⟩
    else .ok s

/-- `findCommonTuplesAlg` (MEDCouplingMemArray.cxx:75-111; MEDCouplingMemArray.txx:4729-4765), without the construction of the tree -/
def findCommonAlg (search : Nat → M (List Nat)) (n : Nat) (limit : Int) : M (List Int × List Int) := do
  let s ← loop n (⟨List.replicate n false, [], [0]⟩ : CommonSt) (commonTupStep search limit)
  .ok (s.comm, s.commI)

section
variable {K : Type} [Field K] [LinearOrder K]

/-- `DataArrayDouble::findCommonTuples` (MEDCouplingMemArray.cxx:1229-1268) -/
def findCommonTuples (a : DArr K) (prec : K) (limit : Int) (big : K) : M (List Int × List Int) :=
  if a.nc < 1 ∨ a.nc > 4 then throwX
  else do
    let t ← bbTreePts a.nc a.data none a.nt prec big
    findCommonAlg (fun i => ptsAroundPoint a.nc a.data prec t (a.data.drop (i * a.nc)) []) a.nt limit

/-- `FindTupleIdsNearTuplesAlg` and `computeTupleIdsNearTuples` (MEDCouplingMemArray.cxx:113-136, 1644-1695) -/
def tupleIdsNearTuples (a other : DArr K) (eps big : K) : M (List Int × List Int) :=
  if a.nc ≠ other.nc then throwX
  else if a.nc < 1 ∨ a.nc > 3 then throwX
  else do
    let t ← bbTreePts a.nc a.data none a.nt eps big
    loop other.nt (([] : List Int), [(0 : Int)]) fun i s => do
      let found ← ptsAroundPoint a.nc a.data eps t (other.data.drop (i * a.nc)) []
      let b ← rd s.2 ((s.2.length : Int) - 1)
      .ok (s.1 ++ found.map (fun e : Nat => (e : Int)), s.2 ++ [b + found.length])

/-- `buildPermArrayForMergeNode` with `findCommonNodes` and `buildNewNumberingFromCommonNodesFormat`
(MEDCouplingPointSet.cxx:279-291, 320-328, 402-414): the old to new array, `areNodesMerged` and the new number of nodes -/
def permArrayForMerge (a : DArr K) (prec : K) (limit : Int) (big : K) : M (List Int × Bool × Int) := do
  let c ← findCommonTuples a prec limit big
  let r ← convertIndexArrayToO2N a.nt c.1 c.2
  .ok (r.1, decide ((a.nt : Int) ≠ r.2), r.2)

/-- `DataArrayDouble::getDifferentValues` (MEDCouplingMemArray.cxx:1494-1506) -/
def differentValues (a : DArr K) (prec : K) (limit : Int) (big : K) : M (List (Option K)) := do
  let c ← findCommonTuples a prec limit big
  let r ← convertIndexArrayToO2N a.nt c.1 c.2
  renumberAndReduce a r.1 r.2.toNat

/-- The tuples of two arrays with the same number of components (`Aggregate`, `MergeNodesArray`) -/
def DArr.append (a b : DArr K) (h : b.nc = a.nc) : DArr K :=
  ⟨a.nt + b.nt, a.nc, a.data ++ b.data, by rw [List.length_append, a.wf, b.wf, h, Nat.add_mul]⟩

/-- `DataArrayDouble::areIncludedInMe` (MEDCouplingMemArray.cxx:1174-1195): the ids and the value returned -/
def areIncludedInMe (a other : DArr K) (prec big : K) : M (List (Option Int) × Bool) :=
  if h : other.nc = a.nc then do
    let m := a.append other h
    let c ← findCommonTuples m prec a.nt big
    let r ← convertIndexArrayToO2N m.nt c.1 c.2
    if hl : r.1.length = m.nt * 1 then do
      let ids ← selectByTupleIdSafeSlice (⟨m.nt, 1, r.1, hl⟩ : DArr Int) a.nt m.nt 1
      .ok (ids, decide (r.2 = (a.nt : Int)))
    else undef
  else throwX

/-- `renumberNodes` (MEDCouplingPointSet.cxx:433-442): coordinates and connectivity -/
def renumberNodesM (a : DArr K) (conn connI o2n : List Int) (newNb : Nat) : M (List (Option K) × List Int) := do
  let nc ← renumberAndReduce a o2n newNb
  let conn ← renumberNodesInConn conn connI o2n
  .ok (nc, conn)

/-- The sums and the counts of `renumberNodesCenter` (MEDCouplingPointSet.cxx:466-485) -/
def centerSums (a : DArr K) (o2n : List Int) (newNb : Nat) : M (List K × List K) :=
  loop a.nt (List.replicate (newNb * a.nc) (0 : K), List.replicate newNb (0 : K)) fun i s => do
    let w ← rd o2n (i : Int)
    let p ← loop a.nc s.1 fun d p => do
      let x ← rd a.data ((i * a.nc + d : Nat) : Int)
      let y ← rd p (w * a.nc + d)
      wr p (w * a.nc + d) (x + y)
    let v ← rd s.2 w
    let q ← wr s.2 w (v + 1)
    .ok (p, q)

/-- `renumberNodesCenter` (MEDCouplingPointSet.cxx:463-497).  The counts are kept in `K`. -/
def renumberNodesCenterM (a : DArr K) (conn connI o2n : List Int) (newNb : Nat) : M (List K × List Int) := do
  let s ← centerSums a o2n newNb
  let p ← loop newNb s.1 fun i p => loop a.nc p fun d p => do
    let v ← rd s.2 (i : Int)
    let y ← rd p ((i * a.nc + d : Nat) : Int)
    wr p ((i * a.nc + d : Nat) : Int) (y * (1 / v))
  let conn ← renumberNodesInConn conn connI o2n
  .ok (p, conn)

/-- `mergeNodes` (MEDCouplingPointSet.cxx:1799-1806): coordinates, connectivity, old to new array, new number of nodes -/
def mergeNodes (a : DArr K) (conn connI : List Int) (prec big : K) : M (List (Option K) × List Int × List Int × Bool × Int) := do
  let r ← permArrayForMerge a prec (-1) big
  if r.2.1 then do
    let m ← renumberNodesM a conn connI r.1 r.2.2.toNat
    .ok (m.1, m.2, r)
  else .ok (a.data.map some, conn, r)

/-- `mergeNodesCenter` (MEDCouplingPointSet.cxx:1827-1834) -/
def mergeNodesCenter (a : DArr K) (conn connI : List Int) (prec big : K) : M (List K × List Int × List Int × Bool × Int) := do
  let r ← permArrayForMerge a prec (-1) big
  if r.2.1 then do
    let m ← renumberNodesCenterM a conn connI r.1 r.2.2.toNat
    .ok (m.1, m.2, r)
  else .ok (a.data, conn, r)

/-- `tryToShareSameCoordsPermute` (MEDCouplingPointSet.cxx:1373-1417): the new connectivity of the mesh, whose coordinates become
those of the other one.  `max_element` of an empty range gives its first pointer, which is read. -/
def shareCoordsPermute (other a : DArr K) (conn connI : List Int) (eps big : K) : M (List Int) :=
  if h : a.nc = other.nc then do
    let r ← permArrayForMerge (other.append a h) eps other.nt big
    if r.2.1 = false then throwX
    else do
      let d0 ← rd r.1 0
      let maxId := (r.1.take other.nt).foldl max d0
      if (r.1.drop other.nt).any (fun v => decide (v > maxId)) then throwX
      else renumberNodesInConn conn connI (r.1.drop other.nt)
  else throwX

end

/-- `DataArrayDiscrete::findCommonTuples` (MEDCouplingMemArray.txx:4767-4806) -/
def findCommonTuplesD (a : DArr Int) (limit : Int) (big : Int) : M (List Int × List Int) :=
  if a.nc < 1 ∨ a.nc > 4 then throwX
  else do
    let t ← bbTreeDiscrete a.nc a.data none a.nt big
    findCommonAlg (fun i => discreteElems a.nc a.data t (a.data.drop (i * a.nc)) []) a.nt limit

end MC
