import Verif.Collective

/-!
# Exchange of a field between two distributions of the same elements: `StructuredCoincidentDEC`

Model of `src/ParaMEDMEM/StructuredCoincidentDEC.cxx`.  The run of all processors is one function: the collective communications make them meet.

Simplifications:
- `broadcastTopology` (lines 260-317) gives the processors of the other group what `unserialize` makes of `serialize`; its messages are not modelled;
- `MPIProcessorGroup(interface)` is the group of all processors of `MPI_COMM_WORLD`, numbered as in the world; `translateRank` of a rank of a group to this group is
  the world rank, i.e. the entry of the list of the group;
- the values of a local field are one list, as the pointer of its array sees them;
- the numbers of values are natural numbers.
-/

namespace MC
variable {V : Type}

/-- `v[i].push_back(x)` -/
def pushAt (l : List (List Nat)) (i x : Nat) : M (List (List Nat)) := do
  let r ← vget l i
  return l.set i (r ++ [x])

/-- `v[i] = x` of an array of `new int[]` -/
def vset {α : Type} (l : List α) (i : Nat) (x : α) : M (List α) := if i < l.length then .ok (l.set i x) else undef

/-- The first loop of `prepareSourceDE` (StructuredCoincidentDEC.cxx:144-153) and of `prepareTargetDE` (217-227): for all local elements, where they are in the other
topology -/
def otherSide (mine other : BTopo) (me : Nat) : M (Nat × List (List Nat)) := do
  let nb ← mine.nbLocal me
  let arrs ← loop nb (List.replicate other.group.length ([] : List Nat)) fun i arrs => do
    let g ← mine.localToGlobal me me i
    let (p, l) ← other.globalToLocal g
    pushAt arrs p l
  return (nb, arrs)

/-- The counts in the numbering of the world: StructuredCoincidentDEC.cxx:162-175 and 234-245 -/
def worldCounts (W : Nat) (group : List Nat) (arrs : List (List Nat)) : M (List Nat) :=
  loop group.length (List.replicate W 0) fun i cnt => do
    let w ← vget group i
    let a ← vget arrs i
    vset cnt w a.length

/-- The positions: StructuredCoincidentDEC.cxx:168, 177-178 (and 238, 246): each one is the one before plus the count before -/
def worldDispls (W : Nat) (counts : List Nat) : M (List Nat) :=
  loop (W - 1) [0] fun k ds => do
    let i := k + 1
    let p ← vget ds (i - 1)
    let c ← vget counts (i - 1)
    return ds ++ [p + c]

/-- The counters of `prepareSourceDE`: StructuredCoincidentDEC.cxx:185-188 -/
def startCounters (arrs : List (List Nat)) : M (List Nat) :=
  loop (arrs.length - 1) [0] fun k cs => do
    let i := k + 1
    let p ← vget cs (i - 1)
    let a ← vget arrs (i - 1)
    return cs ++ [p + a.length]

/-- `prepareSourceDE`: StructuredCoincidentDEC.cxx:128-203, in a world of `W` processors, for the processor of rank `me` of the source group -/
def prepareSource (W : Nat) (ts tt : BTopo) (me : Nat) (value : List V) : M (Snd V) := do
  let (nb, arrs) ← otherSide ts tt me
  let counts ← worldCounts W tt.group arrs
  let displs ← worldDispls W counts
  let counters ← startCounters arrs
  let r ← loop nb (List.replicate nb (none : Option V), counters) fun i (buf, cnt) => do
    let g ← ts.localToGlobal me me i
    let (p, _) ← tt.globalToLocal g
    let c ← vget cnt p
    let v ← vget value i
    let buf ← vset buf c (some v)
    let cnt ← vset cnt p (c + 1)
    return (buf, cnt)
  return { buf := r.1, counts := counts, displs := displs.map some }

/-- `prepareTargetDE`: StructuredCoincidentDEC.cxx:208-250, for the processor of rank `me` of the target group -/
def prepareTarget (V : Type) (W : Nat) (ts tt : BTopo) (me : Nat) : M (Rcv V) := do
  let (nb, arrs) ← otherSide tt ts me
  let counts ← worldCounts W ts.group arrs
  let displs ← worldDispls W counts
  return { buf := List.replicate nb none, counts := counts, displs := displs.map some }

/-- The four printed values of `sendData` and `recvData`: StructuredCoincidentDEC.cxx:325-328 and 366-369 -/
def printFour (counts : List Nat) (displs : List (Option Nat)) : M Unit := do
  loop 4 () fun i _ => do
    let _ ← vget counts i
  loop 4 () fun i _ => do
    let _ ← vget displs i

/-- The counters of `recvData`: StructuredCoincidentDEC.cxx:342-350 -/
def recvCounters (group counts : List Nat) : M (List Nat) :=
  loop (group.length - 1) [0] fun i cs => do
    let w ← vget group i
    let p ← vget cs i
    let c ← vget counts w
    return cs ++ [p + c]

/-- The end of `recvData`: StructuredCoincidentDEC.cxx:337-357; `old`: the array of the local field -/
def takeValues (ts tt : BTopo) (me : Nat) (counts : List Nat) (buf : List (Option V)) (old : List V) : M (List V) := do
  let nb ← tt.nbLocal me
  let counters ← recvCounters ts.group counts
  let r ← loop nb (old, counters) fun i (value, cnt) => do
    let g ← tt.localToGlobal me me i
    let (p, _) ← ts.globalToLocal g
    let c ← vget cnt p
    let x ← known (← vget buf c)
    let cnt ← vset cnt p (c + 1)
    let value ← vset value i x
    return (value, cnt)
  return r.1

/-- What a processor of the union group brings to `allToAllV`: a source processor sends and expects nothing (StructuredCoincidentDEC.cxx:162-167: all positions 0
for what it receives), a target processor sends nothing (lines 231-237: the positions are not initialised). `rank`: the rank of a world rank in a group. -/
def decSide (W : Nat) (ts tt tsT ttS : BTopo) (src : List (List V)) (w : Nat) : M (Snd V × Rcv V) :=
  if w ∈ ts.group then do
    let me := ts.group.idxOf w
    let value ← vget src me
    let s ← prepareSource W ts ttS me value
    printFour s.counts s.displs
    return (s, { buf := [], counts := List.replicate W 0, displs := List.replicate W (some 0) })
  else do
    let me := tt.group.idxOf w
    let r ← prepareTarget V W tsT tt me
    printFour r.counts r.displs
    return ({ buf := [], counts := List.replicate W 0, displs := List.replicate W none }, r)

/-- `synchronize` followed by `sendData` on the processors of the source group and `recvData` on those of the target group
(StructuredCoincidentDEC.cxx:101-122, 319-399): `src` and `old` are the values of the local fields, in the order of the ranks of the groups; the result is the values of the
target fields.  The communicator is the one of the union of the groups, a sorted set (DisjointDEC.cxx:41, MPIProcessorGroup.cxx:298-305). -/
def decExchange (W : Nat) (ts tt : BTopo) (src old : List (List V)) : M (List (List V)) := do
  let tsT ← BTopo.unserialize ts.serialize
  let ttS ← BTopo.unserialize tt.serialize
  if ts.nbElems ≠ tt.nbElems then throwX
  else do
    let un := setInsertAll (setInsertAll [] ts.group) tt.group
    let sides ← un.mapM (decSide W ts tt tsT ttS src)
    let bufs ← allToAllV (sides.map (·.1)) (sides.map (·.2))
    tt.group.mapM fun w => do
      let me := tt.group.idxOf w
      let u := un.idxOf w
      let side ← vget sides u
      let buf ← vget bufs u
      let o ← vget old me
      takeValues tsT tt me side.2.counts buf o

end MC
