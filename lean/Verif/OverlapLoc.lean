import Verif.BlockTopo
import Verif.MsgPass
import Mathlib.Data.Prod.Lex
import Mathlib.Algebra.Order.Field.Basic

/-!
# Work sharing and exchange of meshes of `OverlapDEC`: `OverlapElementLocator`

Model of `src/ParaMEDMEM/OverlapElementLocator.cxx`.

Simplifications:
- coordinates are in an ordered field; `big` is `std::numeric_limits<double>::max()`;
- ranks are natural numbers: the couple `(-1, -1)` of the code is `none`;
- `int` is unbounded below; its largest value is `intMax`;
- the contents of the messages are given by a function: who sends to whom, source or target mesh, and which of the five messages of a mesh.
-/

namespace MC

/-- `ProcCouple` (OverlapElementLocator.hxx:43): first is source, second is target; ordered as `std::pair` -/
abbrev Couple := Nat ×ₗ Nat

/-- `std::make_pair(i, j)` -/
def cpl (i j : Nat) : Couple := toLex (i, j)
/-- `.first` -/
def Couple.src (c : Couple) : Nat := (ofLex c).1
/-- `.second` -/
def Couple.tgt (c : Couple) : Nat := (ofLex c).2

/-- `std::numeric_limits<int>::max()` -/
def intMax : Int := 2147483647

section boxes
variable {K : Type} [Field K] [LinearOrder K]

/-- The boxes of a processor (OverlapElementLocator.cxx:106-130): the source box then the target box, `min` and `max` along each direction, or the empty box without mesh -/
def localBoxes (dim : Nat) (big : K) (src tgt : Option (List (K × K))) : List K :=
  (match src with
    | some b => (b.map fun (lo, hi) => [lo, hi]).flatten
    | none => (List.replicate dim [big, -big]).flatten) ++
  (match tgt with
    | some b => (b.map fun (lo, hi) => [lo, hi]).flatten
    | none => (List.replicate dim [big, -big]).flatten)

/-- `intersectsBoundingBox`: OverlapElementLocator.cxx:471-485, on the boxes of all processors put end to end -/
def intersectsBB (dim : Nat) (eps : K) (all : List K) (i j : Nat) : M Bool :=
  loop dim true fun d r => do
    if r then
      let tmin ← vget all (j * 2 * 2 * dim + 2 * dim + d * 2)
      let smax ← vget all (i * 2 * 2 * dim + d * 2 + 1)
      if tmin < smax + eps then
        let smin ← vget all (i * 2 * 2 * dim + d * 2)
        let tmax ← vget all (j * 2 * 2 * dim + 2 * dim + d * 2 + 1)
        return decide (smin < tmax + eps)
      else return false
    else return false

/-- The end of `computeBoundingBoxesAndInteractionList`: OverlapElementLocator.cxx:133-139 -/
def procPairs (N dim : Nat) (eps : K) (all : List K) : M (List (List Nat)) :=
  (List.range N).mapM fun i => loop N ([] : List Nat) fun j l => do
    if ← intersectsBB dim eps all i j then return l ++ [j] else return l

end boxes

/-! ## Sharing the work -/

/-- `computeTodoList_original`: OverlapElementLocator.cxx:144-157 -/
def todoOriginal (N : Nat) (pairs : List (List Nat)) : M (List (List Couple)) :=
  loop N (List.replicate N []) fun i todo => do
    let js ← vget pairs i
    js.foldlM (fun todo j => do
      let a ← vget todo i
      let b ← vget todo j
      if a.length ≤ b.length then return todo.set i (a ++ [cpl i j])
      else return todo.set j (b ++ [cpl i j])) todo

/-- `std::map<ProcCouple, int>` -/
abbrev LoadMap := List (Couple × Int)

/-- Every couple is first given to both processors: OverlapElementLocator.cxx:191-200 -/
def shareInit (N : Nat) (pairs : List (List Nat)) : M (List LoadMap) :=
  loop N (List.replicate N []) fun i fs => do
    let js ← vget pairs i
    js.foldlM (fun fs j => do
      let a ← vget fs i
      let fs := fs.set i (mapSet a (cpl i j) (-1))
      let b ← vget fs j
      return fs.set j (mapSet b (cpl i j) (-1))) fs

/-- The loads: OverlapElementLocator.cxx:202-221 -/
def shareLoads (fs : List LoadMap) : M (List LoadMap) :=
  loop fs.length fs fun p fs => do
    let m ← vget fs p
    let m' ← m.mapM fun (c, _) => do
      if c.src = c.tgt then return (c, intMax)
      else if c.src = p then
        let o ← vget fs c.tgt
        return (c, (o.length : Int))
      else
        let o ← vget fs c.src
        return (c, (o.length : Int))
    return fs.set p m'

/-- The most loaded valid processor: OverlapElementLocator.cxx:231-243 (`none`: `max_id` is -1) -/
def mostLoaded (fs : List LoadMap) (valid : List Bool) : M (Int × Option Nat) :=
  loop fs.length (-1, none) fun p (maxSz, maxId) => do
    let m ← vget fs p
    let v ← vget valid p
    if v ∧ (m.length : Int) > maxSz then return ((m.length : Int), some p) else return (maxSz, maxId)

/-- The couple with the smallest load, among the ones which can be removed: OverlapElementLocator.cxx:249-271 -/
def findHit (revertIter : Bool) (m : LoadMap) : Option Couple :=
  ((if revertIter then m.reverse else m).foldl (fun (hit, minSz) e => if e.2 < minSz then (some e.1, e.2) else (hit, minSz))
    ((none : Option Couple), intMax)).1

/-- `m.erase(k)` -/
def loadErase (m : LoadMap) (k : Couple) : LoadMap := m.filter fun e => decide (e.1 ≠ k)

/-- The update of the loads: OverlapElementLocator.cxx:287-301 -/
def shareUpdate (maxId : Nat) (valid : List Bool) (fs : List LoadMap) : M (List LoadMap) :=
  loop fs.length fs fun p fs => do
    let m ← vget fs p
    let v ← vget valid p
    if v ∧ p ≠ maxId then
      return fs.set p (m.map fun (c, l) => if l = intMax then (c, l) else if c.src = maxId ∨ c.tgt = maxId then (c, l - 1) else (c, l))
    else return fs

/-- One round of the loop: OverlapElementLocator.cxx:228-302 (`none`: the `break`) -/
def shareRound (revertIter : Bool) (fs : List LoadMap) (valid : List Bool) : M (Option (List LoadMap × List Bool)) := do
  let (_, maxId) ← mostLoaded fs valid
  match maxId with
  | none => return none
  | some p =>
    let m ← vget fs p
    match findHit revertIter m with
    | none => return some (fs, valid.set p false)
    | some c =>
      let fs := fs.set p (loadErase m c)
      let other := if c.src = p then c.tgt else c.src
      let o ← vget fs other
      let fs := fs.set other (mapSet o c intMax)
      let fs ← shareUpdate p valid fs
      return some (fs, valid)

/-- The loop, at most `fuel` rounds (`none`: more rounds are needed): OverlapElementLocator.cxx:226-303 -/
def shareLoop (revertIter : Bool) : (fuel : Nat) → List LoadMap → List Bool → M (Option (List LoadMap))
  | 0, _, _ => .ok none
  | fuel + 1, fs, valid =>
    if valid.contains true then do
      match ← shareRound revertIter fs valid with
      | none => return some fs
      | some (fs, valid) => shareLoop revertIter fuel fs valid
    else .ok (some fs)

/-- `computeTodoList_new`: OverlapElementLocator.cxx:180-317 -/
def todoNew (revertIter : Bool) (fuel N : Nat) (pairs : List (List Nat)) : M (Option (List (List Couple))) := do
  let fs ← shareInit N pairs
  let fs ← shareLoads fs
  let r ← shareLoop revertIter fuel fs (List.replicate N true)
  return r.map fun fs => fs.map mapKeys

/-- The choice of the constructor: OverlapElementLocator.cxx:66-81 -/
def todoLists (algo : Int) (fuel N : Nat) (pairs : List (List Nat)) : M (Option (List (List Couple))) :=
  if algo = 0 then do return some (← todoOriginal N pairs)
  else if algo = 1 then todoNew false fuel N pairs
  else if algo = 2 then todoNew true fuel N pairs
  else throwX

/-! ## Exchange of the meshes -/

/-- `Proc_SrcOrTgt`: a processor and `true` for a source mesh, `false` for a target mesh -/
abbrev ProcMesh := Nat ×ₗ Bool

/-- `Proc_SrcOrTgt(p, b)` -/
def procMesh (p : Nat) (b : Bool) : ProcMesh := toLex (p, b)

/-- `_procs_to_send_mesh` of `fillProcToSend`: OverlapElementLocator.cxx:336-360 -/
def procsToSendMesh (me : Nat) (todo : List (List Couple)) : List ProcMesh :=
  stdSort ((todo.zipIdx.map fun (l, i) => (l.map fun c =>
    (if c.src = me ∧ i ≠ me then [procMesh i true] else []) ++ (if c.tgt = me ∧ i ≠ me then [procMesh i false] else [])).flatten).flatten)

/-- `_procs_to_send_field` of `fillProcToSend`: OverlapElementLocator.cxx:336-355 -/
def procsToSendField (me : Nat) (todo : List (List Couple)) : List Nat :=
  (todo.map fun l => (l.filter fun c => decide (c.src = me)).map Couple.tgt).flatten

/-- What a processor expects, from lower ranks: `firstRcv`, OverlapElementLocator.cxx:378-399 -/
def firstRcv (me : Nat) (todo : List Couple) : List ProcMesh :=
  stdSort ((todo.map fun c => if c.src = c.tgt then [] else
    if c.src = me then (if c.tgt < me then [procMesh c.tgt false] else [])
    else (if c.src < me then [procMesh c.src true] else [])).flatten)

/-- What a processor expects, from higher ranks: `secondRcv` -/
def secondRcv (me : Nat) (todo : List Couple) : List ProcMesh :=
  stdSort ((todo.map fun c => if c.src = c.tgt then [] else
    if c.src = me then (if c.tgt < me then [] else [procMesh c.tgt false])
    else (if c.src < me then [] else [procMesh c.src true])).flatten)

variable {V : Type}

/-- The five messages of `sendMesh`: OverlapElementLocator.cxx:556-594; `msg from to srcOrTgt k` is the content of the `k`-th one, its tag is `START_TAG_MESH_XCH + k` -/
def sendMesh (msg : Nat → Nat → Bool → Nat → V) (me : Nat) (x : ProcMesh) : List (Act V) :=
  (List.range 5).map fun k => .send (ofLex x).1 (1140 + k) (msg me (ofLex x).1 (ofLex x).2 k)

/-- The five messages of `receiveMesh`: OverlapElementLocator.cxx:600-641; the last tag is written `1144` -/
def receiveMesh (x : ProcMesh) : List (Act V) :=
  [.recv (ofLex x).1 1140, .recv (ofLex x).1 (1140 + 1), .recv (ofLex x).1 (1140 + 2), .recv (ofLex x).1 (1140 + 3), .recv (ofLex x).1 1144]

/-- `exchangeMeshes`: OverlapElementLocator.cxx:373-411, for processor `me`; processors outside the group do nothing -/
def exchangeProg (msg : Nat → Nat → Bool → Nat → V) (todo : List (List Couple)) (me : Nat) : List (Act V) :=
  match todo[me]? with
  | none => []
  | some mine =>
    ((firstRcv me mine).map receiveMesh).flatten ++ ((procsToSendMesh me todo).map (sendMesh msg me)).flatten
      ++ ((secondRcv me mine).map receiveMesh).flatten

end MC
