import Verif.OverlapLoc
import Verif.StructDec

/-!
# The distributed matrix of `OverlapDEC`: `OverlapMapping`

Model of `src/ParaMEDMEM/OverlapMapping.cxx` and of `OverlapDEC::synchronize` (OverlapDEC.cxx:122-162) after the exchange of the meshes.  The run of all processors is
one function: the collective communications make them meet.

Simplifications:
- values are in a field (no rounding); `mcIdType` and `int` numbers are natural numbers;
- the matrix of a pair, as the interpolator computes it from the meshes the processor has, is a parameter, and so are the numbers of the cells sent
  with a mesh (`buildSubMeshData` of the cells near the box of the other processor);
- the vectors `_matrixes_st`, `_source_proc_id_st` and `_target_proc_id_st` are one list of jobs;
- the address of the first element of an empty vector may be taken at lines 582 and 655 of `OverlapMapping.cxx` (nothing is read through it).
-/

namespace MC
variable {K : Type} [Field K]

/-- `SparseDoubleVec`, `std::map<mcIdType, double>` -/
abbrev SRow (K : Type) := List (Nat × K)

/-- a matrix and the processors of its source (columns) and of its target (rows) -/
structure Job (K : Type) where
  src : Nat
  tgt : Nat
  mat : List (SRow K)

/-- `OverlapMapping` (OverlapMapping.hxx:71-163) -/
structure OMap (K : Type) where
  sentSrc : List (Nat × List Nat) := []
  sentTrg : List (Nat × List Nat) := []
  jobs : List (Job K) := []
  nbRcv : List (Nat × Nat) := []
  zipComp : List (Nat × List Nat) := []
  zipRecv : List (Nat × List Nat) := []
  theMat : List (List (SRow K)) := []
  theSrc : List Nat := []
  deno : List (List (SRow K)) := []
  toSend : List Nat := []

/-- the set of the column numbers of a matrix, OverlapMapping.cxx:85-90 and 860-864 -/
def colSet (mat : List (SRow K)) : List Nat := mat.foldl (fun s row => setInsertAll s (row.map (·.1))) []

/-- `addContributionST`: OverlapMapping.cxx:70-93 (the numbers of the target cells are not used) -/
def OMap.add (m : OMap K) (mat : List (SRow K)) (srcIds : Option (List Nat)) (src tgt : Nat) : OMap K :=
  let m : OMap K := { m with jobs := m.jobs ++ [({ src := src, tgt := tgt, mat := mat } : Job K)] }
  match srcIds with
  | some ids => { m with nbRcv := mapSet m.nbRcv src ids.length }
  | none => { m with zipComp := mapSet m.zipComp tgt (colSet mat) }

/-- The part of `sendLocalMeshTo` which keeps the numbers of the cells sent (OverlapElementLocator.cxx:529-532, OverlapMapping.cxx:43-57) for all meshes sent, then the loop on
the jobs of `synchronize` (OverlapDEC.cxx:150-160).  `srcIds p q`, `trgIds p q`: the cells of the source, target mesh of `p` sent to `q`; `mat c`: the matrix of a pair;
`getSourceIds` (OverlapElementLocator.cxx:436-444) is null for the processor itself. -/
def fillMap (srcIds trgIds : Nat → Nat → List Nat) (mat : Couple → List (SRow K)) (todo : List (List Couple)) (me : Nat) (mine : List Couple) : OMap K :=
  let m0 : OMap K := (procsToSendMesh me todo).foldl (fun m x =>
    if (ofLex x).2 then { m with sentSrc := mapSet m.sentSrc (ofLex x).1 (srcIds me (ofLex x).1) }
    else { m with sentTrg := mapSet m.sentTrg (ofLex x).1 (trgIds me (ofLex x).1) }) {}
  mine.foldl (fun m c => m.add (mat c) (if c.src = me then none else some (srcIds c.src me)) c.src c.tgt) m0

/-! ## prepare -/

/-- `MPI_Alltoall` with one value for each processor -/
def allToAll1 {α : Type} (snd : List (List α)) : M (List (List α)) :=
  (List.range snd.length).mapM fun me => snd.mapM fun s => vget s me

/-- The numbers of rows to send: OverlapMapping.cxx:117-121 -/
def rowsToSend (N me : Nat) (jobs : List (Job K)) : M (List Nat) :=
  jobs.foldlM (fun cnt j => if j.src = me then vset cnt j.tgt j.mat.length else return cnt) (List.replicate N 0)

/-- `serializeMatrixStep0ST`, the part of what is sent: OverlapMapping.cxx:324-350 -/
def step0Send (N me : Nat) (jobs : List (Job K)) : M (Snd Nat) := do
  let cnt ← jobs.foldlM (fun cnt j => if j.src = me ∧ j.mat ≠ [] then vset cnt j.tgt (j.mat.length + 1) else return cnt) (List.replicate N 0)
  let szz := (jobs.map fun j => if j.src = me ∧ j.mat ≠ [] then j.mat.length + 1 else 0).sum
  let offs ← worldDispls N cnt
  let buf ← jobs.foldlM (fun buf j =>
    if j.src = me ∧ j.mat ≠ [] then do
      let start ← vget offs j.tgt
      let buf ← vset buf start (some 0)
      let r ← j.mat.foldlM (fun (buf, w) row => do
        let x ← known (← vget buf w)
        let buf ← vset buf (w + 1) (some (x + row.length))
        return (buf, w + 1)) (buf, start)
      return r.1
    else return buf) (List.replicate szz none)
  return { buf := buf, counts := cnt, displs := offs.map some }

/-- `serializeMatrixStep0ST`, the part of what is received: OverlapMapping.cxx:352-361, and the array of line 132 -/
def step0Recv (N : Nat) (nbrecv : List Nat) : M (Rcv Nat) := do
  let cnt := nbrecv.map fun n => if n > 0 then n + 1 else 0
  let offs ← worldDispls N cnt
  let last ← vget offs (N - 1)
  let lastc ← vget cnt (N - 1)
  return { buf := List.replicate (last + lastc) none, counts := cnt, displs := offs.map some }

/-- `serializeMatrixStep1ST`, what is received: OverlapMapping.cxx:384-395, 435: the numbers of values, their positions and the size -/
def step1Recv (N : Nat) (nbrecv : List Nat) (recv0 : List (Option Nat)) (offs0 : List Nat) : M (List Nat × List Nat × Nat) := do
  let cnt ← (List.range N).mapM fun i => do
    let n ← vget nbrecv i
    if n ≠ 0 then do
      let o ← vget offs0 i
      known (← vget recv0 (o + n))
    else return 0
  let offs ← worldDispls N cnt
  return (cnt, offs, cnt.sum)

/-- `serializeMatrixStep1ST`, what is sent: OverlapMapping.cxx:397-434: the columns and the values, with the same counts and positions -/
def step1Send (N me : Nat) (jobs : List (Job K)) : M (Snd Nat × Snd K) := do
  let cnt ← jobs.foldlM (fun cnt j => if j.src = me ∧ j.mat ≠ [] then vset cnt j.tgt ((j.mat.map List.length).sum) else return cnt) (List.replicate N 0)
  let offs ← worldDispls N cnt
  let all : List (Nat × K) := (jobs.map fun j => if j.src = me ∧ j.mat ≠ [] then j.mat.flatten else []).flatten
  return ({ buf := all.map fun e => some e.1, counts := cnt, displs := offs.map some }, { buf := all.map fun e => some e.2, counts := cnt, displs := offs.map some })

/-- `unserializationST`: OverlapMapping.cxx:459-486: the source processors and the matrices -/
def unserial (N : Nat) (nbrecv : List Nat) (recv0 : List (Option Nat)) (offs0 : List Nat) (recvI : List (Option Nat)) (recvD : List (Option K)) (offs1 : List Nat) :
    M (List Nat × List (List (SRow K))) := do
  let r ← (List.range N).mapM fun i => do
    let n ← vget nbrecv i
    if n ≠ 0 then do
      let rows ← (List.range n).mapM fun k => do
        let o ← vget offs0 i
        let offs ← known (← vget recv0 (o + k))
        let next ← known (← vget recv0 (o + k + 1))
        loop (next - offs) ([] : SRow K) fun l row => do
          let o1 ← vget offs1 i
          let c ← known (← vget recvI (o1 + offs + l))
          let x ← known (← vget recvD (o1 + offs + l))
          return mapSet row c x
      return [(i, rows)]
    else return []
  return (r.flatten.map (·.1), r.flatten.map (·.2))

/-- `finishToFillFinalMatrixST` and `fillSourceIdsZipReceivedForMultiply` (OverlapMapping.cxx:495-517, 846-868) and the end of `prepare` (166-168) -/
def OMap.finish (m : OMap K) (me : Nat) (toSend : List Nat) (srcs : List Nat) (mats : List (List (SRow K))) : OMap K :=
  let loc := m.jobs.filter fun j => decide (j.src ≠ me)
  let srcs := srcs ++ loc.map (·.src)
  let mats := mats ++ loc.map (·.mat)
  { m with
    theSrc := srcs
    theMat := mats
    zipRecv := (srcs.zip mats).foldl (fun z x => if x.1 ≠ me then mapSet z x.1 (colSet x.2) else z) m.zipRecv
    toSend := toSend
    jobs := [] }

/-- `prepare` on all processors: OverlapMapping.cxx:104-173 -/
def prepareAll (N : Nat) (todo : List (List Couple)) (ms : List (OMap K)) : M (List (OMap K)) := do
  let nbsend ← (List.range N).mapM fun me => do rowsToSend N me (← vget ms me).jobs
  let nbrecv ← allToAll1 nbsend
  let s0 ← (List.range N).mapM fun me => do step0Send N me (← vget ms me).jobs
  let r0 ← (List.range N).mapM fun me => do step0Recv N (← vget nbrecv me)
  let recv0 ← allToAllV s0 r0
  let offs0 := r0.map fun r => r.displs.map fun d => d.getD 0
  let r1 ← (List.range N).mapM fun me => do step1Recv N (← vget nbrecv me) (← vget recv0 me) (← vget offs0 me)
  let s1 ← (List.range N).mapM fun me => do step1Send N me (← vget ms me).jobs
  let recvI ← allToAllV (s1.map (·.1)) (r1.map fun r => { buf := List.replicate r.2.2 none, counts := r.1, displs := r.2.1.map some })
  let recvD ← allToAllV (s1.map (·.2)) (r1.map fun r => { buf := List.replicate r.2.2 none, counts := r.1, displs := r.2.1.map some })
  (List.range N).mapM fun me => do
    let (srcs, mats) ← unserial N (← vget nbrecv me) (← vget recv0 me) (← vget offs0 me) (← vget recvI me) (← vget recvD me) (← vget r1 me).2.1
    return (← vget ms me).finish me (procsToSendField me todo) srcs mats

/-! ## The denominators -/

/-- the row of the target mesh: OverlapMapping.cxx:265-281, 289-307 -/
def OMap.trgRow (m : OMap K) (me src j : Nat) : M Nat :=
  match mapFind m.sentTrg src with
  | none => .ok j
  | some ids => if src = me then .ok j else vget ids j

/-- `computeDenoConservativeVolumic`: OverlapMapping.cxx:252-310 -/
def OMap.computeDeno (m : OMap K) (me nbTrg : Nat) : M (OMap K) := do
  let deno ← (m.theSrc.zip m.theMat).foldlM (fun deno x => x.2.zipIdx.foldlM (fun deno y => y.1.foldlM (fun deno e => do
    let t ← m.trgRow me x.1 y.2
    let d ← vget deno t
    vset deno t (d + e.2)) deno) deno) (List.replicate nbTrg (0 : K))
  let d ← (m.theSrc.zip m.theMat).mapM fun x => x.2.zipIdx.mapM fun y => y.1.foldlM (fun row e => do
    let t ← m.trgRow me x.1 y.2
    return mapSet row e.1 (← vget deno t)) ([] : SRow K)
  return { m with deno := d }

/-! ## multiply -/

/-- `selectByTupleId`: MEDCouplingMemArray.txx:1374-1389; a number out of range is not checked -/
def selectTuples (nc : Nat) (arr : List K) (ids : List Nat) : M (List K) := do
  let l ← ids.mapM fun i => if i * nc + nc ≤ arr.length then .ok ((arr.drop (i * nc)).take nc) else undef
  return l.flatten

/-- What a processor sends: OverlapMapping.cxx:554-596 and 635-640 -/
def OMap.valuesToSend (m : OMap K) (N me nc : Nat) (mine : List Couple) (field : List K) : M (Snd K) := do
  let vals ← (List.range N).mapM fun p => do
    if p = me then return []
    else if p ∈ m.toSend then
      if cpl me p ∈ mine then
        match mapFind m.zipComp p with
        | none => throwX
        | some v => selectTuples nc field v
      else
        match mapFind m.sentSrc p with
        | none => throwX
        | some ids => selectTuples nc field ids
    else return []
  let offs ← worldDispls N (vals.map List.length)
  return { buf := vals.flatten.map some, counts := vals.map List.length, displs := offs.map some }

/-- What a processor expects: OverlapMapping.cxx:608-633 and 635-641 -/
def OMap.valuesToRecv (m : OMap K) (N me nc : Nat) (mine : List Couple) : M (Rcv K) := do
  let cnt ← (List.range N).mapM fun p => do
    if p = me then return 0
    else if p ∈ m.theSrc then
      if cpl p me ∈ mine then
        match mapFind m.nbRcv p with
        | none => throwX
        | some n => return n * nc
      else
        match mapFind m.zipRecv p with
        | none => throwX
        | some v => return v.length * nc
    else return 0
  let offs ← worldDispls N cnt
  let last ← vget offs (N - 1)
  let lastc ← vget cnt (N - 1)
  return { buf := List.replicate (last + lastc) none, counts := cnt, displs := offs.map some }

/-- One value of the matrix: for all components, the value of the source times the ratio is added (`transform` twice), the cell is marked:
OverlapMapping.cxx:705-714, 773-781, 806-815; `start`: where the tuple of the source begins -/
def addTuple (nc : Nat) (buf : List (Option K)) (start t : Nat) (ratio : K) (st : List K × List Bool) : M (List K × List Bool) := do
  let out ← loop nc st.1 fun k out => do
    let x ← known (← vget buf (start + k))
    let y ← vget out (t * nc + k)
    vset out (t * nc + k) (y + x * ratio)
  let hit ← vset st.2 t true
  return (out, hit)

/-- the loops on a matrix and its denominators; `pos`: where the tuple of a column begins, `row`: the target cell of a row -/
def applyMat (nc : Nat) (buf : List (Option K)) (pos row : Nat → M Nat) (mat deno : List (SRow K)) (st : List K × List Bool) : M (List K × List Bool) :=
  mat.zipIdx.foldlM (fun st y => do
    let d ← vget deno y.2
    y.1.zipIdx.foldlM (fun st e => do
      let t ← row y.2
      let x ← vget d e.2
      let p ← pos e.1.1
      addTuple nc buf p t (e.1.2 / x.2) st) st) st

/-- The matrix-vector product: OverlapMapping.cxx:666-828 -/
def OMap.apply (m : OMap K) (me nc ntup : Nat) (dflt : K) (mine : List Couple) (field : List K) (counts offs : List Nat) (recv : List (Option K)) : M (List K) := do
  let st ← (List.range m.theSrc.length).foldlM (fun st id => do
    let s ← vget m.theSrc id
    let mat ← vget m.theMat id
    let deno ← vget m.deno id
    let st ← if s = me then applyMat nc (field.map some) (fun c => .ok (c * nc)) (fun j => .ok j) mat deno st else .ok st
    let n ← vget counts s
    if n = 0 then return st
    else do
      let o ← vget offs s
      if cpl s me ∉ mine then
        match mapFind m.zipRecv s with
        | none => throwX
        | some vec => do
          let revert : List (Nat × Nat) := vec.zipIdx.foldl (fun r x => mapSet r x.1 x.2) []
          match mapFind m.sentTrg s with
          | none => throwX
          | some ids => applyMat nc recv (fun c => match mapFind revert c with
              | none => throwX
              | some i => .ok (o + i * nc)) (fun j => vget ids j) mat deno st
      else applyMat nc recv (fun c => .ok (o + c * nc)) (fun j => .ok j) mat deno st) (List.replicate (ntup * nc) (0 : K), List.replicate ntup false)
  loop ntup st.1 fun i out => do
    if ← vget st.2 i then return out
    else loop nc out fun k out => vset out (i * nc + k) dflt

/-- `multiply` on all processors: OverlapMapping.cxx:524-829; `fields`: the values of the source fields, `ntups`: the numbers of target cells -/
def multiplyAll (N nc : Nat) (dflt : K) (todo : List (List Couple)) (ms : List (OMap K)) (fields : List (List K)) (ntups : List Nat) : M (List (List K)) := do
  let snds ← (List.range N).mapM fun me => do (← vget ms me).valuesToSend N me nc (← vget todo me) (← vget fields me)
  let rcvs ← (List.range N).mapM fun me => do (← vget ms me).valuesToRecv N me nc (← vget todo me)
  let bufs ← allToAllV snds rcvs
  (List.range N).mapM fun me => do
    let r ← vget rcvs me
    (← vget ms me).apply me nc (← vget ntups me) dflt (← vget todo me) (← vget fields me) r.counts (r.displs.map fun d => d.getD 0) (← vget bufs me)

/-- `synchronize` (after the exchange of the meshes) then `sendData` on all processors, for fields of nature `IntensiveMaximum` -/
def overlapRun (nc : Nat) (dflt : K) (todo : List (List Couple)) (srcIds trgIds : Nat → Nat → List Nat) (mat : Couple → List (SRow K)) (fields : List (List K)) (ntups : List Nat) :
    M (List (List K)) := do
  let N := todo.length
  let ms := todo.zipIdx.map fun x => fillMap srcIds trgIds mat todo x.2 x.1
  let ms ← prepareAll N todo ms
  let ms ← (List.range N).mapM fun me => do (← vget ms me).computeDeno me (← vget ntups me)
  multiplyAll N nc dflt todo ms fields ntups

end MC
