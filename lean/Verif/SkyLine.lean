import Verif.Base
import Verif.StdAlg
import Verif.Sky

/-!
# `MEDCouplingSkyLineArray` (MEDCouplingSkyLineArray.cxx)

Three arrays: super index, index and values; the super index is empty for an array with two levels.  `std::copy` inside an array is taken as
`memmove`, which it is for integers in the usual libraries; the standard leaves it undefined when the target is inside the source range.
`junk` are the values found in memory given by `reAlloc`.  The index is taken as not empty where `getNumberOf` is used.
-/

namespace MC

structure SkyL where
  si : List Int
  idx : List Int
  vals : List Int
deriving DecidableEq

/-- `std::copy(v + a, v + b, v + c)` in the same array -/
def moveIn (v : List Int) (a b c : Int) : M (List Int) :=
  if 0 ≤ a ∧ a ≤ b ∧ b ≤ v.length ∧ 0 ≤ c ∧ c + (b - a) ≤ v.length then
    .ok (v.take c.toNat ++ (v.drop a.toNat).take (b - a).toNat ++ v.drop (c + (b - a)).toNat)
  else undef

/-- `std::copy(p.begin(), p.end(), v + c)` from another array -/
def copyTo (p v : List Int) (c : Int) : M (List Int) :=
  if 0 ≤ c ∧ c + p.length ≤ v.length then .ok (v.take c.toNat ++ p ++ v.drop (c + p.length).toNat) else undef

/-- the values from `v + a` to `v + b` -/
def readIn (v : List Int) (a b : Int) : M (List Int) :=
  if 0 ≤ a ∧ a ≤ b ∧ b ≤ v.length then .ok ((v.drop a.toNat).take (b - a).toNat) else undef

/-- `reAlloc` (MEDCouplingMemArray.txx) -/
def reAllocL (junk : Nat → Int) (v : List Int) (n : Int) : M (List Int) :=
  if n < 0 then undef else .ok (v.take n.toNat ++ (List.range (n.toNat - v.length)).map junk)

/-- `for (ii = a; ii < b; ii++) v[ii] += delta` -/
def addRange (v : List Int) (a b delta : Int) : M (List Int) :=
  loop (b - a).toNat v fun k v => do
    let x ← rd v (a + k)
    wr v (a + k) (x + delta)

/-- `checkSuperIndex` (257-267) -/
def SkyL.checkSuper (s : SkyL) : M Unit := if s.si.length = 0 then throwX else .ok ()

/-- `validSuperIndex` (269-278) -/
def SkyL.validSuper (s : SkyL) (i : Int) : M Unit := if i < 0 ∨ i ≥ s.si.length then throwX else .ok ()

/-- `validIndex` (280-289) -/
def SkyL.validIdx (s : SkyL) (i : Int) : M Unit := if i < 0 ∨ i ≥ s.idx.length then throwX else .ok ()

/-- `validSuperIndexAndIndex` (291-302): the position of the pack -/
def SkyL.validBoth (s : SkyL) (superIdx i : Int) : M Int := do
  s.validSuper superIdx
  let p ← rd s.si superIdx
  if p + i < 0 ∨ p + i ≥ s.idx.length then throwX else .ok (p + i)

/-- `getSimplePackSafe` (544-553) -/
def SkyL.getSimplePackSafe (s : SkyL) (k : Int) : M (List Int) :=
  if k < 0 ∨ k ≥ s.idx.length then throwX
  else do
    let a ← rd s.idx k
    let b ← rd s.idx (k + 1)
    readIn s.vals a b

/-- the loop on the packs of a super pack in `findPackIds` (601-609) -/
def SkyL.findPack (s : SkyL) (pack : List Int) (start : Int) : (n j : Nat) → M Int
  | 0, _ => .ok (-1)
  | n + 1, j => do
    let b ← rd s.idx (start + j + 1)
    let a ← rd s.idx (start + j)
    if (pack.length : Int) = b - a then do
      let p ← readIn s.vals a b
      if p = pack then .ok (j : Int) else s.findPack pack start n (j + 1)
    else s.findPack pack start n (j + 1)

/-- `findPackIds` (577-611) -/
def SkyL.findPackIds (s : SkyL) (supers : List Int) (pack : List Int) : M (List Int) := do
  s.checkSuper
  if pack.length = 0 then throwX
  else supers.mapM fun sp => do
    let a ← rd s.si sp
    let b ← rd s.si (sp + 1)
    s.findPack pack a (b - a).toNat 0

/-- `deletePack` (618-640) -/
def SkyL.deletePack (junk : Nat → Int) (s : SkyL) (superIdx i : Int) : M SkyL := do
  s.checkSuper
  let pos ← s.validBoth superIdx i
  let start ← rd s.idx pos
  let stop ← rd s.idx (pos + 1)
  let v ← moveIn s.vals stop s.vals.length start
  let v ← reAllocL junk v (s.vals.length - (stop - start))
  let x ← moveIn s.idx (pos + 1) s.idx.length pos
  let x ← reAllocL junk x (s.idx.length - 1)
  let x ← addRange x pos (s.idx.length - 1) (-(stop - start))
  let si ← addRange s.si (superIdx + 1) s.si.length (-1)
  .ok ⟨si, x, v⟩

/-- `deleteSimplePack` (642-667) -/
def SkyL.deleteSimplePack (junk : Nat → Int) (s : SkyL) (i : Int) : M SkyL := do
  s.validIdx i
  let start ← rd s.idx i
  let stop ← rd s.idx (i + 1)
  if start - stop < 0 then do
    let v ← moveIn s.vals stop s.vals.length start
    let v ← reAllocL junk v (s.vals.length + (start - stop))
    let x ← moveIn s.idx (i + 1) s.idx.length i
    let x ← addRange x i (s.idx.length - 1) (start - stop)
    let x ← reAllocL junk x (s.idx.length - 1)
    .ok ⟨s.si, x, v⟩
  else throwX

/-- `replaceSimplePacks` (668-712) -/
def SkyL.replaceSimplePacks (s : SkyL) (ids : List Int) (packs : List (List Int)) : M SkyL :=
  if ids = [] then .ok s
  else do
    ids.forM s.validIdx
    if ids.length ≠ packs.length then throwX
    else do
      let sets ← (List.range (s.idx.length - 1)).mapM fun k : Nat => do
        let a ← rd s.idx (k : Int)
        let b ← rd s.idx (k + 1 : Int)
        let p ← readIn s.vals a b
        .ok (setInsertAll [] p)
      let sets ← (ids.zip packs).foldlM (fun (l : List (List Int)) q => wr l q.1 (setInsertAll [] q.2)) sets
      .ok ⟨s.si, (sets.map fun p => (p.length : Int)).scanl (· + ·) 0, sets.flatten⟩

/-- `if (end_prec != 0) copy(v + end_prec, v + b, v + start_prec)` (729-730, 734-735) -/
def moveNZ (v : List Int) (a b c : Int) : M (List Int) := if a ≠ 0 then moveIn v a b c else .ok v

/-- the same, followed by the shift of the values (746-750, 756-760) -/
def moveAddNZ (v : List Int) (a b c d : Int) : M (List Int) :=
  if a ≠ 0 then do
    let x ← moveIn v a b c
    addRange x c b d
  else .ok v

/-- one deleted pack in the values, in `deleteSimplePacks` (726-733): values, `start_prec`, `end_prec` -/
def delValStep (idx : List Int) (s : List Int × Int × Int) (k : Int) : M (List Int × Int × Int) := do
  let start ← rd idx k
  let v ← moveNZ s.1 s.2.2 start s.2.1
  let stop ← rd idx (k + 1)
  .ok (v, s.2.1 + (start - s.2.2), stop)

/-- one deleted pack in the index (744-755): index, `offset`, `start_prec`, `end_prec`, `deleted` -/
def delIdxStep (s : List Int × Int × Int × Int × Int) (k : Int) : M (List Int × Int × Int × Int × Int) := do
  let x ← moveAddNZ s.1 s.2.2.2.1 k s.2.2.1 (-s.2.1)
  let b ← rd x (k + 1)
  let a ← rd x k
  .ok (x, s.2.1 + (b - a), k - s.2.2.2.2, k + 1, s.2.2.2.2 + 1)

/-- `deleteSimplePacks` (714-762) -/
def SkyL.deleteSimplePacks (junk : Nat → Int) (s : SkyL) (ids : List Int) : M SkyL := do
  ids.forM s.validIdx
  let del := setInsertAll [] ids
  let r ← del.foldlM (delValStep s.idx) (s.vals, 0, 0)
  let v ← moveNZ r.1 r.2.2 s.vals.length r.2.1
  let v ← reAllocL junk v (s.vals.length - (r.2.2 - r.2.1))
  let q ← del.foldlM delIdxStep (s.idx, 0, 0, 0, 0)
  let x ← moveAddNZ q.1 q.2.2.2.1 s.idx.length q.2.2.1 (-q.2.1)
  let x ← reAllocL junk x (s.idx.length - q.2.2.2.2)
  .ok ⟨s.si, x, v⟩

/-- `pushBackPack` (768-797) -/
def SkyL.pushBackPack (junk : Nat → Int) (s : SkyL) (superIdx : Int) (pack : List Int) : M SkyL := do
  s.checkSuper
  s.validSuper superIdx
  let sp ← rd s.si (superIdx + 1)
  let at' ← rd s.idx sp
  let v ← reAllocL junk s.vals (s.vals.length + pack.length)
  let v ← moveIn v at' s.vals.length (at' + pack.length)
  let v ← copyTo pack v at'
  let x ← reAllocL junk s.idx (s.idx.length + 1)
  let x ← moveIn x (sp + 1) s.idx.length (sp + 2)
  let y ← rd x sp
  let x ← wr x (sp + 1) (y + pack.length)
  let x ← addRange x (sp + 2) (s.idx.length + 1) pack.length
  let si ← addRange s.si (superIdx + 1) s.si.length 1
  .ok ⟨si, x, v⟩

/-- `if (deltaSz > 0) reAlloc(initValSz + deltaSz)` (817-818) -/
def growVals (junk : Nat → Int) (v : List Int) (n delta : Int) : M (List Int) := if delta > 0 then reAllocL junk v (n + delta) else .ok v

/-- `if (deltaSz < 0) reAlloc(initValSz + deltaSz)` (821-822) -/
def shrinkVals (junk : Nat → Int) (v : List Int) (n delta : Int) : M (List Int) := if delta < 0 then reAllocL junk v (n + delta) else .ok v

/-- the values after the pack moved by `delta` (815-823) -/
def shiftTail (junk : Nat → Int) (vals : List Int) (stop delta : Int) : M (List Int) :=
  if delta ≠ 0 then do
    let v ← growVals junk vals vals.length delta
    let v ← moveIn v stop vals.length (stop + delta)
    shrinkVals junk v vals.length delta
  else .ok vals

/-- The common part of `replaceSimplePack` and `replacePack` (808-829, 845-865) -/
def SkyL.replaceAt (junk : Nat → Int) (s : SkyL) (pos : Int) (pack : List Int) : M SkyL := do
  let start ← rd s.idx pos
  let stop ← rd s.idx (pos + 1)
  let delta := (pack.length : Int) - (stop - start)
  let v ← shiftTail junk s.vals stop delta
  let v ← copyTo pack v start
  let x ← addRange s.idx (pos + 1) s.idx.length delta
  .ok ⟨s.si, x, v⟩

/-- `replaceSimplePack` (803-830) -/
def SkyL.replaceSimplePack (junk : Nat → Int) (s : SkyL) (i : Int) (pack : List Int) : M SkyL := do
  s.validIdx i
  s.replaceAt junk i pack

/-- `replacePack` (836-866) -/
def SkyL.replacePack (junk : Nat → Int) (s : SkyL) (superIdx i : Int) (pack : List Int) : M SkyL := do
  s.checkSuper
  let pos ← s.validBoth superIdx i
  s.replaceAt junk pos pack

/-- The packs read one after the other, as `thresholdPerPack` and `uniqueNotSortedByPack` do -/
def SkyL.readPacks (s : SkyL) : M (List (List Int)) :=
  (List.range (s.idx.length - 1)).mapM fun k : Nat => do
    let a ← rd s.idx (k : Int)
    let b ← rd s.idx (k + 1 : Int)
    readIn s.vals a b

/-- `thresholdPerPack` (367-418).  The values are written one after the other in arrays of the right size. -/
def SkyL.thresholdPerPack (s : SkyL) (threshold : Int) : M (SkyL × SkyL) := do
  let ps ← s.readPacks
  let l := ps.map fun p => (p.countP fun v => decide (v < threshold) : Int)
  let r := ps.map fun p => (p.length : Int) - (p.countP fun v => decide (v < threshold) : Int)
  let out := ps.foldl (fun (o : List Int × List Int) p => p.foldl (fun o v => if v < threshold then (o.1 ++ [v], o.2) else (o.1, o.2 ++ [v])) o) ([], [])
  .ok (⟨[], l.scanl (· + ·) 0, out.1⟩, ⟨[], r.scanl (· + ·) 0, out.2⟩)

/-- `groupPacks` (420-433) -/
def SkyL.groupPacks (s : SkyL) (ids : List Int) : M SkyL :=
  if ids.length = 0 then throwX
  else do
    let x ← ids.mapM fun i : Int => if i < 0 ∨ i ≥ s.idx.length then throwX else rd s.idx i
    .ok ⟨[], x, s.vals⟩

/-- `uniqueNotSortedByPack` (435-459) -/
def SkyL.uniqueByPack (s : SkyL) : M SkyL := do
  let ps ← s.readPacks
  .ok ⟨[], (ps.map fun p => ((setInsertAll [] p).length : Int)).scanl (· + ·) 0, (ps.map fun p => setInsertAll [] p).flatten⟩

/-- `AggregatePacks` (468-539), on the arrays which are not null -/
def aggregatePacks (sks : List SkyL) : M SkyL :=
  match sks with
  | [] => throwX
  | s0 :: _ =>
    if sks.any fun s => decide (s.idx.length ≠ s0.idx.length) then throwX
    else do
      let sizes ← (List.range (s0.idx.length - 1)).mapM fun k : Nat => sks.foldlM (fun (n : Int) s => do
        let b ← rd s.idx (k + 1 : Int)
        let a ← rd s.idx (k : Int)
        .ok (n + (b - a))) 0
      let ps ← (List.range (s0.idx.length - 1)).mapM fun k : Nat => sks.mapM fun s => do
        let a ← rd s.idx (k : Int)
        let b ← rd s.idx (k + 1 : Int)
        readIn s.vals a b
      .ok ⟨[], sizes.scanl (· + ·) 0, (ps.map List.flatten).flatten⟩

/-- The faces between the separators (`find(w, end, -1)`, 111-130) -/
def cutAtMinus : List Int → List (List Int)
  | [] => [[]]
  | x :: l =>
    if x = -1 then [] :: cutAtMinus l
    else match cutAtMinus l with
      | [] => [[x]]
      | f :: fs => (x :: f) :: fs

/-- the checks of `BuildFromPolyhedronConn` (81-101) -/
def polyConnCheck (c cI : List Int) : M Unit := do
  let last ← rd cI ((cI.length : Int) - 1)
  if (c.length : Int) ≠ last then throwX
  else do
    let _ ← loop cI.length (-1 : Int) fun i prev => do
      let j ← rd cI (i : Int)
      if j < prev then throwX
      else if (i : Int) ≠ (cI.length : Int) - 1 then do
        let t ← rd c j
        if t ≠ 31 then throwX else .ok j
      else .ok j
    .ok ()

/-- `BuildFromPolyhedronConn` (74-140) -/
def buildFromPolyhedronConn (c cI : List Int) : M SkyL := do
  polyConnCheck c cI
  let cells ← (List.range (cI.length - 1)).mapM fun k : Nat => do
    let a ← rd cI (k : Int)
    let b ← rd cI (k + 1 : Int)
    let l ← readIn c (a + 1) b
    .ok (cutAtMinus l)
  .ok ⟨(cells.map fun fs => (fs.length : Int)).scanl (· + ·) 0, (cells.flatten.map fun f => (f.length : Int)).scanl (· + ·) 0, cells.flatten.flatten⟩

/-- a value written at the end of what was written in an array of `sz` values -/
def pushMax (sz : Int) (c : List Int) (l : List Int) : M (List Int) := if (c.length : Int) + l.length ≤ sz then .ok (c ++ l) else undef

/-- `convertToPolyhedronConn` (146-180): connectivity and its index -/
def SkyL.convertToPolyhedronConn (s : SkyL) : M (List Int × List Int) := do
  s.checkSuper
  let i0 ← rd s.idx 0
  let i1 ← rd s.idx ((s.idx.length : Int) - 1)
  let sz := (i1 - i0) + ((s.idx.length : Int) - 1)
  let r ← loop (s.si.length - 1) (([] : List Int), ([] : List Int)) fun i r => do
    let e ← rd s.si (i + 1 : Int)
    let c ← pushMax sz r.1 [31]
    let b ← rd s.si (i : Int)
    let c' ← loop (e - b).toNat c fun j c => do
      let x ← rd s.idx (b + j)
      let y ← rd s.idx (b + j + 1)
      let p ← readIn s.vals x y
      let c ← pushMax sz c p
      if b + j ≠ e - 1 then pushMax sz c [-1] else .ok c
    .ok (c', r.2 ++ [(r.1.length : Int)])
  .ok (r.1, r.2 ++ [(r.1.length : Int)])

end MC
