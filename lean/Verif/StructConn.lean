import Verif.Struct

/-!
# Structured grids: connectivity – model

`MEDCouplingStructuredMesh.cxx`. Nests of loops are written as iterations over `boxPos` (the innermost loop is the first size of the list).
-/

namespace MC

/-- `cp[o] = x0; cp[o+1] = x1; ...`. -/
def writeAt {α : Type} (buf : List (Option α)) (o : Int) : List α → M (List (Option α))
  | [] => .ok buf
  | x :: xs => do
    let b ← wr buf o (some x)
    writeAt b (o + 1) xs

/-- `getNodeIdsOfCell`, MEDCouplingStructuredMesh.cxx:156-192; `p` = `tmp2`, `s` = `tmpNode`. -/
def structNodeIdsOfCell (ngs : List Int) (cellId : Int) : M (List Int) := do
  let meshDim ← structMeshDim ngs
  let p ← getPosFromId cellId ((splitVect (cellGridStructure ngs)).take meshDim)
  let s := splitVect ngs
  match meshDim with
  | 1 => do
    let i ← rd p 0
    .ok [i, i + 1]
  | 2 => do
    let i ← rd p 0
    let j ← rd p 1
    let s1 ← rd s 1
    .ok [j * s1 + i, j * s1 + i + 1, (j + 1) * s1 + i + 1, (j + 1) * s1 + i]
  | 3 => do
    let i ← rd p 0
    let j ← rd p 1
    let k ← rd p 2
    let s1 ← rd s 1
    let s2 ← rd s 2
    .ok [j * s1 + i + k * s2, j * s1 + i + 1 + k * s2, (j + 1) * s1 + i + 1 + k * s2, (j + 1) * s1 + i + k * s2,
      j * s1 + i + (k + 1) * s2, j * s1 + i + 1 + (k + 1) * s2, (j + 1) * s1 + i + 1 + (k + 1) * s2, (j + 1) * s1 + i + (k + 1) * s2]
  | _ => throwX

/-- `ZipNodeStructure`, MEDCouplingStructuredMesh.cxx:1468-1492: the sizes of the axes with at least two nodes. -/
def zipNodeStructure (ngs : List Int) : M (List Int) :=
  if ngs.length > 3 ∨ ngs.length < 1 then throwX
  else if ngs.any (fun n => decide (n < 1)) then throwX
  else .ok (ngs.filter fun n => decide (n ≥ 2))

/-- The body of the loop of `Build1GTNodalConnectivity1D`, lines 1217-1221. -/
def gt1Body (_n1 : Int) : List Int → List Int
  | [i] => [i, i + 1]
  | _ => []

/-- The body of the loops of `Build1GTNodalConnectivity2D`, lines 1233-1240. -/
def gt2Body (n1 : Int) : List Int → List Int
  | [i, j] => [i + 1 + j * (n1 + 1), i + j * (n1 + 1), i + (j + 1) * (n1 + 1), i + 1 + (j + 1) * (n1 + 1)]
  | _ => []

/-- The body of the loops of `Build1GTNodalConnectivity3D`, lines 1252-1265. -/
def gt3Body (n1 n2 : Int) : List Int → List Int
  | [i, j, k] =>
    let tmp := (n1 + 1) * (n2 + 1)
    [i + 1 + j * (n1 + 1) + k * tmp, i + j * (n1 + 1) + k * tmp, i + (j + 1) * (n1 + 1) + k * tmp, i + 1 + (j + 1) * (n1 + 1) + k * tmp,
      i + 1 + j * (n1 + 1) + (k + 1) * tmp, i + j * (n1 + 1) + (k + 1) * tmp, i + (j + 1) * (n1 + 1) + (k + 1) * tmp,
      i + 1 + (j + 1) * (n1 + 1) + (k + 1) * tmp]
  | _ => []

/-- The loops `for (...) { cp[w*pos+0] = ...; ...; pos++ }`. -/
def gtLoop (w : Nat) (body : List Int → List Int) (dims : List Int) (alloc : Int) : M (List (Option Int)) := do
  let r ← (boxPos dims).foldlM (m := Except Err) (fun (s : List (Option Int) × Int) p => do
    let b ← writeAt s.1 (w * s.2) (body p)
    .ok (b, s.2 + 1)) (mallocN Int alloc.toNat, 0)
  .ok r.1

/-- `Build1GTNodalConnectivity`, MEDCouplingStructuredMesh.cxx:812-837, with 1D (1210-1223), 2D (1225-1242) and 3D (1244-1267). -/
def build1GT (ngs : List Int) : M (List (Option Int)) := do
  let z ← zipNodeStructure ngs
  match z with
  | [] => .ok [some 0]
  | [a] => gtLoop 2 (gt1Body (a - 1)) [a - 1] (2 * (a - 1))
  | [a, b] => gtLoop 4 (gt2Body (a - 1)) [a - 1, b - 1] (4 * (a - 1) * (b - 1))
  | [a, b, c] => gtLoop 8 (gt3Body (a - 1) (b - 1)) [a - 1, b - 1, c - 1] (8 * (a - 1) * (b - 1) * (c - 1))
  | _ => throwX

/-! ## Faces -/

/-- `GetNumberOfCellsOfSubLevelMesh`, MEDCouplingStructuredMesh.cxx:2629-2644. -/
def numberOfCellsOfSubLevelMesh (cgs : List Int) : Int :=
  ((List.range cgs.length).map fun i => ((List.range cgs.length).map fun j => if j ≠ i then cgs.getD j 0 else cgs.getD j 0 + 1).prod).sum

/-- A nest of loops `for (...) { cp[0] = ...; cp += w; }` from a position `cp`. -/
def cpLoop (w : Int) (body : List Int → List Int) (dims : List Int) (s : List (Option Int) × Int) : M (List (Option Int) × Int) :=
  (boxPos dims).foldlM (m := Except Err) (fun (s : List (Option Int) × Int) p => do
    let b ← writeAt s.1 s.2 (body p)
    .ok (b, s.2 + w)) s

/-- `Build1GTNodalConnectivityOfSubLevelMesh2D`, lines 1506-1511: edges along the second axis. -/
def sub2BodyX (off0 : Int) : List Int → List Int
  | [j, i] => [j * off0 + i, (j + 1) * off0 + i]
  | _ => []

/-- Idem, lines 1513-1518: edges along the first axis. -/
def sub2BodyY (off0 : Int) : List Int → List Int
  | [i, j] => [j * off0 + i, j * off0 + (i + 1)]
  | _ => []

/-- `Build1GTNodalConnectivityOfSubLevelMesh3D`, lines 1282-1290: faces normal to the first axis. -/
def sub3BodyX (off0 off1 : Int) : List Int → List Int
  | [k, j, i] => [k * off1 + j * off0 + i, (k + 1) * off1 + j * off0 + i, (k + 1) * off1 + (j + 1) * off0 + i, k * off1 + (j + 1) * off0 + i]
  | _ => []

/-- Idem, lines 1292-1300: faces normal to the second axis. -/
def sub3BodyY (off0 off1 : Int) : List Int → List Int
  | [k, i, j] => [k * off1 + j * off0 + i, (k + 1) * off1 + j * off0 + i, (k + 1) * off1 + j * off0 + (i + 1), k * off1 + j * off0 + (i + 1)]
  | _ => []

/-- Idem, lines 1302-1310: faces normal to the third axis. -/
def sub3BodyZ (off0 off1 : Int) : List Int → List Int
  | [j, i, k] => [k * off1 + j * off0 + i, k * off1 + j * off0 + (i + 1), k * off1 + (j + 1) * off0 + (i + 1), k * off1 + (j + 1) * off0 + i]
  | _ => []

/-- `Build1GTNodalConnectivityOfSubLevelMesh`, MEDCouplingStructuredMesh.cxx:839-855, with 2D (1494-1520) and 3D (1269-1312). -/
def build1GTSub (ngs : List Int) : M (List (Option Int)) :=
  match ngs with
  | [a, b] => do
    let s ← cpLoop 2 (sub2BodyX a) [b - 1, a] (mallocN Int (2 * numberOfCellsOfSubLevelMesh [a - 1, b - 1]).toNat, 0)
    let s ← cpLoop 2 (sub2BodyY a) [a - 1, b] s
    .ok s.1
  | [a, b, c] => do
    let s ← cpLoop 4 (sub3BodyX a (a * b)) [c - 1, b - 1, a] (mallocN Int (4 * numberOfCellsOfSubLevelMesh [a - 1, b - 1, c - 1]).toNat, 0)
    let s ← cpLoop 4 (sub3BodyY a (a * b)) [c - 1, a - 1, b] s
    let s ← cpLoop 4 (sub3BodyZ a (a * b)) [b - 1, a - 1, c] s
    .ok s.1
  | _ => throwX

/-! ## Reverse connectivity -/

/-- Output of the reverse connectivity: the two arrays and the two pointers (`rn` and `rni`); `rni` points on the last written offset. -/
structure RevSt where
  rev : List (Option Int)
  rn : Int
  idx : List (Option Int)
  rni : Int

/-- `rn[0] = ...; ...; rni[1] = rni[0] + n; rn += n; rni++`. -/
def revPush (s : RevSt) (cells : List Int) : M RevSt := do
  let r ← writeAt s.rev s.rn cells
  let o ← rdI s.idx s.rni
  let i ← wr s.idx (s.rni + 1) (some (o + (cells.length : Int)))
  .ok { rev := r, rn := s.rn + cells.length, idx := i, rni := s.rni + 1 }

/-- `*rni = 0` on freshly allocated arrays. -/
def revStart (nrev nidx : Int) : M RevSt := do
  let i ← wr (mallocN Int nidx.toNat) 0 (some 0)
  .ok { rev := mallocN Int nrev.toNat, rn := 0, idx := i, rni := 0 }

/-- `for (i = 1; i < n - 1; i++)`. -/
def innerLoop (n : Int) (s : RevSt) (body : Int → List Int) : M RevSt :=
  loop (n - 2).toNat s fun i s => revPush s (body ((i : Int) + 1))

/-- `GetReverseNodalConnectivity1`, MEDCouplingStructuredMesh.cxx:602-637. (`ngs[0] < 0` throws in `alloc`; a zero or one is treated apart.) -/
def reverseNodal1 (n : Int) : M (List (Option Int) × List (Option Int)) :=
  if n < 0 then throwX
  else if n = 0 then .ok ([], [some 0])
  else if n = 1 then .ok ([some 0], [some 0, some 1])
  else do
    let s ← revStart (2 * (n - 1)) (n + 1)
    let s ← revPush s [0]
    let s ← innerLoop n s fun i => [i - 1, i]
    let s ← revPush s [n - 2]
    .ok (s.rev, s.idx)

/-- `GetReverseNodalConnectivity2`, MEDCouplingStructuredMesh.cxx:639-708. With an empty axis `setIJ` is called on an array that was not
allocated. -/
def reverseNodal2 (nx ny : Int) : M (List (Option Int) × List (Option Int)) :=
  if nx = 0 ∨ ny = 0 then undef
  else if nx = 1 ∨ ny = 1 then reverseNodal1 (max nx ny)
  else if nx < 0 ∨ ny < 0 then throwX
  else do
    let cx := nx - 1
    let cy := ny - 1
    let s ← revStart (4 * (nx - 2) * (ny - 2) + 2 * 2 * (nx - 2) + 2 * 2 * (ny - 2) + 4) (nx * ny + 1)
    let s ← revPush s [0]
    let s ← innerLoop nx s fun i => [i - 1, i]
    let s ← revPush s [cx - 1]
    let s ← loop (ny - 2).toNat s fun j' s => do
      let j : Int := (j' : Int) + 1
      let off := cx * (j - 1)
      let off2 := cx * j
      let s ← revPush s [off, off2]
      let s ← innerLoop nx s fun i => [i - 1 + off, i + off, i - 1 + off2, i + off2]
      revPush s [off + cx - 1, off2 + cx - 1]
    let off3 := cx * (cy - 1)
    let s ← revPush s [off3]
    let s ← innerLoop nx s fun i => [i - 1 + off3, i + off3]
    let s ← revPush s [cx * cy - 1]
    .ok (s.rev, s.idx)

/-- The cells written for a node in `GetReverseNodalConnectivity3`, lines 758-802. -/
def rev3Body (nx ny nz : Int) : List Int → List Int
  | [i, j, k] =>
    let cx := nx - 1
    let cy := ny - 1
    let cz := nz - 1
    let offZ0 := (k - 1) * cx * cy
    let offZ1 := k * cx * cy
    let off00 := (j - 1) * cx + offZ0
    let off01 := j * cx + offZ0
    let off10 := (j - 1) * cx + offZ1
    let off11 := j * cx + offZ1
    if (k ≠ 0 ∧ k ≠ nz - 1) ∧ (j ≠ 0 ∧ j ≠ ny - 1) ∧ (i ≠ 0 ∧ i ≠ nx - 1) then
      [off00 + i - 1, off00 + i, off01 + i - 1, off01 + i, off10 + i - 1, off10 + i, off11 + i - 1, off11 + i]
    else
      (if k ≥ 1 ∧ j ≥ 1 ∧ i ≥ 1 then [off00 + i - 1] else []) ++
      (if k ≥ 1 ∧ j ≥ 1 ∧ i < cx then [off00 + i] else []) ++
      (if k ≥ 1 ∧ j < cy ∧ i ≥ 1 then [off01 + i - 1] else []) ++
      (if k ≥ 1 ∧ j < cy ∧ i < cx then [off01 + i] else []) ++
      (if k < cz ∧ j ≥ 1 ∧ i ≥ 1 then [off10 + i - 1] else []) ++
      (if k < cz ∧ j ≥ 1 ∧ i < cx then [off10 + i] else []) ++
      (if k < cz ∧ j < cy ∧ i ≥ 1 then [off11 + i - 1] else []) ++
      (if k < cz ∧ j < cy ∧ i < cx then [off11 + i] else [])
  | _ => []

/-- Lines 725-742: the structure without its first axis of size one. -/
def dropFirstOne : List Int → List Int
  | [] => []
  | n :: l => if n = 1 then l else n :: dropFirstOne l

/-- `GetReverseNodalConnectivity3`, MEDCouplingStructuredMesh.cxx:710-806. -/
def reverseNodal3 (nx ny nz : Int) : M (List (Option Int) × List (Option Int)) :=
  if nx = 0 ∨ ny = 0 ∨ nz = 0 then undef
  else if nx = 1 ∨ ny = 1 ∨ nz = 1 then
    match dropFirstOne [nx, ny, nz] with
    | [a, b] => reverseNodal2 a b
    | _ => undef
  else if nx < 0 ∨ ny < 0 ∨ nz < 0 then throwX
  else do
    let s ← revStart (8 * (nx - 2) * (ny - 2) * (nz - 2) +
        4 * (2 * (nx - 2) * (ny - 2) + 2 * (nx - 2) * (nz - 2) + 2 * (ny - 2) * (nz - 2)) + 2 * 4 * (nx - 2) + 2 * 4 * (ny - 2) +
        2 * 4 * (nz - 2) + 8) (nx * ny * nz + 1)
    let s ← (boxPos [nx, ny, nz]).foldlM (m := Except Err) (fun s p => revPush s (rev3Body nx ny nz p)) s
    .ok (s.rev, s.idx)

/-- `getReverseNodalConnectivity`, MEDCouplingStructuredMesh.cxx:582-600. -/
def structReverseNodal (ngs : List Int) : M (List (Option Int) × List (Option Int)) :=
  match ngs with
  | [a] => reverseNodal1 a
  | [a, b] => reverseNodal2 a b
  | [a, b, c] => reverseNodal3 a b c
  | _ => throwX

end MC
