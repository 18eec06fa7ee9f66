import Verif.Struct

/-!
# Structured grids: bounding box of the marked cells – model

`MEDCouplingStructuredMesh.cxx`. Nests of loops are written as iterations over `boxPos` (the innermost loop is the first size of the list).
-/

namespace MC

/-- `std::numeric_limits<mcIdType>::max()` with 64 bit ids. -/
def idMax : Int := 2 ^ 63 - 1

/-- State of the loops of `FindMinimalPartOf1D/2D/3D`: `it`, the pairs `(nxMin,nxMax)` per axis and `ret`. -/
structure MinSt where
  it : Int
  mm : List (Int × Int)
  ret : Int

/-- The body of the loops, lines 1330-1335, 1373-1381, 1425-1435. -/
def minPartBody (crit : List Bool) (s : MinSt) (p : List Int) : M MinSt := do
  let b ← rd crit s.it
  .ok { it := s.it + 1,
        mm := if b then List.zipWith (fun (r : Int × Int) x => (min r.1 x, max r.2 x)) s.mm p else s.mm,
        ret := if b then s.ret + 1 else s.ret }

/-- `FindMinimalPartOf1D`, `2D`, `3D`, MEDCouplingStructuredMesh.cxx:1316-1458. In 1D the index of the loop is the rank of the cell. -/
def minPartLoop (st : List Int) (crit : List Bool) : M (Int × List (Int × Int)) := do
  let s ← (boxPos st).foldlM (m := Except Err) (minPartBody crit) ⟨0, st.map fun _ => (idMax, -idMax), 0⟩
  .ok (s.ret, if s.ret = 0 then st.map (fun n => (n.tdiv 2, n.tdiv 2)) else s.mm.map fun r => (r.1, r.2 + 1))

/-- The body of the loop on the axes, lines 1083-1104. -/
def enlargeRange (minLen n : Int) (r : Int × Int) : M (Int × Int) :=
  if n < minLen then throwX
  else if r.2 - r.1 < minLen then
    let middle := (r.1 + r.2).tdiv 2
    let a := middle - minLen.tdiv 2
    let b := middle + minLen - minLen.tdiv 2
    let ab := if a < 0 then (0, b + -a) else (a, b)
    .ok (if ab.2 > n then (ab.1 - (ab.2 - n), n) else ab)
  else .ok r

/-- `FindMinimalPartOf`, MEDCouplingStructuredMesh.cxx:1037-1108: the returned value, `reducedCrit` and `partCompactFormat`. -/
def findMinimalPartOf (minLen : Int) (st : List Int) (crit : List Bool) : M (Int × List (Option Bool) × List (Int × Int)) :=
  if minLen < 0 then throwX
  else do
    let n ← deduceNumberOfGivenStructure st
    if (crit.length : Int) ≠ n then throwX
    else if 1 ≤ st.length ∧ st.length ≤ 3 then do
      let r ← minPartLoop st crit
      let _ ← dimensionsFromCompactFrmt r.2
      let part ← (List.zip st r.2).mapM fun nr => enlargeRange minLen nr.1 nr.2
      let red ← extractFieldOfBoolFrom st crit part
      .ok (r.1, red, part)
    else throwX

/-- The counting loops of `ComputeSignaturePerAxisOf`: `off` is the index computed by the loops. -/
def sigCount (crit : List Bool) (off : List Int → Int) (dims : List Int) : M Int :=
  (boxPos dims).foldlM (m := Except Err) (fun cnt p => do
    let b ← rd crit (off p)
    .ok (if b then cnt + 1 else cnt)) 0

/-- The outer loop on one axis: `for (i = 0; i < n; i++) { ... ret[i] = cnt; }`. (`resize` of a negative size throws.) -/
def sigAxis (crit : List Bool) (n : Int) (off : Int → List Int → Int) (dims : List Int) : M (List Int) :=
  if n < 0 then throwX
  else (List.range n.toNat).mapM (m := Except Err) fun (i : Nat) => sigCount crit (off i) dims

/-- The index in the loops on the first axis in 3D, lines 1160-1170. -/
def sigOffX (nx ny : Int) (i : Int) : List Int → Int
  | [j, k] => k * nx * ny + i + j * nx
  | _ => 0

/-- The index in the loops on the second axis in 3D, lines 1171-1183. -/
def sigOffY (nx ny : Int) (j : Int) : List Int → Int
  | [i, k] => k * nx * ny + j * nx + i
  | _ => 0

/-- The index in the loops on the third axis in 3D, lines 1184-1196. -/
def sigOffZ (nx ny : Int) (k : Int) : List Int → Int
  | [i, j] => k * nx * ny + j * nx + i
  | _ => 0

/-- `ComputeSignaturePerAxisOf`, MEDCouplingStructuredMesh.cxx:1115-1208. -/
def signaturePerAxis (st : List Int) (crit : List Bool) : M (List (List Int)) :=
  match st with
  | [nx] => do
    let x ← sigAxis crit nx (fun i _ => i) []
    .ok [x]
  | [nx, ny] => do
    let x ← sigAxis crit nx (fun i p => p.headD 0 * nx + i) [ny]
    let y ← sigAxis crit ny (fun j p => j * nx + p.headD 0) [nx]
    .ok [x, y]
  | [nx, ny, nz] => do
    let x ← sigAxis crit nx (sigOffX nx ny) [ny, nz]
    let y ← sigAxis crit ny (sigOffY nx ny) [nx, nz]
    let z ← sigAxis crit nz (sigOffZ nx ny) [nx, ny]
    .ok [x, y, z]
  | _ => throwX

end MC
