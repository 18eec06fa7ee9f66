import Verif.StructMin
import Mathlib.Algebra.Order.Field.Basic

/-!
# Creation of patches from a criterion – model

`MEDCouplingCartesianAMRMeshGen::createPatchesFromCriterion`, MEDCouplingCartesianAMRMesh.cxx:1015-1455: the boxes of the patches which are created (the images of the patches,
`addPatch`, are not modelled).

Simplifications:
- efficiencies are in an ordered field (no rounding); a ratio of efficiencies is below `std::numeric_limits<double>::max()`;
- distances to the middle of an axis are doubled (`FindInflection` compares half integers);
- `std::vector<bool>` after `resize` holds `false`.
-/

namespace MC
variable {K : Type} [Field K] [LinearOrder K]

/-- `BoxSplittingOptions`, BoxSplittingOptions.hxx:34-60 -/
structure BoxOpts (K : Type) where
  goal : K
  threshold : K
  minLen : Int
  maxLen : Int
  maxCells : Int

/-- `InternalPatch`, MEDCouplingCartesianAMRMesh.cxx:1018-1053 -/
structure IPatch where
  nbTrue : Int
  crit : List Bool
  part : List (Int × Int)

/-- `getEfficiency`, line 1023 -/
def IPatch.efficiency (K : Type) [Field K] (p : IPatch) : K := (p.nbTrue : K) / ((p.crit.length : Int) : K)

/-- `getEfficiencyPerAxis`, lines 1037-1040 -/
def IPatch.efficiencyPerAxis (K : Type) [Field K] (p : IPatch) (axis : Int) : M K := do
  let r ← rd p.part axis
  return (p.nbTrue : K) / ((r.2 - r.1 : Int) : K)

/-- `computeSignature`, lines 1032-1036 -/
def IPatch.signature (p : IPatch) : M (List (List Int)) := do signaturePerAxis (← dimensionsFromCompactFrmt p.part) p.crit

/-- `zipToFitOnCriterion`, lines 1056-1068 -/
def IPatch.zip (p : IPatch) (minLen : Int) : M IPatch := do
  let cgs ← dimensionsFromCompactFrmt p.part
  let r ← findMinimalPartOf minLen cgs p.crit
  let part ← changeReferenceToGlobal p.part r.2.2 true
  if r.1 ≠ p.nbTrue then throwX
  else return { p with crit := r.2.1.map fun x => x.getD false, part := part }

/-- `extractPart`, lines 1076-1087 -/
def IPatch.extract (p : IPatch) (part : List (Int × Int)) : M IPatch := do
  let cgs ← dimensionsFromCompactFrmt p.part
  let loc ← changeReferenceFromGlobal p.part part true
  let crit ← extractFieldOfBoolFrom cgs p.crit loc
  return { nbTrue := (crit.map fun x => x.getD false).count true, crit := crit.map fun x => x.getD false, part := part }

/-- the values of `for (i = a; i < b; i++)` -/
def forVals (a b : Int) : List Int := (List.range (b - a).toNat).map fun k : Nat => a + k

/-- `FindTheWidestAxisOfGivenRangeInCompactFrmt`, MEDCouplingStructuredMesh.cxx:996-1020; without axis the two results are not initialized -/
def widestAxis (part : List (Int × Int)) : M (Int × Int) := do
  let r ← part.zipIdx.foldlM (fun (st : Int × Option (Int × Int)) x => do
    let d := x.1.2 - x.1.1
    if d < 0 then throwX
    else if d > st.1 then return (d, some ((x.2 : Int), d))
    else return st) ((-1 : Int), (none : Option (Int × Int)))
  match r.2 with
  | none => undef
  | some x => return x

/-- One turn of the loop of `DissectBigPatch`, lines 1112-1132: the patch is copied twice, not cut -/
def dissectStep (o : BoxOpts K) (p : IPatch) (axis : Int) (st : List (Option K) × Option K × Int) (i : Int) : M (List (Option K) × Option K × Int) := do
  let p0 ← p.zip o.minLen
  let e0 ← p0.efficiencyPerAxis K axis
  let p1 ← p.zip o.minLen
  let e1 ← p1.efficiencyPerAxis K axis
  let r := max e0 e1 / min e0 e1
  let ratio ← wr st.1 i (some r)
  match st.2.1 with
  | none => return (ratio, some r, i)
  | some b => if r < b then return (ratio, some r, i) else return (ratio, st.2)

/-- `DissectBigPatch`, lines 1097-1138; the vector of a negative size is refused by an exception -/
def dissectBigPatch (o : BoxOpts K) (p : IPatch) (axis largest : Int) : M Int := do
  if largest - o.minLen < 0 then throwX
  else do
    let st ← (forVals (o.minLen - 1) (largest - o.minLen)).foldlM (dissectStep o p axis) (List.replicate (largest - o.minLen).toNat none, none, -1)
    if st.2.2 = -1 then throwX
    else do
      let r ← rd p.part axis
      return st.2.2 + r.1

/-- The holes of an axis and the one closest to the middle, lines 1154-1175 -/
def closestHole (minLen : Int) (sig : List Int) : M (Option Int) := do
  let len : Int := sig.length
  let l ← (forVals (minLen - 1) (len - minLen)).mapM fun i => do
    let x ← rd sig i
    return (i, x)
  let hole := (l.filter fun ix => decide (ix.2 = 0)).map (·.1)
  match hole with
  | [] => return none
  | h0 :: _ =>
    return some (hole.foldl (fun (st : Int × Int) h => if |h - len.tdiv 2| < st.2 then (h, |h - len.tdiv 2|) else st) (h0, |h0 - len.tdiv 2|)).1

/-- the loop of `FindHole` on the axes -/
def holeLoop (minLen first : Int) : List (List Int) → M (Option Int)
  | [] => .ok none
  | sig :: l => do
    match ← closestHole minLen sig with
    | some h => return some (h + first)
    | none => holeLoop minLen first l

/-- `FindHole`, lines 1140-1180: the place of the cut; the axis is the one given by the caller (the parameter is passed by value) -/
def findHole (o : BoxOpts K) (p : IPatch) (axis : Int) : M (Option Int) := do
  let sigs ← p.signature
  let r ← rd p.part axis
  holeLoop o.minLen r.1 sigs

/-- subtraction of `std::size_t` -/
def usub (a b : Int) : Int := (a - b) % 2 ^ 64

/-- The crossings of an axis: position and gradient, lines 1199-1227; an empty signature makes the first loop run out of the vector -/
def zeroCross (minLen : Int) (sig : List Int) : M (List (Int × Int)) := do
  let n : Int := sig.length
  if n = 0 then undef
  else do
    let d2 ← (forVals 1 (n - 1)).mapM fun i => do
      let a ← rd sig (i - 1)
      let b ← rd sig i
      let c ← rd sig (i + 1)
      return a - 2 * b + c
    let grad ← (forVals 1 d2.length).mapM fun i => do
      let a ← rd d2 i
      let b ← rd d2 (i - 1)
      return |a - b|
    if d2 = [] then return []
    else do
      let l ← (forVals 1 (d2.length - 1)).mapM fun i => do
        let a ← rd d2 i
        let b ← rd d2 (i + 1)
        if a * b ≤ 0 then
          if i ≥ usub minLen 2 ∧ i ≤ usub (usub n minLen) 2 then do
            let g ← rd grad i
            return [(i, g)]
          else return []
        else return []
      return l.flatten

/-- The best crossing of an axis: position and gradient, lines 1228-1249 -/
def bestCross (n first : Int) (zc : List (Int × Int)) : Option (Int × Int) :=
  match zc with
  | [] => none
  | z :: l =>
    let maxCross := l.foldl (fun m e => max m e.2) z.2
    let places := ((z :: l).filter fun e => decide (e.2 = maxCross)).map fun e => e.1 + 1
    match places with
    | [] => none
    | x :: _ =>
      let dist := fun y : Int => |2 * y + 2 - n|
      let dmin := places.foldl (fun m y => min m (dist y)) (dist x)
      match places.find? fun y => decide (dist y = dmin) with
      | none => none
      | some y => if maxCross ≥ 0 then some (y + first, maxCross) else none

/-- the test of line 1255: the first or the second axis has a crossing -/
def anyCross (dims : List Int) : M Bool := do
  let d0 ← rd dims 0
  if d0 ≠ -1 then return true
  else do
    let d1 ← rd dims 1
    return decide (d1 ≠ -1)

/-- the test of line 1259 -/
def bothMax (vals : List Int) (v0 m : Int) : M Bool :=
  if v0 = m then do
    let v1 ← rd vals 1
    return decide (v1 = m)
  else return false

/-- the axis of the inflection, lines 1257-1270 -/
def crossAxis (part : List (Int × Int)) (vals : List Int) : M Int := do
  let v0 ← rd vals 0
  let m := vals.foldl max v0
  let both ← bothMax vals v0 m
  if both = true then do
    let r0 ← rd part 0
    let r1 ← rd part 1
    return if r0.2 - r0.1 ≥ r1.2 - r1.1 then 0 else 1
  else return vals.idxOf m

/-- `FindInflection`, lines 1182-1276: the place of the cut and the axis -/
def findInflection (o : BoxOpts K) (p : IPatch) : M (Option (Int × Int)) := do
  let sigs ← p.signature
  let zs ← sigs.zipIdx.mapM fun x => do
    let zc ← zeroCross o.minLen x.1
    let r ← rd p.part (x.2 : Int)
    return bestCross x.1.length r.1 zc
  let dims := zs.map fun z => match z with | none => (-1 : Int) | some x => x.1
  let vals := zs.map fun z => match z with | none => (-1 : Int) | some x => x.2
  let any ← anyCross dims
  if any = true then do
    let axis ← crossAxis p.part vals
    let cut ← rd dims axis
    return some (cut, axis)
  else return none

/-- `TryAction4`, lines 1278-1307 -/
def tryAction4 (o : BoxOpts K) (p : IPatch) (axis range : Int) : M (Option Int) := do
  if p.efficiency K ≤ o.goal then
    if range ≥ 2 * o.minLen then do
      let r ← rd p.part axis
      return some (range.tdiv 2 + r.1 - 1)
    else return none
  else if (p.crit.length : Int) > o.maxCells ∨ range > o.maxLen then do
    let c ← dissectBigPatch o p axis range
    return some c
  else return none

/-- `DealWithCut`, lines 1317-1336 -/
def dealWithCut (minLen : Int) (p : IPatch) (axis cut : Int) : M (List IPatch) := do
  let r ← rd p.part axis
  let leftRect ← wr p.part axis (r.1, cut + 1)
  let rightRect ← wr p.part axis (cut + 1, r.2)
  let left ← p.extract leftRect
  let right ← p.extract rightRect
  let left ← left.zip minLen
  let right ← right.zip minLen
  return [left, right]

/-- What is decided for a patch, lines 1414-1446: the patches of a cut, or none -/
def cutPatch (o : BoxOpts K) (p : IPatch) : M (Option (List IPatch)) := do
  let (axis, largest) ← widestAxis p.part
  if p.efficiency K ≥ o.threshold ∧ ((p.crit.length : Int) > o.maxCells ∨ largest > o.maxLen) then do
    let cut ← dissectBigPatch o p axis largest
    return some (← dealWithCut o.minLen p axis cut)
  else do
    match ← findHole o p axis with
    | some cut => return some (← dealWithCut o.minLen p axis cut)
    | none => do
      match ← findInflection o p with
      | some (cut, axis) => return some (← dealWithCut o.minLen p axis cut)
      | none => do
        match ← tryAction4 o p axis largest with
        | some cut => return some (← dealWithCut o.minLen p axis cut)
        | none => return none

/-- One turn of the `while`, lines 1410-1448: the patches left and the patches kept -/
def patchRound (o : BoxOpts K) (l : List IPatch) : M (List IPatch × List IPatch) :=
  l.foldlM (fun st p => do
    match ← cutPatch o p with
    | some q => return (st.1 ++ q, st.2)
    | none => return (st.1, st.2 ++ [p])) ([], [])

/-- The `while` of line 1408, `fuel` turns at most; `none`: not finished -/
def patchLoop (o : BoxOpts K) : Nat → List IPatch → List IPatch → M (Option (List IPatch))
  | _, [], kept => .ok (some kept)
  | 0, _ :: _, _ => .ok none
  | fuel + 1, p :: l, kept => do
    let r ← patchRound o (p :: l)
    patchLoop o fuel r.1 (kept ++ r.2)

/-- `createPatchesFromCriterion`, lines 1383-1455: the boxes given to `addPatch` -/
def createPatches (o : BoxOpts K) (fuel : Nat) (cgs : List Int) (crit : List Bool) : M (Option (List (List (Int × Int)))) := do
  if (crit.length : Int) ≠ cgs.prod then throwX
  else do
    let r ← findMinimalPartOf o.minLen cgs crit
    let p : IPatch := { nbTrue := r.1, crit := r.2.1.map fun x => x.getD false, part := r.2.2 }
    let res ← patchLoop o fuel (if p.nbTrue > 0 then [p] else []) []
    return res.map fun l => l.map (·.part)

end MC
