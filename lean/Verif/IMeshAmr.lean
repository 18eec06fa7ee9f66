import Verif.Struct
import Mathlib.Algebra.BigOperators.Group.List.Basic

/-!
# Exchange of cell fields between a coarse grid and a refined part of it – model

`MEDCouplingIMesh::CondenseFineToCoarse`, `CondenseFineToCoarseGhost`, `SpreadCoarseToFine`, `SpreadCoarseToFineGhost`, `SpreadCoarseToFineGhostZone`,
MEDCouplingIMesh.cxx:344-1098 and 1805-1917.

Simplifications:
- a tuple is one value `V`; the copies and additions of the `nbCompo` components of a tuple are one copy and one addition (the equality of the
  numbers of components is supposed);
- values are exact (no rounding), arrays are allocated;
- the loop variables of type `int` do not overflow.

The loops are written as the list of the moves and of the accesses which they make, in order; `condenseRun` and `spreadRun` carry them out.
-/

namespace MC
variable {V : Type}

/-- A move of `inPtr`, or the treatment of one fine tuple: copied or added to the coarse tuple `loc`, `inPtr += nbCompo` -/
inductive CondCmd where
  | skip (n : Int)
  | take (copy : Bool) (loc : Int)

def condStep [Add V] (fine : List V) (st : Int × List V) : CondCmd → M (Int × List V)
  | .skip n => .ok (st.1 + n, st.2)
  | .take copy loc => do
    let x ← rd fine st.1
    if copy = true then do
      let out ← wr st.2 loc x
      return (st.1 + 1, out)
    else do
      let y ← rd st.2 loc
      let out ← wr st.2 loc (x + y)
      return (st.1 + 1, out)

def condenseRun [Add V] (fine coarse : List V) (cmds : List CondCmd) : M (List V) := do
  let r ← cmds.foldlM (condStep fine) (0, coarse)
  return r.2

/-- the two innermost loops, lines 424-433, 445-455, 482-492, 597-606, 622-632, 662-672; `c`: the factors of the outer loops are 0 -/
def condLine (d0 f0 base : Int) (c : Bool) : List CondCmd :=
  (List.range d0.toNat).flatMap fun (i : Nat) => (List.range f0.toNat).map fun (e : Nat) => .take (c && decide (e = 0)) (base + i)

/-- the loops of `CondenseFineToCoarse`, lines 418-501 -/
def condenseCmds : List Int → List (Int × Int) → List Int → Option (List CondCmd)
  | [_], [r0], [f0] => some (condLine (r0.2 - r0.1) f0 r0.1 true)
  | [n0, _], [r0, r1], [f0, f1] =>
    let kk := r0.1 + n0 * r1.1
    some ((List.range (r1.2 - r1.1).toNat).flatMap fun (j : Nat) => (List.range f1.toNat).flatMap fun (je : Nat) =>
      condLine (r0.2 - r0.1) f0 (kk + j * n0) (decide (je = 0)))
  | [n0, n1, _], [r0, r1, r2], [f0, f1, f2] =>
    let kk := r0.1 + n0 * r1.1 + n0 * n1 * r2.1
    some ((List.range (r2.2 - r2.1).toNat).flatMap fun (k : Nat) => (List.range f2.toNat).flatMap fun (ke : Nat) =>
      (List.range (r1.2 - r1.1).toNat).flatMap fun (j : Nat) => (List.range f1.toNat).flatMap fun (je : Nat) =>
        condLine (r0.2 - r0.1) f0 (kk + k * (n0 * n1) + j * n0) (decide (ke = 0) && decide (je = 0)))
  | _, _, _ => none

/-- `CondenseFineToCoarse`, lines 363-508 -/
def condense [Add V] (cst : List Int) (fine : List V) (loc : List (Int × Int)) (facts : List Int) (coarse : List V) : M (List V) := do
  if cst.length ≠ loc.length ∨ cst.length ≠ facts.length then throwX
  else do
    let nc ← deduceNumberOfGivenStructure cst
    let nf ← deduceNumberOfGivenRange loc
    if (coarse.length : Int) ≠ nc then throwX
    else if nf = 0 then
      if fine.length = 0 then return coarse else throwX
    else if (fine.length : Int).tmod nf ≠ 0 then throwX
    else if (fine.length : Int) ≠ accumulateMulInt facts * nf then throwX
    else do
      let _ ← dimensionsFromCompactFrmt loc
      match condenseCmds cst loc facts with
      | none => throwX
      | some cmds => condenseRun fine coarse cmds

/-- the loops of `CondenseFineToCoarseGhost`, lines 590-685 -/
def condenseGhostCmds (g : Int) : List Int → List (Int × Int) → List Int → Option (List CondCmd)
  | [_], [r0], [f0] => some (.skip g :: condLine (r0.2 - r0.1) f0 (r0.1 + g) true)
  | [n0, _], [r0, r1], [f0, f1] =>
    let nxwg := n0 + 2 * g
    let kk := r0.1 + g + nxwg * (r1.1 + g)
    let fx := (r0.2 - r0.1) * f0 + 2 * g
    some (.skip (fx * g) :: (List.range (r1.2 - r1.1).toNat).flatMap fun (j : Nat) => (List.range f1.toNat).flatMap fun (je : Nat) =>
      [.skip g] ++ condLine (r0.2 - r0.1) f0 (kk + j * nxwg) (decide (je = 0)) ++ [.skip g])
  | [n0, n1, _], [r0, r1, r2], [f0, f1, f2] =>
    let nxwg := n0 + 2 * g
    let nxywg := (n0 + 2 * g) * (n1 + 2 * g)
    let kk := r0.1 + g + nxwg * (r1.1 + g) + nxywg * (r2.1 + g)
    let fx := (r0.2 - r0.1) * f0 + 2 * g
    let fy := (r1.2 - r1.1) * f1 + 2 * g
    some (.skip (fx * fy * g) :: (List.range (r2.2 - r2.1).toNat).flatMap fun (k : Nat) => (List.range f2.toNat).flatMap fun (ke : Nat) =>
      [.skip (g * fx)] ++ ((List.range (r1.2 - r1.1).toNat).flatMap fun (j : Nat) => (List.range f1.toNat).flatMap fun (je : Nat) =>
        [.skip g] ++ condLine (r0.2 - r0.1) f0 (j * nxwg + (kk + k * nxywg)) (decide (ke = 0) && decide (je = 0)) ++ [.skip g]) ++ [.skip (g * fx)])
  | _, _, _ => none

/-- the checks which the three functions with ghosts have in common, lines 538-593, 848-903, 989-1044 -/
def ghostChecks (g : Int) (cst : List Int) (loc : List (Int × Int)) (facts : List Int) (nbCoarse nbFine : Int) : M Unit := do
  if g < 0 then throwX
  else if cst.length ≠ loc.length ∨ cst.length ≠ facts.length then throwX
  else do
    let nc ← deduceNumberOfGivenStructure (cst.map (· + 2 * g))
    if nbCoarse ≠ nc then throwX
    else do
      let dims ← dimensionsFromCompactFrmt loc
      let nf ← deduceNumberOfGivenStructure ((List.zipWith (· * ·) dims facts).map (· + 2 * g))
      if nbFine ≠ nf then throwX else return ()

/-- `CondenseFineToCoarseGhost`, lines 528-690 -/
def condenseGhost [Add V] (cst : List Int) (fine : List V) (loc : List (Int × Int)) (facts : List Int) (coarse : List V) (g : Int) : M (List V) := do
  ghostChecks g cst loc facts coarse.length fine.length
  match condenseGhostCmds g cst loc facts with
  | none => throwX
  | some cmds => condenseRun fine coarse cmds

/-- A move of `outPtr`, or the copy of the coarse tuple `src` at `outPtr` -/
inductive SpreadCmd where
  | skip (n : Int)
  | put (src : Int)

def spreadStep (coarse : List V) (st : Int × List V) : SpreadCmd → M (Int × List V)
  | .skip n => .ok (st.1 + n, st.2)
  | .put src => do
    let x ← rd coarse src
    let out ← wr st.2 st.1 x
    return (st.1 + 1, out)

def spreadRun (coarse fine : List V) (cmds : List SpreadCmd) : M (List V) := do
  let r ← cmds.foldlM (spreadStep coarse) (0, fine)
  return r.2

/-- the two innermost loops, lines 763-767, 779-783, 806-811 -/
def spreadLine (d0 f0 base : Int) : List SpreadCmd :=
  (List.range d0.toNat).flatMap fun (i : Nat) => (List.range f0.toNat).map fun (_ : Nat) => .put (base + i)

/-- the loops of `SpreadCoarseToFine`, lines 757-820; in dimension 3 the factor of the second axis is `facts[2]` (line 797) -/
def spreadCmds : List Int → List (Int × Int) → List Int → Option (List SpreadCmd)
  | [_], [r0], [f0] => some (spreadLine (r0.2 - r0.1) f0 r0.1)
  | [n0, _], [r0, r1], [f0, f1] =>
    let kk := r0.1 + n0 * r1.1
    some ((List.range (r1.2 - r1.1).toNat).flatMap fun (j : Nat) => (List.range f1.toNat).flatMap fun (_ : Nat) =>
      spreadLine (r0.2 - r0.1) f0 (kk + j * n0))
  | [n0, n1, _], [r0, r1, r2], [f0, _, f2] =>
    let f1 := f2
    let kk := r0.1 + n0 * r1.1 + n0 * n1 * r2.1
    some ((List.range (r2.2 - r2.1).toNat).flatMap fun (k : Nat) => (List.range f2.toNat).flatMap fun (_ : Nat) =>
      (List.range (r1.2 - r1.1).toNat).flatMap fun (j : Nat) => (List.range f1.toNat).flatMap fun (_ : Nat) =>
        spreadLine (r0.2 - r0.1) f0 (kk + k * (n0 * n1) + j * n0))
  | _, _, _ => none

/-- `SpreadCoarseToFine`, lines 704-822; `%` by 0 is undefined -/
def spread (coarse : List V) (cst : List Int) (fine : List V) (loc : List (Int × Int)) (facts : List Int) : M (List V) := do
  if cst.length ≠ loc.length ∨ cst.length ≠ facts.length then throwX
  else do
    let nc ← deduceNumberOfGivenStructure cst
    let nf ← deduceNumberOfGivenRange loc
    if (coarse.length : Int) ≠ nc then throwX
    else if nf = 0 then undef
    else if (fine.length : Int).tmod nf ≠ 0 then throwX
    else if (fine.length : Int) ≠ accumulateMulInt facts * nf then throwX
    else do
      let _ ← dimensionsFromCompactFrmt loc
      match spreadCmds cst loc facts with
      | none => throwX
      | some cmds => spreadRun coarse fine cmds

/-- a line with its ghosts: lines 911-922, 1823-1831, 1838-1848, 1854-1862; `kk`: the tuple before the line -/
def ghostLine (g d0 f0 kk : Int) : List SpreadCmd :=
  ((List.range g.toNat).map fun (_ : Nat) => .put kk) ++ spreadLine d0 f0 (kk + 1) ++ (List.range g.toNat).map fun (_ : Nat) => .put (kk + 1 + d0)

/-- a line whose ghosts only are written, lines 1057-1064, 1897-1903 -/
def ghostEnds (g d0 f0 kk : Int) : List SpreadCmd :=
  ((List.range g.toNat).map fun (_ : Nat) => .put kk) ++ [.skip (f0 * d0)] ++ (List.range g.toNat).map fun (_ : Nat) => .put (kk + 1 + d0)

/-- `SpreadCoarseToFineGhost2D`, lines 1805-1864, and `SpreadCoarseToFineGhostZone2D`, lines 1866-1917, which differ by the lines of the middle; `off`:
the offset of `inPtr` -/
def ghost2D (mid : Int → Int → Int → Int → List SpreadCmd) (g n0 : Int) (r0 r1 : Int × Int) (f0 f1 off : Int) : List SpreadCmd :=
  let d0 := r0.2 - r0.1
  let nxwg := n0 + 2 * g
  ((List.range g.toNat).flatMap fun (_ : Nat) => ghostLine g d0 f0 (off + (r0.1 + g - 1 + nxwg * (r1.1 + g - 1)))) ++
  ((List.range (r1.2 - r1.1).toNat).flatMap fun (j : Nat) => (List.range f1.toNat).flatMap fun (_ : Nat) =>
    mid g d0 f0 (off + (r0.1 - 1 + g + nxwg * (r1.1 + g + j)))) ++
  ((List.range g.toNat).flatMap fun (_ : Nat) => ghostLine g d0 f0 (off + (r0.1 + g - 1 + nxwg * (r1.2 + g))))

/-- the loops of `SpreadCoarseToFineGhost` (`mid = ghostLine`, lines 908-966) and of `SpreadCoarseToFineGhostZone` (`mid = ghostEnds`, lines 1050-1097) -/
def spreadGhostCmds (mid : Int → Int → Int → Int → List SpreadCmd) (g : Int) : List Int → List (Int × Int) → List Int → Option (List SpreadCmd)
  | [_], [r0], [f0] => some (mid g (r0.2 - r0.1) f0 (r0.1 + g - 1))
  | [n0, _], [r0, r1], [f0, f1] => some (ghost2D mid g n0 r0 r1 f0 f1 0)
  | [n0, n1, _], [r0, r1, r2], [f0, f1, f2] =>
    let nxy := (n0 + 2 * g) * (n1 + 2 * g)
    let offset := (r2.1 + g - 1) * nxy
    some (((List.range g.toNat).flatMap fun (_ : Nat) => ghost2D ghostLine g n0 r0 r1 f0 f1 offset) ++
      ((List.range (r2.2 - r2.1).toNat).flatMap fun (k : Nat) => (List.range f2.toNat).flatMap fun (_ : Nat) =>
        ghost2D mid g n0 r0 r1 f0 f1 (offset + nxy + k * nxy)) ++
      ((List.range g.toNat).flatMap fun (_ : Nat) => ghost2D ghostLine g n0 r0 r1 f0 f1 (offset + nxy + (r2.2 - r2.1).toNat * nxy)))
  | _, _, _ => none

/-- `SpreadCoarseToFineGhost`, lines 838-966 -/
def spreadGhost (coarse : List V) (cst : List Int) (fine : List V) (loc : List (Int × Int)) (facts : List Int) (g : Int) : M (List V) := do
  ghostChecks g cst loc facts coarse.length fine.length
  match spreadGhostCmds ghostLine g cst loc facts with
  | none => throwX
  | some cmds => spreadRun coarse fine cmds

/-- `SpreadCoarseToFineGhostZone`, lines 979-1098 -/
def spreadGhostZone (coarse : List V) (cst : List Int) (fine : List V) (loc : List (Int × Int)) (facts : List Int) (g : Int) : M (List V) := do
  ghostChecks g cst loc facts coarse.length fine.length
  match spreadGhostCmds ghostEnds g cst loc facts with
  | none => throwX
  | some cmds => spreadRun coarse fine cmds

end MC
