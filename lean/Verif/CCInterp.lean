import Verif.Remapper

/-!
# Intersections of two Cartesian grids (INTERP_KERNEL/InterpolationCC.txx) and the preparation of a remapper with them

A grid is the list of the coordinates along each of its axes.  The numbers are the elements of an ordered field `K` instead of doubles.  The loops
which could run for ever have a number of turns as parameter: `none` stands for a run which has not finished.
-/

namespace MC
section
variable {K : Type} [Field K] [LinearOrder K] [IsStrictOrderedRing K]

/-- `Interference` (InterpolationCC.txx:49-55) -/
structure Interf (K : Type) where
  src : Nat
  tgt : Nat
  len : K
deriving DecidableEq, Repr

/-- `nbCellsAlongAxis` (MEDCouplingNormalizedCartesianMesh.txx:51-56) -/
def axisCells (x : List K) : Int := (x.length : Int) - 1

/-- `getNumberOfCells` of a grid: the product of the numbers of cells along the axes (MEDCouplingStructuredMesh.cxx) -/
def gridCells (axes : List (List K)) : Int := axes.foldl (fun p x => p * axisCells x) 1

/-- The search of the first interference along an axis (InterpolationCC.txx:192-212): `some none` if there is none -/
def ccFirst (eps : K) (s t : List K) : (fuel is it : Nat) → M (Option (Option (Nat × Nat)))
  | fuel, is, it =>
    if (it : Int) < axisCells t ∧ (is : Int) < axisCells s then
      match fuel with
      | 0 => .ok none
      | fuel + 1 => do
        let x1s ← rd s is
        let x2t ← rd t (it + 1 : Nat)
        if x2t < x1s + eps then ccFirst eps s t fuel is (it + 1)
        else
          let x1t ← rd t it
          let x2s ← rd s (is + 1 : Nat)
          if x2s < x1t + eps then ccFirst eps s t fuel (is + 1) it
          else .ok (some (some (is, it)))
    else .ok (some none)

/-- The loop which gets all the interferences along an axis (InterpolationCC.txx:218-236) -/
def ccNext (eps : K) (s t : List K) : (fuel is it : Nat) → M (Option (List (Interf K)))
  | 0, _, _ => .ok none
  | fuel + 1, is, it => do
    let x1s ← rd s is
    let x1t ← rd t it
    let x2t ← rd t (it + 1 : Nat)
    let x2s ← rd s (is + 1 : Nat)
    let e : Interf K := ⟨is, it, min x2s x2t - max x1s x1t⟩
    let diff2 := x2s - x2t
    let a : Nat × Bool := if diff2 > -eps then (it + 1, decide (((it + 1 : Nat) : Int) < axisCells t)) else (it, true)
    let b : Nat × Bool := if diff2 < eps then (is + 1, decide (((is + 1 : Nat) : Int) < axisCells s) && a.2) else (is, a.2)
    if b.2 then do
      let rest ← ccNext eps s t fuel b.1 a.1
      .ok (rest.map fun l => e :: l)
    else .ok (some [e])

/-- The interferences along one axis (InterpolationCC.txx:183-237): `some none` stands for the `return` of line 214 -/
def ccAxis (eps : K) (fuel : Nat) (s t : List K) : M (Option (Option (List (Interf K)))) := do
  let f ← ccFirst eps s t fuel 0 0
  match f with
  | none => .ok none
  | some none => .ok (some none)
  | some (some p) => do
    let l ← ccNext eps s t fuel p.1 p.2
    .ok (l.map some)

/-- The loop over the axes (InterpolationCC.txx:183-237) -/
def ccAxes (eps : K) (fuel : Nat) : (src tgt : List (List K)) → M (Option (Option (List (List (Interf K)))))
  | s :: src, t :: tgt => do
    let r ← ccAxis eps fuel s t
    match r with
    | none => .ok none
    | some none => .ok (some none)
    | some (some l) => do
      let rest ← ccAxes eps fuel src tgt
      .ok (rest.map fun o => o.map fun ls => l :: ls)
  | _, _ => .ok (some (some []))

/-- `std::map::insert`: a key which is present keeps its value -/
def mapInsert (m : Row K) (k : Int) (v : K) : Row K :=
  match mapFind m k with
  | some _ => m
  | none => mapSet m k v

/-- `result[tgt_i].insert(std::make_pair(src_i, value))` (InterpolationCC.txx:97) -/
def insertCoef (W : List (Row K)) (tgt src : Int) (v : K) : M (List (Row K)) := do
  let row ← rd W tgt
  wr W tgt (mapInsert row src v)

/-- `fillMatrix` (InterpolationCC.txx:73-124): the interferences of each axis come with the numbers of cells of the source and of the target along it -/
def ccFill : List (List (Interf K) × Int × Int) → (srcI tgtI srcA tgtA : Int) → (prev : K) → List (Row K) → M (List (Row K))
  | [], _, _, _, _, _, W => .ok W
  | [(l, _, _)], srcI, tgtI, srcA, tgtA, prev, W =>
    l.foldlM (fun W i => insertCoef W (i.tgt * tgtA + tgtI) (i.src * srcA + srcI) (i.len * prev)) W
  | (l, ns, nt) :: a :: rest, srcI, tgtI, srcA, tgtA, prev, W =>
    l.foldlM (fun W i => ccFill (a :: rest) (i.src * srcA + srcI) (i.tgt * tgtA + tgtI) (srcA * ns) (tgtA * nt) (i.len * prev) W) W

/-- The interferences with the numbers of cells (InterpolationCC.txx:170-177) -/
def withCells : List (List (Interf K)) → (src tgt : List (List K)) → List (List (Interf K) × Int × Int)
  | l :: ls, s :: src, t :: tgt => (l, axisCells s, axisCells t) :: withCells ls src tgt
  | _, _, _ => []

/-- `InterpolationCC::interpolateMeshes` for the method "P0P0" and an empty matrix (InterpolationCC.txx:146-260) -/
def interpolateCC (eps : K) (fuel : Nat) (src tgt : List (List K)) : M (Option (List (Row K))) := do
  let W : List (Row K) := List.replicate (gridCells tgt).toNat []
  let r ← ccAxes eps fuel src tgt
  match r with
  | none => .ok none
  | some none => .ok (some W)
  | some (some ls) => do
    let W ← ccFill (withCells ls src tgt) 0 0 1 1 1 W
    .ok (some W)

/-- `MEDCouplingRemapper::prepare` between two Cartesian grids: `restartUsing`, `prepareInterpKernelOnlyCC`, `nullifiedTinyCoeffInCrudeMatrixAbs(0)`,
`synchronizeSizeOfSideMatricesAfterMatrixComputation` (MEDCouplingRemapper.cxx:989-1046, 1309-1333, 1240-1248).  The method is "P0P0", the type of
intersection "Triangulation".  `disc` is the number of the discretization ON_CELLS. -/
def prepareCC (r : Rem K) (clock : Nat) (disc : Nat) (eps : K) (fuel : Nat) (src tgt : List (List K)) : M (Option (Rem K)) :=
  if tgt.length ≠ src.length then throwX
  else if ¬ (1 ≤ src.length ∧ src.length ≤ 3) then throwX
  else do
    let W ← interpolateCC eps fuel src tgt
    match W with
    | none => .ok none
    | some W =>
      let r1 : Rem K := ⟨some (⟨disc, (gridCells src).toNat⟩, ⟨disc, (gridCells tgt).toNat⟩), W, [], [], r.nature, clock⟩
      let r2 := (nullifiedTinyCoeffAbs r1 0).2
      .ok (some { r2 with deno := List.replicate r2.matrix.length [], denoR := List.replicate (gridCells src).toNat [] })

end
end MC
