import Verif.CommonCells

/-!
# Zones reached from seeds in a graph of neighbours (`MEDCouplingUMesh`)

The graph is a pair of arrays (`arrIn`, `arrIndxIn`): the neighbours of `x` are the values of `arrIn` in the window of `x`.
-/

namespace MC
section

/-- State of a round: `fetched`, `fetched2`, `*idsToFetchOther`. -/
structure Spread where
  fetched : List Bool
  fetched2 : List Bool
  other : List Int

/-- Body of the inner loop (MEDCouplingUMesh_internal.cxx:1936-1941). -/
def spreadVisit (s : Spread) (x : Int) : M Spread := do
  let b ← rd s.fetched x
  if b then .ok s
  else do
    let f ← wr s.fetched x true
    let f2 ← wr s.fetched2 x true
    .ok ⟨f, f2, s.other ++ [x]⟩

/-- One round over `*idsToFetch` (MEDCouplingUMesh_internal.cxx:1934-1941). -/
def spreadRound (arr idx : List Int) (ids : List Int) (s : Spread) : M Spread :=
  ids.foldlM (fun s i => do
    let g ← revGroup arr idx i
    g.foldlM spreadVisit s) s

/-- The `while` loop (MEDCouplingUMesh_internal.cxx:1932-1945).  `target = none` stands for the greatest `mcIdType`, which the number
of rounds cannot reach.  `fuel` bounds the number of rounds; running out of it is an error, shown impossible in `SpreadProps`. -/
def spreadLoop (arr idx : List Int) (target : Option Int) : Nat → List Int → List Bool → List Bool → Int → M (List Bool × List Bool × Int)
  | 0, _, _, _, _ => undef
  | fuel + 1, ids, fetched, fetched2, performed =>
    if ids ≠ [] ∧ (∀ t ∈ target, performed < t) then do
      let s ← spreadRound arr idx ids ⟨fetched, fetched2, []⟩
      spreadLoop arr idx target fuel s.other s.fetched s.fetched2 (performed + 1)
    else .ok (fetched, fetched2, performed)

/-- The loop on the seeds (MEDCouplingUMesh_internal.cxx:1909-1923). -/
def seedStep (nb : Int) (s : List Bool × List Bool) (x : Int) : M (List Bool × List Bool) :=
  if 0 ≤ x ∧ x < nb then do
    let f ← wr s.1 x true
    let f2 ← wr s.2 x true
    .ok (f, f2)
  else throwX

/-- `ComputeSpreadZoneGraduallyFromSeedAlg` (MEDCouplingUMesh_internal.cxx:1890-1955): `(fetched, ids, nbOfDepthPeelingPerformed)`.
The last loop is the one of `BuildListOfSwitchedOn`. -/
def spreadAlg (fetched : List Bool) (seeds arr idx : List Int) (depth : Int) : M (List Bool × List (Option Int) × Int) := do
  let nb : Int := (idx.length : Int) - 1
  if nb < 0 then undef
  else do
    let s ← seeds.foldlM (seedStep nb) (fetched, List.replicate nb.toNat false)
    let r ← spreadLoop arr idx (if depth ≠ -1 then some depth else none) (nb.toNat + 2) seeds s.1 s.2 0
    let ids ← buildListOfSwitched true r.2.1
    .ok (r.1, ids, r.2.2)

/-- `ComputeSpreadZoneGraduallyFromSeed` (MEDCouplingUMesh.cxx:10063-10090): `(ids, nbOfDepthPeelingPerformed)` -/
def computeSpreadZoneGraduallyFromSeed (seeds arr idx : List Int) (depth : Int) : M (List (Option Int) × Int) := do
  let nb : Int := (idx.length : Int) - 1
  if nb ≤ 0 then .ok ([], 0)
  else do
    let r ← spreadAlg (List.replicate nb.toNat false) seeds arr idx depth
    .ok (r.2.1, r.2.2)

/-- `ComputeSpreadZoneGradually` (MEDCouplingUMesh.cxx:10038-10043) -/
def computeSpreadZoneGradually (arr idx : List Int) : M (List (Option Int)) := do
  let r ← computeSpreadZoneGraduallyFromSeed [0] arr idx (-1)
  .ok r.1

/-- The `while` loop of `PartitionBySpreadZone` (MEDCouplingUMesh.cxx:10183-10191), `fuel` as above.  `std::find` gives the position
of the first cell not fetched from `seed` on. -/
def partitionLoop (arr idx : List Int) : Nat → Nat → List Bool → List (List (Option Int)) → M (List (List (Option Int)))
  | 0, _, _, _ => undef
  | fuel + 1, seed, fetched, acc =>
    if (seed : Int) < (idx.length : Int) - 1 then do
      let r ← spreadAlg fetched [(seed : Int)] arr idx (-1)
      partitionLoop arr idx fuel (seed + (r.1.drop seed).idxOf false) r.1 (acc ++ [r.2.1])
    else .ok acc

/-- `PartitionBySpreadZone` (MEDCouplingUMesh.cxx:10166-10195) -/
def partitionBySpreadZoneOf (arr idx : List Int) : M (List (List (Option Int))) :=
  if idx.length < 1 then throwX
  else if (idx.length : Int) - 1 ≤ 0 then .ok []
  else partitionLoop arr idx (idx.length + 1) 0 (List.replicate (idx.length - 1) false) []

end
end MC
