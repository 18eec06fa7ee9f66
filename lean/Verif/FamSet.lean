import Verif.FamEdit
import Verif.SkyOps

/-!
# Families and groups of a MED file mesh: groups set all at once, families kept on levels, normalisation of the ids

`MEDFileMesh::setGroupsAtLevel`, `keepFamIdsOnlyOnLevs`, `ensureDifferentFamIdsPerLevel`, `normalizeFamIdsMEDFile`,
`normalizeFamIdsTrio`.
-/

namespace MC

/-- `MEDFileMesh::getMaxAbsFamilyId` – MEDFileMesh.cxx:1825-1835. -/
def getMaxAbsFamilyId (m : FamMesh) : M Int :=
  if m.families = [] then throwX else .ok (m.families.foldl (fun r p => max |p.2| r) (-mcIdMax))

/-- `MEDFileMesh::getMaxFamilyId` – MEDFileMesh.cxx:1843-1853. -/
def getMaxFamilyId (m : FamMesh) : M Int :=
  if m.families = [] then throwX else .ok (m.families.foldl (fun r p => max p.2 r) (-mcIdMax))

/-- `MEDFileMesh::TranslateFamilyIds` on one value – MEDFileMesh.cxx:2522-2539. -/
def translateFamId (offset x : Int) : Int := (if offset > 0 then 1 else -1) * x + offset

/-- `MEDFileMesh::appendFamilyEntries` – MEDFileMesh.cxx:2463-2489.  `famInv[*it2]` is the name given to the id, or the empty string for an
id that is not in `famIds`. -/
def appendFamilyEntries (m : FamMesh) (famIds : List Int) (fids : List (List Int)) (names : List Name) : FamMesh :=
  { m with families := famIds.foldl (fun fs i => mset (familyName i) i fs) m.families
           groups := (List.zip fids names).foldl (fun gr p => p.1.foldl (fun gr i =>
             mset p.2 ((mget p.2 gr).getD [] ++ [if i ∈ famIds then familyName i else []]) gr) gr) m.groups }

/-- `offset`, lines 2448-2450. -/
def familyOffset (m : FamMesh) : M Int :=
  if m.families = [] then .ok 1 else do
    let v ← getMaxAbsFamilyId m
    .ok (v + 1)

/-- Lines 2451-2454. -/
def setGroupsCore (m : FamMesh) (rel off : Int) (fam : List Int) (fids : List (List Int)) (names : List Name) : M FamMesh :=
  setFamilyFieldArr (appendFamilyEntries m (getDifferentValues (fam.map (translateFamId off))) (fids.map (List.map (translateFamId off))) names)
    rel (fam.map (translateFamId off))

/-- `MEDFileMesh::setGroupsAtLevel` without renumbering – MEDFileMesh.cxx:2414-2455.  `getSizeAtLevel` throws for an absent level. -/
def setGroupsAtLevel (m : FamMesh) (rel : Int) (grps : List (Name × List Int)) : M FamMesh :=
  if grps = [] then .ok m
  else if ¬ (grps.map Prod.fst).Nodup then throwX
  else if [] ∈ grps.map Prod.fst then throwX
  else match famLev m rel with
    | none => throwX
    | some l => do
      let p ← makePartition (grps.map fun p => some p.2) l.size
      let offset ← familyOffset m
      setGroupsCore m rel (if rel = 1 then offset else -offset) p.1 p.2 (grps.map Prod.fst)

/-! ## keepFamIdsOnlyOnLevs -/

/-- The variables of the loops: has something been changed, the mesh, `maxFamId`. -/
structure KeepSt where
  same : Bool
  mesh : FamMesh
  next : Int

/-- One family met at a level, lines 1478-1491. -/
def keepOne (all : List Name) (rel : Int) (st : KeepSt) (x : Int) : M KeepSt := do
  let f ← getFamilyNameGivenId st.mesh x
  let z ← createNameNotIn (familyName st.next) all
  let a ← getFamilyFieldAtLevel st.mesh rel
  match a with
  | none => undef
  | some a =>
    .ok { same := false, next := st.next + 1,
          mesh := putFam { st.mesh with groups := st.mesh.groups.map fun p => if f ∈ p.2 then (p.1, p.2 ++ [z]) else p
                                        families := mset z st.next st.mesh.families } rel (changeValue x st.next a).2 }

/-- One level, lines 1466-1493. -/
def keepLev (all : List Name) (famIds : List Int) (st : KeepSt) (rel : Int) : M KeepSt := do
  let a ← getFamilyFieldAtLevel st.mesh rel
  match a with
  | none => .ok st
  | some a => ((getDifferentValues a).filter fun x => decide (x ∈ famIds)).foldlM (keepOne all rel) st

/-- `maxFamId`, lines 1461-1463. -/
def keepNext (m : FamMesh) : M Int :=
  if m.families = [] then .ok 1 else do
    let v ← getMaxFamilyId m
    .ok (v + 1)

/-- `MEDFileMesh::keepFamIdsOnlyOnLevs` – MEDFileMesh.cxx:1446-1496. -/
def keepFamIdsOnlyOnLevs (m : FamMesh) (famIds : List Int) (levs : List Int) : M (Bool × FamMesh) := do
  let next ← keepNext m
  let st ← ((setInsertAll [] (m.levs.map FamLev.rel)).filter fun r => decide (r ∉ levs)).foldlM
    (keepLev (m.families.map (·.1)) famIds) ⟨true, m, next⟩
  .ok (st.same, st.mesh)

/-! ## Normalisation of the ids -/

/-- The first loop of `ensureDifferentFamIdsPerLevel`, lines 1968-1985: the ids to renumber of each level.  `r3` is computed
and dropped, `allFamIds` stays empty. -/
def famIdsToRenum (m : FamMesh) : List (Int × List Int) :=
  m.levs.foldl (fun ren l => match l.fam with
    | none => ren
    | some a =>
      let r2 := (getDifferentValues a).filter fun x => decide (x ∈ ([] : List Int))
      if r2 = [] then ren else ren ++ [(l.rel, r2)]) []

/-- `MEDFileMesh::ensureDifferentFamIdsPerLevel` – MEDFileMesh.cxx:1963-2013.  The second part is never reached (`famIdsToRenum_nil`). -/
def ensureDifferentFamIdsPerLevel (m : FamMesh) : M Bool := do
  let _ ← getMaxFamilyId m
  if famIdsToRenum m = [] then .ok true else undef

/-- The new ids of a level: numbered from `pos` upwards, from `neg` downwards, all 0. -/
inductive NormKind where
  | up | down | zero
deriving DecidableEq, Repr

/-- The variables of the loops: the levels, the next numbers, the map `families`. -/
structure NormSt where
  levs : List FamLev
  pos : Int
  neg : Int
  fams : List (Name × Int)

/-- `ren[x]`: the values met, in increasing order, are numbered from the current number. -/
def renum (kind : NormKind) (pos neg : Int) (tmp : List Int) (x : Int) : Int :=
  match kind with
  | .up => pos + tmp.idxOf x
  | .down => neg - tmp.idxOf x
  | .zero => 0

/-- The families of the values of a level get the new ids, as in lines 2044-2052. -/
def normFams (m : FamMesh) (ren : Int → Int) (tmp : List Int) (fams : List (Name × Int)) : M (List (Name × Int)) :=
  tmp.foldlM (fun fams x => if existsFamilyId m x then do
      let f ← getFamilyNameGivenId m x
      .ok (mset f (ren x) fams)
    else .ok fams) fams

/-- One level of the normalisations, e.g. lines 2033-2054. -/
def normLev (m : FamMesh) (kind : Int → NormKind) (st : NormSt) (rel : Int) : M NormSt := do
  let a ← getFamilyFieldAtLevel { m with levs := st.levs } rel
  match a with
  | none => .ok st
  | some a => do
    let tmp := getDifferentValues a
    let ren := renum (kind rel) st.pos st.neg tmp
    let fams ← normFams m ren tmp st.fams
    .ok { levs := (putFam { m with levs := st.levs } rel (a.map ren)).levs
          pos := if kind rel = .up then st.pos + tmp.length else st.pos
          neg := if kind rel = .down then st.neg - tmp.length else st.neg
          fams := fams }

/-- The levels in the order of `order`, then the families that have not been met keep their ids, e.g. lines 2092-2104. -/
def normalize (m : FamMesh) (kind : Int → NormKind) (order : List Int) : M FamMesh := do
  let _ ← ensureDifferentFamIdsPerLevel m
  let st ← order.foldlM (normLev m kind) ⟨m.levs, 1, -1, []⟩
  .ok { m with levs := st.levs
               families := m.families.foldl (fun fs p => if mget p.1 st.fams = none then mset p.1 p.2 fs else fs) st.fams }

/-- The relative dimensions of the mesh, `std::set<int>`. -/
def levSet (m : FamMesh) : List Int := setInsertAll [] (m.levs.map FamLev.rel)

/-- `MEDFileMesh::normalizeFamIdsMEDFile` – MEDFileMesh.cxx:2118-2188: the nodes upwards, then the cells downwards, the numbers
going on from one dimension to the next. -/
def normalizeFamIdsMEDFile (m : FamMesh) : M FamMesh :=
  normalize m (fun rel => if rel = 1 then .up else .down)
    (((levSet m).filter fun r => decide (r = 1)) ++ ((levSet m).filter fun r => decide (r ≠ 1)).reverse)

/-- `MEDFileMesh::normalizeFamIdsTrio` – MEDFileMesh.cxx:2023-2106. -/
def normalizeFamIdsTrio (m : FamMesh) : M FamMesh :=
  normalize m (fun rel => if rel = 0 then .up else if rel = -1 then .down else .zero)
    (((levSet m).filter fun r => decide (r = 0)) ++ ((levSet m).filter fun r => decide (r = -1)) ++
      (levSet m).filter fun r => decide (r ≠ 0 ∧ r ≠ -1))

end MC
