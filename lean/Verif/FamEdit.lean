import Verif.FamGrp

/-!
# Families and groups of a MED file mesh: cleaning, renaming, merging (C94)

Continuation of `Verif/FamGrp.lean`.  Levels whose array is rewritten are treated one by one, each through its own array, which is what
`getFamilyFieldAtLevel` and `setFamilyFieldArr` do since there is one level per relative dimension.
-/

namespace MC

/-- `MEDFileMesh::DFT_FAM_NAME` – MEDFileMesh.cxx:50. -/
def dftFamName : Name := ['F', 'A', 'M', 'I', 'L', 'L', 'E', '_', 'Z', 'E', 'R', 'O']

/-- `MEDFileMesh::removeEmptyGroups` – MEDFileMesh.cxx:736-753: the removed groups and the mesh. -/
def removeEmptyGroups (m : FamMesh) : List Name × FamMesh :=
  let ret := (m.groups.filter fun p => decide (p.2 = [])).map (·.1)
  (ret, if ret = [] then m else { m with groups := m.groups.filter fun p => decide (p.2 ≠ []) })

/-- The families of the group that stay, lines 778-783. -/
def famsNotIn (m : FamMesh) (kill : List Int) (fams : List Name) : M (List Name) :=
  fams.foldlM (fun r f => do
    let i ← getFamilyId m f
    .ok (if i ∈ kill then r else r ++ [f])) []

/-- `removeGroupAtLevel` once the array is known, lines 773-784. -/
def removeGroupOnArr (m : FamMesh) (g : Name) (fams : List Name) (famIds a : List Int) : M FamMesh := do
  let kill ← buildIntersection [some famIds, some (getDifferentValues a)]
  if kill = [] then .ok m
  else do
    let fs ← famsNotIn m kill fams
    .ok { m with groups := mset g fs m.groups }

/-- `MEDFileMesh::removeGroupAtLevel` – MEDFileMesh.cxx:755-784. -/
def removeGroupAtLevel (m : FamMesh) (rel : Int) (g : Name) : M FamMesh :=
  match mget g m.groups with
  | none => throwX
  | some fams => do
    let famIds ← getFamiliesIdsOnGroup m g
    let fa ← getFamilyFieldAtLevel m rel
    match fa with
    | none => .ok m
    | some a => removeGroupOnArr m g fams famIds a

/-- `MEDFileMesh::removeGroup` – MEDFileMesh.cxx:791-804. -/
def removeGroup (m : FamMesh) (g : Name) : M FamMesh :=
  match mget g m.groups with
  | none => throwX
  | some _ => .ok { m with groups := merase g m.groups }

/-- `MEDFileMesh::removeFamily` – MEDFileMesh.cxx:811-832: in every group the first occurrence of the name is erased. -/
def removeFamily (m : FamMesh) (f : Name) : M FamMesh :=
  match mget f m.families with
  | none => throwX
  | some _ => .ok { m with families := merase f m.families, groups := changeAllGroups m.groups f [] }

/-- `MEDFileMesh::computeAllFamilyIdsInUse` – MEDFileMesh.cxx:1941-1957. -/
def computeAllFamilyIdsInUse (m : FamMesh) : Option (List Int) :=
  (m.levs.filterMap (·.fam)).foldl (fun ret a =>
    match ret with
    | some r => some (buildUnion [some (getDifferentValues a), some r])
    | none => some (getDifferentValues a)) none

/-- `MEDFileMesh::removeOrphanFamilies` – MEDFileMesh.cxx:857-896: the removed families and the mesh.  The name is erased, once, from the
groups that have it: `changeAllGroups` with nothing instead. -/
def removeOrphanFamilies (m : FamMesh) : List Name × FamMesh :=
  match computeAllFamilyIdsInUse m with
  | none => (m.families.map (·.1), { m with families := [], groups := [] })
  | some used =>
    let ret := (m.families.filter fun p => decide (p.2 ∉ used)).map (·.1)
    (ret, if ret = [] then m else
      { m with families := m.families.filter fun p => decide (p.2 ∈ used)
               groups := ret.foldl (fun gr f => changeAllGroups gr f []) m.groups })

/-- `MEDFileMesh::removeOrphanGroups` – MEDFileMesh.cxx:842-847. -/
def removeOrphanGroups (m : FamMesh) : List Name × FamMesh := removeEmptyGroups (removeOrphanFamilies m).2

/-- `MEDFileMesh::removeFamiliesReferedByNoGroups` – MEDFileMesh.cxx:906-922. -/
def removeFamiliesReferedByNoGroups (m : FamMesh) : FamMesh :=
  let sfams := m.groups.foldl (fun s p => p.2.foldl (fun s f => s.filter fun x => decide (x ≠ f)) s) (m.families.map (·.1))
  { m with families := sfams.foldl (fun fs f => if f ≠ dftFamName then merase f fs else fs) m.families }

/-- `MEDFileMesh::checkOrphanFamilyZero` – MEDFileMesh.cxx:1084-1098. -/
def checkOrphanFamilyZero (m : FamMesh) : M Unit :=
  if m.groups.any fun p => decide (dftFamName ∈ p.2) then throwX else .ok ()

/-- Reading a value that `BuildListOfSwitchedOff` returns; undefined where nothing has been written. -/
def ofWritten : Option Int → M Int
  | some i => .ok i
  | none => undef

/-- One level of `rearrangeFamilies`, lines 962-979: `switchOnTupleEqualTo` for every id, `BuildListOfSwitchedOff`, and 0 there. -/
def rearrangeLev (ids : List Int) (l : FamLev) : M FamLev :=
  match l.fam with
  | none => .ok l
  | some a => do
    let v := ids.foldl (fun (v : List Bool) i => List.zipWith (fun x b => b || decide (x = i)) a v) (List.replicate a.length false)
    let cells ← buildListOfSwitched false v
    let off ← cells.mapM ofWritten
    if off = [] then .ok l
    else do
      let c ← setPartSimple a 0 off
      .ok { l with fam := some c }

/-- `MEDFileMesh::rearrangeFamilies` – MEDFileMesh.cxx:933-981. -/
def rearrangeFamilies (m : FamMesh) : M FamMesh := do
  checkOrphanFamilyZero m
  let m1 := removeFamiliesReferedByNoGroups m
  if m1.families.any fun p => decide (p.2 = 0) && decide (getGroupsOnFamily m1 p.1 ≠ []) then throwX
  else do
    let levs ← m1.levs.mapM (rearrangeLev (m1.families.map (·.2)))
    .ok (removeOrphanFamilies { m1 with levs := levs }).2

/-- `setOfFamilies[k].push_back(f)` on a `std::map<std::set<std::string>, std::vector<std::string>>`. -/
def bucketAdd (k : List Name) (f : Name) : List (List Name × List Name) → List (List Name × List Name)
  | [] => [(k, [f])]
  | p :: m => if p.1 = k then (k, p.2 ++ [f]) :: m else if k < p.1 then (k, [f]) :: p :: m else p :: bucketAdd k f m

/-- The set of the groups on a family, lines 1000-1001. -/
def groupSet (m : FamMesh) (f : Name) : List Name := (getGroupsOnFamily m f).foldl (fun s g => nameInsert g s) []

/-- Lines 997-1003. -/
def zipBuckets (m : FamMesh) : List (List Name × List Name) :=
  m.families.foldl (fun b p => bucketAdd (groupSet m p.1) p.1 b) []

/-- `famIdsToSubstitute[k].push_back(..)` for all the values of `vs`. -/
def sessionAdd (k : Int) (vs : List Int) : List (Int × List Int) → List (Int × List Int)
  | [] => [(k, vs)]
  | p :: m => if p.1 = k then (k, p.2 ++ vs) :: m else if k < p.1 then (k, vs) :: p :: m else p :: sessionAdd k vs m

/-- `familiesToKill`, lines 1010-1017. -/
def zipKill (b : List (List Name × List Name)) : List Name := b.flatMap fun p => p.2.drop 1

/-- One set of families with the same groups, lines 1021-1055: the groups, the families, the substitutions. -/
def zipOne (m : FamMesh) (kill : List Name) (st : List (Name × List Name) × List (Name × Int) × List (Int × List Int))
    (p : List Name × List Name) : M (List (Name × List Name) × List (Name × Int) × List (Int × List Int)) :=
  match p.2 with
  | [] => .ok st
  | [_] => .ok st
  | f0 :: rest => do
    let id0 := (mget f0 m.families).getD 0
    let ids ← getFamiliesIds m (f0 :: rest)
    .ok (p.1.foldl (fun gr g => mset g (f0 :: ((mget g m.groups).getD []).filter fun f => decide (f ∉ kill)) gr) st.1,
         rest.foldl (fun fs f => merase f fs) st.2.1,
         p.1.foldl (fun s _ => sessionAdd id0 ids s) st.2.2)

/-- One substitution on one level, lines 1060-1076. -/
def zipLev (sess : List (Int × List Int)) (l : FamLev) : M FamLev :=
  match l.fam with
  | none => .ok l
  | some a => do
    let c ← sess.foldlM (fun c s => setPartSimple c s.1 (findIdsEqualList c s.2)) a
    .ok { l with fam := some c }

/-- `MEDFileMesh::zipFamilies` – MEDFileMesh.cxx:990-1079.  The substitutions are made level by level instead of one after the other on
all levels, the levels do not interact. -/
def zipFamilies (m : FamMesh) : M FamMesh := do
  checkOrphanFamilyZero m
  let m1 := removeFamiliesReferedByNoGroups m
  let b := zipBuckets m1
  let st ← b.foldlM (zipOne m1 (zipKill b)) (m1.groups, m1.families, [])
  let levs ← m1.levs.mapM (zipLev st.2.2)
  .ok ⟨levs, st.2.1, st.1⟩

/-- `MEDFileMesh::changeGroupName` – MEDFileMesh.cxx:1107-1131. -/
def changeGroupName (m : FamMesh) (old new : Name) : M FamMesh :=
  match mget old m.groups with
  | none => throwX
  | some fams =>
    match mget new m.groups with
    | some _ => throwX
    | none => .ok { m with groups := mset new fams (merase old m.groups) }

/-- `MEDFileMesh::changeFamilyId` – MEDFileMesh.cxx:1139-1153 and `changeFamilyIdArr` 6673-6687. -/
def changeFamilyId (m : FamMesh) (old new : Int) : FamMesh :=
  { m with levs := m.levs.map fun l => { l with fam := l.fam.map fun a => (changeValue old new a).2 }
           families := m.families.map fun p => (p.1, if p.2 = old then new else p.2) }

/-- `MEDFileMesh::changeFamilyName` – MEDFileMesh.cxx:1161-1192: the first occurrence is renamed in every group. -/
def changeFamilyName (m : FamMesh) (old new : Name) : M FamMesh :=
  match mget old m.families with
  | none => throwX
  | some i =>
    match mget new m.families with
    | some _ => throwX
    | none => .ok { m with families := mset new i (merase old m.families)
                           groups := m.groups.map fun p => (p.1, p.2.replace old new) }

/-- `MEDFileMesh::createGroupOnAll` – MEDFileMesh.cxx:1399-1435. -/
def createGroupOnAll (m : FamMesh) (rel : Int) (g : Name) : M FamMesh :=
  match famLev m rel, mget g m.groups with
  | none, _ => throwX
  | some _, some _ => throwX
  | some l, none =>
    match l.fam with
    | none => throwX
    | some a => do
      let r ← (getDifferentValues a).foldlM (fun (st : List Name × List (Name × Int)) i => do
        let q ← findOrCreateFamily st.2 i
        (.ok (st.1 ++ [q.1], q.2) : M _)) ([], m.families)
      .ok { m with families := r.2, groups := mset g r.1 m.groups }

/-- One family of `assignFamilyNameWithGroupName`, lines 700-724. -/
def assignOne (m : FamMesh) (st : List (Name × Int) × List (Name × List Name)) (p : Name × Int) :
    M (List (Name × Int) × List (Name × List Name)) :=
  match getGroupsOnFamily m p.1 with
  | [g] =>
    match mget g st.2 with
    | some [f] =>
      match mget g st.1 with
      | some _ => throwX
      | none => .ok (mset g p.2 st.1, mset g ([f].replace p.1 g) st.2)
    | _ => match mget p.1 st.1 with
      | some _ => throwX
      | none => .ok (mset p.1 p.2 st.1, st.2)
  | _ => match mget p.1 st.1 with
    | some _ => throwX
    | none => .ok (mset p.1 p.2 st.1, st.2)

/-- `MEDFileMesh::assignFamilyNameWithGroupName` – MEDFileMesh.cxx:695-727. -/
def assignFamilyNameWithGroupName (m : FamMesh) : M FamMesh := do
  let r ← m.families.foldlM (assignOne m) ([], m.groups)
  .ok { m with families := r.1, groups := r.2 }

end MC
