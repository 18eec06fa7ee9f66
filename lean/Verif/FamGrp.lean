import Mathlib.Data.List.Lex
import Mathlib.Data.Char
import Verif.SetAlg
import Verif.Scan

/-!
# Families and groups of a MED file mesh (C92, C93, C94)

Model of the families, the groups and the family arrays of `MEDFileUMesh` (src/MEDLoader/MEDFileMesh.cxx).

* A name (`std::string`) is the list of its characters; `std::string::operator<` is the lexicographic order.
* `std::map<std::string, T>` is the list of its pairs, in the order of the iteration (keys strictly increasing).
* A level is an entry of `getNonEmptyLevelsExt()`: 1 for the nodes, 0, -1, ... for the cells, with its number of entities
  and its family array, `none` when the pointer is null.  Levels without cells are not represented, and two levels never
  hold the same array object.
* `mcIdType` is unbounded.  A call that throws has no resulting state.
-/

namespace MC

/-- `std::string`. -/
abbrev Name := List Char

/-- `m.find(k)` on a `std::map`, `none` for `m.end()`. -/
def mget {α : Type} (k : Name) : List (Name × α) → Option α
  | [] => none
  | p :: m => if p.1 = k then some p.2 else mget k m

/-- `m[k] = v` on a `std::map`. -/
def mset {α : Type} (k : Name) (v : α) : List (Name × α) → List (Name × α)
  | [] => [(k, v)]
  | p :: m => if p.1 = k then (k, v) :: m else if k < p.1 then (k, v) :: p :: m else p :: mset k v m

/-- `m.erase(k)` on a `std::map`. -/
def merase {α : Type} (k : Name) (m : List (Name × α)) : List (Name × α) := m.filter fun p => decide (p.1 ≠ k)

/-- `s.insert(k)` on a `std::set<std::string>`, the list of its elements in the order of the iteration. -/
def nameInsert (k : Name) : List Name → List Name
  | [] => [k]
  | x :: l => if x = k then x :: l else if k < x then k :: x :: l else x :: nameInsert k l

/-- A level of the mesh: relative dimension, number of entities, family array. -/
structure FamLev where
  rel : Int
  size : Nat
  fam : Option (List Int)
deriving DecidableEq, Repr

/-- `_ms`, `_fam_coords`; `_families`; `_groups` – MEDFileMesh.hxx:322-323, 640-643. -/
structure FamMesh where
  levs : List FamLev
  families : List (Name × Int)
  groups : List (Name × List Name)
deriving DecidableEq, Repr

/-- The level of relative dimension `rel`. -/
def famLev (m : FamMesh) (rel : Int) : Option FamLev := m.levs.find? fun l => decide (l.rel = rel)

/-- `MEDFileUMesh::getFamilyFieldAtLevel` – MEDFileMesh.cxx:4029-4035 (`getMeshAtLevSafe` 4639-4651). -/
def getFamilyFieldAtLevel (m : FamMesh) (rel : Int) : M (Option (List Int)) :=
  match famLev m rel with
  | none => if rel = 1 then .ok none else throwX
  | some l => .ok l.fam

/-- `MEDFileUMesh::setFamilyFieldArr` – MEDFileMesh.cxx:6543-6573 with `setFamilyArr`; the length is checked. -/
def setFamilyFieldArr (m : FamMesh) (rel : Int) (a : List Int) : M FamMesh :=
  match famLev m rel with
  | none => throwX
  | some l =>
    if a.length ≠ l.size then throwX
    else .ok { m with levs := m.levs.map fun l => if l.rel = rel then { l with fam := some a } else l }

/-- The values of an array seen through a pointer to it are replaced. -/
def putFam (m : FamMesh) (rel : Int) (a : List Int) : FamMesh :=
  { m with levs := m.levs.map fun l => if l.rel = rel then { l with fam := some a } else l }

/-- `MEDFileMesh::getFamiliesOnGroup` – MEDFileMesh.cxx:373-387. -/
def getFamiliesOnGroup (m : FamMesh) (g : Name) : M (List Name) :=
  match mget g m.groups with
  | none => throwX
  | some fams => .ok fams

/-- `MEDFileMesh::getFamiliesOnGroups` – MEDFileMesh.cxx:395-414. -/
def getFamiliesOnGroups (m : FamMesh) (gs : List Name) : M (List Name) :=
  gs.foldlM (fun acc g => do
    let fams ← getFamiliesOnGroup m g
    .ok (fams.foldl (fun s f => nameInsert f s) acc)) []

/-- `MEDFileMesh::getFamilyId` – MEDFileMesh.cxx:1778-1791. -/
def getFamilyId (m : FamMesh) (f : Name) : M Int :=
  match mget f m.families with
  | none => throwX
  | some i => .ok i

/-- `MEDFileMesh::getFamiliesIds` – MEDFileMesh.cxx:1799-1818. -/
def getFamiliesIds (m : FamMesh) (fams : List Name) : M (List Int) := fams.mapM (getFamilyId m)

/-- `MEDFileMesh::getFamiliesIdsOnGroup` – MEDFileMesh.cxx:423-437. -/
def getFamiliesIdsOnGroup (m : FamMesh) (g : Name) : M (List Int) := do
  let fams ← getFamiliesOnGroup m g
  getFamiliesIds m fams

/-- `MEDFileMesh::getGroupsOnFamily` – MEDFileMesh.cxx:486-501. -/
def getGroupsOnFamily (m : FamMesh) (f : Name) : List Name :=
  m.groups.foldl (fun r p => if f ∈ p.2 then r ++ [p.1] else r) []

/-- `DataArrayDiscrete<T>::findIdsEqualList` – MEDCouplingMemArray.txx:5743-5762. -/
def findIdsEqualList (l vals : List Int) : List Int :=
  l.zipIdx.foldl (fun r p => if p.1 ∈ vals then r ++ [(p.2 : Int)] else r) []

/-- `MEDFileUMesh::getFamiliesArr` – MEDFileMesh.cxx:4358-4387, `renum == false`; `getFamilyPartArr`, MEDFileMeshLL.cxx:2084-2090,
dereferences the array of the cells without looking whether there is one. -/
def getFamiliesArr (m : FamMesh) (rel : Int) (fams : List Name) : M (List Int) := do
  let ids ← getFamiliesIds m fams
  let fa ← getFamilyFieldAtLevel m rel
  match fa with
  | some a => .ok (findIdsEqualList a ids)
  | none => if rel = 1 then .ok [] else undef

/-- `MEDFileMesh::getGroupsArr` – MEDFileMesh.cxx:2292-2297. -/
def getGroupsArr (m : FamMesh) (rel : Int) (gs : List Name) : M (List Int) := do
  let fams ← getFamiliesOnGroups m gs
  getFamiliesArr m rel fams

/-- `MEDFileMesh::getGroupArr` – MEDFileMesh.cxx:2269-2277. -/
def getGroupArr (m : FamMesh) (rel : Int) (g : Name) : M (List Int) := getGroupsArr m rel [g]

/-- `MEDFileMesh::getFamilyArr` – MEDFileMesh.cxx:2312-2319. -/
def getFamilyArr (m : FamMesh) (rel : Int) (f : Name) : M (List Int) := getFamiliesArr m rel [f]

/-- The loop on the families of a group in `getGroupsOnSpecifiedLev`, lines 597-606: `_families.find(it2)` is dereferenced
without comparison with `end()`. -/
def levHasFamily (m : FamMesh) (a : List Int) : List Name → M Bool
  | [] => .ok false
  | f :: l =>
    match mget f m.families with
    | none => undef
    | some i => if i ∈ a then .ok true else levHasFamily m a l

/-- `MEDFileMesh::getGroupsOnSpecifiedLev` – MEDFileMesh.cxx:585-610. -/
def getGroupsOnSpecifiedLev (m : FamMesh) (rel : Int) : M (List Name) := do
  let fa ← getFamilyFieldAtLevel m rel
  match fa with
  | none => .ok []
  | some a => m.groups.foldlM (fun r p => do
      let b ← levHasFamily m a p.2
      .ok (if b then r ++ [p.1] else r)) []

/-- `MEDFileMesh::existsFamily(mcIdType)` – MEDFileMesh.cxx:1301-1307. -/
def existsFamilyId (m : FamMesh) (i : Int) : Bool := m.families.any fun p => decide (p.2 = i)

/-- `MEDFileMesh::getFamilyNameGivenId` – MEDFileMesh.cxx:2198-2206. -/
def getFamilyNameGivenId (m : FamMesh) (i : Int) : M Name :=
  match m.families.find? fun p => decide (p.2 = i) with
  | none => throwX
  | some p => .ok p.1

/-- Attempts 1 and 2 of `CreateNameNotIn`: the first of the candidates that is not to be avoided. -/
def firstNotIn (avoid : List Name) (cands : List Name) : Option Name := cands.find? fun c => decide (c ∉ avoid)

/-- The strings of attempt 2, lines 2563-2572: `std::string tmp1(nameTry.at(0), i)` is the constructor `(count, char)`, hence
as many characters of code `i` as the code of the first character. -/
def prefixedTries (nameTry : Name) : List Name :=
  match nameTry with
  | [] => []
  | c :: l => (List.range 29).map fun i => List.replicate c.toNat (Char.ofNat (i + 1)) ++ (c :: l)

/-- `MEDFileMesh::CreateNameNotIn` – MEDFileMesh.cxx:2547-2580. -/
def createNameNotIn (nameTry : Name) (avoid : List Name) : M Name :=
  if nameTry ∉ avoid then .ok nameTry
  else match firstNotIn avoid ((List.range (nameTry.length - 1)).map fun ii => nameTry.drop (ii + 1)) with
  | some c => .ok c
  | none => match firstNotIn avoid (prefixedTries nameTry) with
    | some c => .ok c
    | none => if avoid.flatten ∉ avoid then .ok avoid.flatten else throwX

/-- `oss << "Family_" << id`. -/
def familyName (i : Int) : Name :=
  ['F', 'a', 'm', 'i', 'l', 'y', '_'] ++ (if i < 0 then '-' :: Nat.toDigits 10 i.natAbs else Nat.toDigits 10 i.natAbs)

/-- `MEDFileMesh::FindOrCreateAndGiveFamilyWithId` – MEDFileMesh.cxx:1726-1749: name and new map. -/
def findOrCreateFamily (families : List (Name × Int)) (i : Int) : M (Name × List (Name × Int)) :=
  match families.find? fun p => decide (p.2 = i) with
  | some p => .ok (p.1, families)
  | none => do
    let r ← createNameNotIn (familyName i) (families.map (·.1))
    .ok (r, mset r i families)

/-- `MEDFileMesh::ChangeAllGroupsContainingFamily` – MEDFileMesh.cxx:1684-1702. -/
def changeAllGroups (groups : List (Name × List Name)) (f : Name) (news : List Name) : List (Name × List Name) :=
  groups.map fun p => if f ∈ p.2 then (p.1, p.2.erase f ++ news) else p

/-- `std::numeric_limits<mcIdType>::max()`. -/
def mcIdMax : Int := 9223372036854775807

/-- `DataArrayTemplate<T>::getMaxValue` – MEDCouplingMemArray.txx:2587-2606. -/
def getMaxValue (l : List Int) : M Int :=
  match l with
  | [] => throwX
  | a :: l => .ok (l.foldl max a)

/-- `MEDFileUMesh::getMaxAbsFamilyIdInArrays` – MEDFileMesh.cxx:3839-3861: absolute value of the maximum of each array. -/
def getMaxAbsFamilyIdInArrays (m : FamMesh) : M Int :=
  m.levs.foldlM (fun ret l => match l.fam with
    | none => .ok ret
    | some a => do
      let v ← getMaxValue a
      .ok (max ret |v|)) (-mcIdMax)

/-- `MEDFileMesh::getTheMaxAbsFamilyId` – MEDFileMesh.cxx:1879-1886. -/
def getTheMaxAbsFamilyId (m : FamMesh) : M Int := do
  let m2 ← getMaxAbsFamilyIdInArrays m
  .ok (max (m.families.foldl (fun r p => max |p.2| r) (-mcIdMax)) m2)

/-- `MEDFileMesh::checkNoGroupClash` – MEDFileMesh.cxx:1556-1569. -/
def checkNoGroupClash (m : FamMesh) (a : List Int) (g : Name) : M Unit :=
  match mget g m.groups with
  | none => .ok ()
  | some _ => do
    let ids ← getFamiliesIdsOnGroup m g
    if ids.any (fun i => decide (i ∈ a)) then throwX else .ok ()

/-- `selectByTupleIdSafe` on a mono-component array: every id is checked. -/
def selectSafe (a ids : List Int) : M (List Int) :=
  ids.mapM fun (i : Int) => if 0 ≤ i ∧ i < a.length then rd a i else throwX

/-- `setPartOfValuesSimple3(v, ids, 0, 1, 1)` on a mono-component array – MEDCouplingMemArray.txx:2124-2141. -/
def setPartSimple (a : List Int) (v : Int) (ids : List Int) : M (List Int) :=
  ids.foldlM (fun a (i : Int) => if 0 ≤ i ∧ i < a.length then wr a i v else throwX) a

/-- The variables of the loop of `addGroupUnderground`: `maxVal`, `families`, `groups`, `fams`, and the pairs of
`familyIds` and `idsPerfamiliyIds`. -/
structure AddGrpSt where
  maxVal : Int
  families : List (Name × Int)
  groups : List (Name × List Name)
  fams : List Name
  sets : List (Int × List Int)

/-- `isNodeGroup ? v : -v`. -/
def famSign (isNode : Bool) (v : Int) : Int := if isNode then v else -v

/-- The other groups on the family `famId` of the mesh get the families `news` instead. -/
def changeIfExists (m : FamMesh) (famId : Int) (groups : List (Name × List Name)) (news : Name → List Name) :
    M (List (Name × List Name)) :=
  if existsFamilyId m famId then do
    let n ← getFamilyNameGivenId m famId
    .ok (changeAllGroups groups n (news n))
  else .ok groups

/-- All entities of the family are in the group, lines 1611-1642. -/
def addCovered (m : FamMesh) (isNode : Bool) (others : List (List Int)) (ids2 : List Int) (famId : Int) (st : AddGrpSt) :
    M AddGrpSt :=
  if others.any (fun a => decide (famId ∈ a)) = false ∧ famId ≠ 0 then do
    let r ← findOrCreateFamily st.families famId
    .ok { st with families := r.2, fams := st.fams ++ [r.1], sets := st.sets ++ [(famId, [])] }
  else do
    let r ← findOrCreateFamily st.families (famSign isNode st.maxVal)
    let gr ← changeIfExists m famId st.groups fun n => [n, r.1]
    .ok { maxVal := st.maxVal + 1, families := r.2, groups := gr, fams := st.fams ++ [r.1],
          sets := st.sets ++ [(famSign isNode st.maxVal, ids2)] }

/-- Some entities of the family, `ret0`, are not in the group, lines 1643-1660. -/
def addSplit (m : FamMesh) (isNode : Bool) (ret0 ids2 : List Int) (famId : Int) (st : AddGrpSt) : M AddGrpSt := do
  let r2 ← findOrCreateFamily st.families (famSign isNode (st.maxVal + 1))
  if existsFamilyId m famId then do
    let r1 ← findOrCreateFamily r2.2 (famSign isNode st.maxVal)
    let gr ← changeIfExists m famId st.groups fun _ => [r1.1, r2.1]
    .ok { maxVal := st.maxVal + 2, families := r1.2, groups := gr, fams := st.fams ++ [r2.1],
          sets := st.sets ++ [(famSign isNode st.maxVal, ret0), (famSign isNode (st.maxVal + 1), ids2)] }
  else
    .ok { maxVal := st.maxVal + 2, families := r2.2, groups := st.groups, fams := st.fams ++ [r2.1],
          sets := st.sets ++ [(famSign isNode st.maxVal, ret0), (famSign isNode (st.maxVal + 1), ids2)] }

/-- One turn of the loop of `addGroupUnderground`, lines 1605-1661. -/
def addStep (m : FamMesh) (isNode : Bool) (others : List (List Int)) (a ids famIds : List Int) (st : AddGrpSt) (famId : Int) :
    M AddGrpSt := do
  let ids2 ← (findIdsEqual famIds famId).mapM (rd ids)
  let ret0 := buildSubstractionOptimized (findIdsEqual a famId) ids2
  if ret0 = [] then addCovered m isNode others ids2 famId st else addSplit m isNode ret0 ids2 famId st

/-- The rest of `addGroupUnderground` once the name and the ids have been checked, lines 1588-1672. -/
def addGroupCore (m : FamMesh) (isNode : Bool) (rel : Int) (g : Name) (ids a : List Int) : M FamMesh := do
  checkNoGroupClash m a g
  let others := (m.levs.filter fun l => decide (l.rel ≠ rel)).filterMap (·.fam)
  let famIds ← selectSafe a ids
  let mx ← getTheMaxAbsFamilyId m
  let st ← (getDifferentValues famIds).foldlM (addStep m isNode others a ids famIds)
    { maxVal := mx + 1, families := m.families, groups := m.groups, fams := [], sets := [] }
  let a' ← st.sets.foldlM (fun a p => setPartSimple a p.1 p.2) a
  .ok { putFam m rel a' with
        families := st.families
        groups := mset g (match mget g st.groups with | some l => l ++ st.fams | none => st.fams) st.groups }

/-- `MEDFileMesh::addGroupUnderground` – MEDFileMesh.cxx:1578-1673, on the array `a` of the level `rel`, that is in `m`. -/
def addGroupUnderground (m : FamMesh) (isNode : Bool) (rel : Int) (g : Name) (ids a : List Int) : M FamMesh :=
  if g = [] then throwX
  else if isStrictlyMonotonic true ids = false then throwX
  else addGroupCore m isNode rel g ids a

/-- `MEDFileUMesh::addGroup` – MEDFileMesh.cxx:6251-6271 (`addNodeGroup` 6219-6232, `getOrCreateAndGetFamilyField`
MEDFileMeshLL.cxx:2148-2157): an absent array is created, filled with 0. -/
def addGroupAt (m : FamMesh) (rel : Int) (g : Name) (ids : List Int) : M FamMesh :=
  match famLev m rel with
  | none => throwX
  | some l =>
    match l.fam with
    | some a => addGroupUnderground m (decide (rel = 1)) rel g ids a
    | none =>
      addGroupUnderground (putFam m rel (List.replicate l.size 0)) (decide (rel = 1)) rel g ids (List.replicate l.size 0)

end MC
