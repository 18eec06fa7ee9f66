import Verif.FamEdit
import Verif.FamGrpThm
import Verif.ScanProps
import Verif.SetAlgProps

/-!
# Families and groups of a MED file mesh: cleaning and renaming (C94)
-/

namespace MC

/-- The maps in order, groups on families of the mesh, ids of families all different, one level per relative dimension. -/
structure FamOK (m : FamMesh) : Prop where
  kf : KeysInc m.families
  kg : KeysInc m.groups
  ok : GroupsOK m
  inj : IdsInj m.families
  levs : (m.levs.map (·.rel)).Nodup

theorem FamWF.famOK {m : FamMesh} (h : FamWF m) : FamOK m := ⟨h.kf, h.kg, h.ok, h.inj, h.levs⟩

/-- The levels with every family id changed by `R`. -/
def relabel (R : Int → Int) (levs : List FamLev) : List FamLev := levs.map fun l => { l with fam := l.fam.map (List.map R) }

theorem famLev_relabel (R : Int → Int) (m m' : FamMesh) (hl : m'.levs = relabel R m.levs) (rel : Int) :
    famLev m' rel = (famLev m rel).map fun l => { l with fam := l.fam.map (List.map R) } := by
  unfold famLev
  rw [hl, relabel]
  generalize m.levs = L
  induction L with
  | nil => rfl
  | cons l L ih =>
    rw [List.map_cons, List.find?_cons, List.find?_cons]
    simp only
    by_cases h : l.rel = rel
    · simp [h]
    · simp only [h, decide_false]
      exact ih

theorem field_relabel (R : Int → Int) (m m' : FamMesh) (hl : m'.levs = relabel R m.levs) (rel : Int) :
    getFamilyFieldAtLevel m' rel = (getFamilyFieldAtLevel m rel).map (Option.map (List.map R)) := by
  unfold getFamilyFieldAtLevel
  rw [famLev_relabel R m m' hl]
  cases famLev m rel with
  | none =>
    simp only [Option.map_none]
    split <;> rfl
  | some l => rfl

theorem relabel_id (levs : List FamLev) : relabel id levs = levs := by
  unfold relabel
  conv_rhs => rw [← List.map_id levs]
  apply List.map_congr_left
  intro l _
  simp

theorem read_group (m : FamMesh) (rel : Int) (a : List Int) (g : Name) (hw : GroupsOK m) (ha : getFamilyFieldAtLevel m rel = .ok (some a))
    (hg : mget g m.groups ≠ none) : ∃ R, getGroupArr m rel g = .ok R ∧ StrictSorted R ∧
      ∀ i, i ∈ R ↔ ∃ k : Nat, i = (k : Int) ∧ ∃ x, a[k]? = some x ∧ GrpHas m g x := by
  obtain ⟨R, h4, h5, h6⟩ := C92_groups_arr m rel a [g] hw ha (by
    simp only [List.mem_singleton, forall_eq]
    exact Option.ne_none_iff_exists'.mp hg)
  exact ⟨R, h4, h5, fun i => by rw [h6]; simp⟩

theorem read_none (m : FamMesh) (rel : Int) (g : Name) (hw : GroupsOK m) (ha : getFamilyFieldAtLevel m rel = .ok none) (hg : mget g m.groups ≠ none) :
    getGroupArr m rel g = if rel = 1 then .ok [] else .error .ub :=
  C92_finding_no_array m rel [g] hw (by
    simp only [List.mem_singleton, forall_eq]
    exact Option.ne_none_iff_exists'.mp hg) ha

theorem read_error (m : FamMesh) (rel : Int) (g : Name) (e : Err) (hw : GroupsOK m) (ha : getFamilyFieldAtLevel m rel = .error e) (hg : mget g m.groups ≠ none) :
    getGroupArr m rel g = .error e := by
  have hg' : ∀ g' ∈ [g], ∃ fams, mget g' m.groups = some fams := by
    simp only [List.mem_singleton, forall_eq]
    exact Option.ne_none_iff_exists'.mp hg
  obtain ⟨r, h3, h4⟩ := getFamiliesOnGroups_ok m [g] hg'
  obtain ⟨ids, h5, _⟩ := getFamiliesIds_ok m r (by
    intro f hf
    obtain ⟨g, _, fams, hgf, hff⟩ := (h4 f).mp hf
    exact hw g fams hgf f hff)
  unfold getGroupArr getGroupsArr getFamiliesArr
  rw [h3, ok_bind, h5, ok_bind, ha]
  rfl

/-- Two groups of two meshes whose levels only differ by a change of the ids have the same entities everywhere when the ids of one are
changed into those of the other. -/
theorem same_group (R : Int → Int) {m m' : FamMesh} (hl : m'.levs = relabel R m.levs) (h1 : GroupsOK m) (h2 : GroupsOK m') {g g' : Name}
    (hg : mget g m.groups ≠ none) (hg' : mget g' m'.groups ≠ none)
    (h : ∀ l ∈ m.levs, ∀ a, l.fam = some a → ∀ x ∈ a, GrpHas m' g' (R x) ↔ GrpHas m g x) (rel : Int) :
    getGroupArr m' rel g' = getGroupArr m rel g := by
  have hf := field_relabel R m m' hl rel
  cases ha : getFamilyFieldAtLevel m rel with
  | error e =>
    rw [ha] at hf
    rw [read_error m rel g e h1 ha hg, read_error m' rel g' e h2 hf hg']
  | ok o =>
    rw [ha] at hf
    cases o with
    | none => rw [read_none m rel g h1 ha hg, read_none m' rel g' h2 hf hg']
    | some a =>
      obtain ⟨l, hl1, hl2⟩ := field_some ha
      have hlm := (famLev_mem hl1).1
      obtain ⟨A, r1, r2, r3⟩ := read_group m rel a g h1 ha hg
      obtain ⟨A', s1, s2, s3⟩ := read_group m' rel (a.map R) g' h2 hf hg'
      rw [r1, s1]
      congr 1
      apply StrictSorted.ext s2 r2
      intro i
      rw [s3, r3]
      constructor
      · rintro ⟨k, rfl, x, hx, hgx⟩
        rw [List.getElem?_map] at hx
        obtain ⟨y, hy, rfl⟩ := Option.map_eq_some_iff.mp hx
        exact ⟨k, rfl, y, hy, (h l hlm a hl2 y (List.mem_of_getElem? hy)).mp hgx⟩
      · rintro ⟨k, rfl, x, hx, hgx⟩
        exact ⟨k, rfl, R x, by rw [List.getElem?_map, hx]; rfl, (h l hlm a hl2 x (List.mem_of_getElem? hx)).mpr hgx⟩

theorem same_group_levs {m m' : FamMesh} (h1 : GroupsOK m) (h2 : GroupsOK m') (hl : m'.levs = m.levs) {g g' : Name}
    (hg : mget g m.groups ≠ none) (hg' : mget g' m'.groups ≠ none)
    (h : ∀ l ∈ m.levs, ∀ a, l.fam = some a → ∀ x ∈ a, GrpHas m' g' x ↔ GrpHas m g x) (rel : Int) :
    getGroupArr m' rel g' = getGroupArr m rel g :=
  same_group id (by rw [relabel_id]; exact hl) h1 h2 hg hg' h rel

/-! ## Removals -/

/-- **C94.** `removeEmptyGroups` returns and removes exactly the groups without family; the others, the families and the arrays stay. -/
theorem C94_remove_empty_groups (m : FamMesh) :
    (∀ g, g ∈ (removeEmptyGroups m).1 ↔ (g, []) ∈ m.groups) ∧
    (∀ p, p ∈ (removeEmptyGroups m).2.groups ↔ p ∈ m.groups ∧ p.2 ≠ []) ∧
    (removeEmptyGroups m).2.levs = m.levs ∧ (removeEmptyGroups m).2.families = m.families := by
  unfold removeEmptyGroups
  simp only
  refine ⟨?_, ?_, ?_, ?_⟩
  · intro g
    simp only [List.mem_map, List.mem_filter, decide_eq_true_eq]
    constructor
    · rintro ⟨⟨a, b⟩, ⟨h1, h2⟩, rfl⟩
      simp only at h2
      rw [h2] at h1; exact h1
    · intro h; exact ⟨_, ⟨h, rfl⟩, rfl⟩
  · intro p
    split
    · rename_i h
      rw [List.map_eq_nil_iff, List.filter_eq_nil_iff] at h
      constructor
      · intro hp; exact ⟨hp, by simpa using h p hp⟩
      · exact fun h => h.1
    · simp [List.mem_filter]
  · split <;> rfl
  · split <;> rfl

example : removeEmptyGroups { famWFSample with groups := [(['a'], [['x']]), (['e'], [])] } =
    ([['e']], { famWFSample with groups := [(['a'], [['x']])] }) := by decide +kernel

theorem mget_filter {α : Type} (q : Name × α → Bool) {m : List (Name × α)} (hm : KeysInc m) (k : Name) :
    mget k (m.filter q) = (mget k m).filter fun v => q (k, v) := by
  cases h : mget k m with
  | none =>
    rw [Option.filter_none, mget_none]
    rw [mget_none] at h
    intro hk
    apply h
    obtain ⟨p, hp, rfl⟩ := List.mem_map.mp hk
    exact List.mem_map.mpr ⟨p, (List.mem_filter.mp hp).1, rfl⟩
  | some v =>
    by_cases hq : q (k, v) = true
    · rw [Option.filter_some, if_pos hq]
      exact mem_mget (keysInc_filter q hm) (List.mem_filter.mpr ⟨mget_mem h, hq⟩)
    · rw [Option.filter_some, if_neg hq, mget_none]
      intro hk
      obtain ⟨⟨k', w⟩, hp, e⟩ := List.mem_map.mp hk
      simp only at e
      subst e
      have := List.mem_filter.mp hp
      have h3 := mem_mget hm this.1
      rw [h] at h3
      cases h3
      exact hq this.2

/-- **C94.** `removeGroup`: the group is gone, the others have the same entities; an unknown group is refused. -/
theorem C94_remove_group (m : FamMesh) (hw : FamOK m) (g : Name) :
    (mget g m.groups = none → removeGroup m g = .error .exn) ∧
    (mget g m.groups ≠ none → ∃ m', removeGroup m g = .ok m' ∧ FamOK m' ∧ mget g m'.groups = none ∧
      ∀ g', g' ≠ g → mget g' m.groups ≠ none → mget g' m'.groups ≠ none ∧ ∀ rel, getGroupArr m' rel g' = getGroupArr m rel g') := by
  unfold removeGroup
  refine ⟨fun h => by rw [h]; rfl, fun h => ?_⟩
  obtain ⟨L, hL⟩ := Option.ne_none_iff_exists'.mp h
  rw [hL]
  have hok : GroupsOK { m with groups := merase g m.groups } := by
    intro g' L' hL' f hf
    simp only [mget_merase] at hL'
    split at hL'
    · cases hL'
    · exact hw.ok g' L' hL' f hf
  refine ⟨_, rfl, ⟨hw.kf, keysInc_merase hw.kg, hok, hw.inj, hw.levs⟩, by simp [mget_merase], ?_⟩
  intro g' hne hg'
  have hh : mget g' (merase g m.groups) ≠ none := by rw [mget_merase, if_neg hne]; exact hg'
  refine ⟨hh, fun rel => ?_⟩
  refine same_group_levs hw.ok hok rfl hg' hh ?_ rel
  intro _ _ _ _ x _
  unfold GrpHas
  simp only [mget_merase, if_neg hne]

example : (do let m ← removeGroup famWFSample ['a']; getGroupArr m 0 ['b']) = .ok [2] ∧ removeGroup famWFSample ['c'] = .error .exn ∧
    (do let m ← removeGroup famWFSample ['a']; getGroupArr m 0 ['a']) = .error .exn := by decide +kernel

/-- **C94.** `changeGroupName`: the new name has the entities of the old one, the old name is gone, the other groups are the same; an unknown
group and a name already used are refused. -/
theorem C94_change_group_name (m : FamMesh) (hw : FamOK m) (old new : Name) :
    (mget old m.groups = none ∨ mget new m.groups ≠ none → changeGroupName m old new = .error .exn) ∧
    (mget old m.groups ≠ none → mget new m.groups = none → ∃ m', changeGroupName m old new = .ok m' ∧ FamOK m' ∧ mget old m'.groups = none ∧
      (∀ rel, getGroupArr m' rel new = getGroupArr m rel old) ∧
      ∀ g', g' ≠ old → mget g' m.groups ≠ none → ∀ rel, getGroupArr m' rel g' = getGroupArr m rel g') := by
  unfold changeGroupName
  constructor
  · rintro (h | h)
    · rw [h]; rfl
    · cases ho : mget old m.groups with
      | none => rfl
      | some L =>
        obtain ⟨L', hL'⟩ := Option.ne_none_iff_exists'.mp h
        simp only [hL']; rfl
  · intro ho hn
    obtain ⟨L, hL⟩ := Option.ne_none_iff_exists'.mp ho
    rw [hL]
    simp only [hn]
    have hon : old ≠ new := fun e => ho (e ▸ hn)
    have hget : ∀ g', mget g' (mset new L (merase old m.groups)) = if g' = new then some L else if g' = old then none else mget g' m.groups := by
      intro g'; rw [mget_mset, mget_merase]
    have hok : GroupsOK { m with groups := mset new L (merase old m.groups) } := by
      intro g' L' hL' f hf
      simp only [hget] at hL'
      split at hL'
      · cases hL'; exact hw.ok old L hL f hf
      · split at hL'
        · cases hL'
        · exact hw.ok g' L' hL' f hf
    refine ⟨_, rfl, ⟨hw.kf, keysInc_mset (keysInc_merase hw.kg), hok, hw.inj, hw.levs⟩, by simp [hget, hon], ?_, ?_⟩
    · intro rel
      refine same_group_levs hw.ok hok rfl ho (by simp [hget]) ?_ rel
      intro _ _ _ _ x _
      unfold GrpHas
      simp only [hget, if_true, hL]
    · intro g' hne hg' rel
      have hgn : g' ≠ new := fun e => hg' (e ▸ hn)
      refine same_group_levs hw.ok hok rfl hg' (by simpa [hget, hne, hgn] using hg') ?_ rel
      intro _ _ _ _ x _
      unfold GrpHas
      simp only [hget, if_neg hne, if_neg hgn]

example : (do let m ← changeGroupName famWFSample ['a'] ['c']; getGroupArr m 0 ['c']) = .ok [0, 2, 3] ∧
    changeGroupName famWFSample ['a'] ['b'] = .error .exn := by decide +kernel

/-! ## Families -/

theorem mget_map_val {α β : Type} (F : Name × α → β) (m : List (Name × α)) (k : Name) :
    mget k (m.map fun p => (p.1, F p)) = (mget k m).map fun v => F (k, v) := by
  induction m with
  | nil => rfl
  | cons p m ih =>
    rw [List.map_cons]
    unfold mget
    simp only
    by_cases h : p.1 = k
    · subst h; simp
    · simp only [if_neg h]; exact ih

theorem changeValue_snd (old new : Int) (a : List Int) : (changeValue old new a).2 = a.map fun x => if x = old then new else x :=
  (C35_changeValue old new a).1

/-- **C94.** `changeFamilyId` to a number that is neither that of a family nor in the arrays leaves the entities of all groups. -/
theorem C94_change_family_id (m : FamMesh) (hw : FamOK m) (old new : Int) (hf : ∀ f, mget f m.families ≠ some new)
    (ha : ∀ l ∈ m.levs, ∀ a, l.fam = some a → new ∉ a) :
    FamOK (changeFamilyId m old new) ∧
    (∀ f, mget f (changeFamilyId m old new).families = (mget f m.families).map fun i => if i = old then new else i) ∧
    ∀ g, mget g m.groups ≠ none → ∀ rel, getGroupArr (changeFamilyId m old new) rel g = getGroupArr m rel g := by
  set R : Int → Int := fun x => if x = old then new else x with hR
  have hlev : (changeFamilyId m old new).levs = relabel R m.levs := by
    unfold changeFamilyId relabel
    simp only [changeValue_snd]
    rfl
  have hget : ∀ f, mget f (changeFamilyId m old new).families = (mget f m.families).map R := by
    intro f
    unfold changeFamilyId
    simp only
    rw [mget_map_val (fun p => if p.2 = old then new else p.2)]
  have hgr : (changeFamilyId m old new).groups = m.groups := rfl
  have hok : GroupsOK (changeFamilyId m old new) := by
    intro g L hL f hfL
    obtain ⟨i, hi⟩ := hw.ok g L hL f hfL
    exact ⟨R i, by rw [hget, hi]; rfl⟩
  refine ⟨⟨?_, hw.kg, hok, ?_, ?_⟩, hget, ?_⟩
  · unfold changeFamilyId KeysInc
    simp only [List.map_map]
    exact hw.kf
  · intro f f' i h1 h2
    rw [hget] at h1 h2
    obtain ⟨x, hx, e1⟩ := Option.map_eq_some_iff.mp h1
    obtain ⟨y, hy, e2⟩ := Option.map_eq_some_iff.mp h2
    have hxn : x ≠ new := fun e => hf f (e ▸ hx)
    have hyn : y ≠ new := fun e => hf f' (e ▸ hy)
    have : x = y := by
      simp only [hR] at e1 e2
      split at e1 <;> split at e2 <;> omega
    subst this
    exact hw.inj f f' x hx hy
  · rw [hlev, relabel, List.map_map]; exact hw.levs
  · intro g hg rel
    refine same_group R hlev hw.ok hok hg hg ?_ rel
    intro l hl a hla x hx
    have hxn : x ≠ new := fun e => ha l hl a hla (e ▸ hx)
    unfold GrpHas
    simp only [hget, hgr]
    constructor
    · rintro ⟨L, hL, f, hfL, h1⟩
      obtain ⟨y, hy, e⟩ := Option.map_eq_some_iff.mp h1
      have hyn : y ≠ new := fun e => hf f (e ▸ hy)
      have : y = x := by
        simp only [hR] at e
        split at e <;> split at e <;> omega
      subst this
      exact ⟨L, hL, f, hfL, hy⟩
    · rintro ⟨L, hL, f, hfL, h1⟩
      exact ⟨L, hL, f, hfL, by rw [h1]; rfl⟩

example : (do let r ← [['a'], ['b']].mapM (getGroupArr (changeFamilyId famWFSample (-2) 9) 0); (.ok r : M _)) = .ok [[0, 2, 3], [2]] ∧
    (changeFamilyId famWFSample (-2) 9).levs.map FamLev.fam = [some [0, 3, 3, 0], some [-1, 0, 9, -1, -4], none] := by decide +kernel

/-- No name twice in the list of families of a group. -/
def NodupFams (m : FamMesh) : Prop := ∀ g L, mget g m.groups = some L → L.Nodup

theorem mem_replace_nodup {old new : Name} : ∀ {L : List Name}, L.Nodup → ∀ x, x ∈ L.replace old new ↔ (x ∈ L ∧ x ≠ old) ∨ (x = new ∧ old ∈ L)
  | [], _, x => by simp
  | y :: L, h, x => by
    rw [List.nodup_cons] at h
    rw [List.replace_cons]
    by_cases e : y = old
    · subst e
      simp only [beq_self_eq_true, if_true, List.mem_cons]
      constructor
      · rintro (h1 | h1)
        · exact Or.inr ⟨h1, by simp⟩
        · exact Or.inl ⟨Or.inr h1, fun e => h.1 (e ▸ h1)⟩
      · rintro (⟨h1 | h1, h2⟩ | ⟨h1, _⟩)
        · exact absurd h1 h2
        · exact Or.inr h1
        · exact Or.inl h1
    · have : (old == y) = false := by simpa using Ne.symm e
      simp only [this, Bool.false_eq_true, if_false, List.mem_cons, mem_replace_nodup h.2]
      constructor
      · rintro (rfl | ⟨h1, h2⟩ | ⟨h1, h2⟩)
        · exact Or.inl ⟨by simp, e⟩
        · exact Or.inl ⟨Or.inr h1, h2⟩
        · exact Or.inr ⟨h1, Or.inr h2⟩
      · rintro (⟨h1 | h1, h2⟩ | ⟨h1, h2 | h2⟩)
        · exact Or.inl h1
        · exact Or.inr (Or.inl ⟨h1, h2⟩)
        · exact absurd h2.symm e
        · exact Or.inr (Or.inr ⟨h1, h2⟩)

/-- **C94.** `changeFamilyName` on a mesh whose groups have no family twice: the entities of all groups are the same; an unknown family and
a name already used are refused. -/
theorem C94_change_family_name (m : FamMesh) (hw : FamOK m) (hn : NodupFams m) (old new : Name) :
    (mget old m.families = none ∨ mget new m.families ≠ none → changeFamilyName m old new = .error .exn) ∧
    (∀ i, mget old m.families = some i → mget new m.families = none → ∃ m', changeFamilyName m old new = .ok m' ∧ FamOK m' ∧ NodupFams m' ∧
      mget old m'.families = none ∧ mget new m'.families = some i ∧
      ∀ g, mget g m.groups ≠ none → ∀ rel, getGroupArr m' rel g = getGroupArr m rel g) := by
  unfold changeFamilyName
  constructor
  · rintro (h | h)
    · rw [h]; rfl
    · cases ho : mget old m.families with
      | none => rfl
      | some L =>
        obtain ⟨L', hL'⟩ := Option.ne_none_iff_exists'.mp h
        simp only [hL']; rfl
  · intro i ho hnew
    rw [ho]
    simp only [hnew]
    have hon : old ≠ new := fun e => by rw [e, hnew] at ho; cases ho
    have hget : ∀ f, mget f (mset new i (merase old m.families)) = if f = new then some i else if f = old then none else mget f m.families := by
      intro f; rw [mget_mset, mget_merase]
    have hgg : ∀ g, mget g (m.groups.map fun p => (p.1, p.2.replace old new)) = (mget g m.groups).map fun L => L.replace old new :=
      fun g => mget_map_val (fun p => p.2.replace old new) m.groups g
    have hnotnew : ∀ g L, mget g m.groups = some L → new ∉ L := by
      intro g L hL hm
      obtain ⟨j, hj⟩ := hw.ok g L hL new hm
      rw [hnew] at hj; cases hj
    have hok : GroupsOK { m with families := mset new i (merase old m.families), groups := m.groups.map fun p => (p.1, p.2.replace old new) } := by
      intro g L hL f hf
      simp only [hgg] at hL
      obtain ⟨L0, hL0, rfl⟩ := Option.map_eq_some_iff.mp hL
      simp only [hget]
      rcases (mem_replace_nodup (hn g L0 hL0) f).mp hf with ⟨h1, h2⟩ | ⟨h1, _⟩
      · obtain ⟨j, hj⟩ := hw.ok g L0 hL0 f h1
        by_cases e : f = new
        · exact ⟨i, by rw [if_pos e]⟩
        · exact ⟨j, by rw [if_neg e, if_neg h2]; exact hj⟩
      · exact ⟨i, by rw [if_pos h1]⟩
    refine ⟨_, rfl, ⟨keysInc_mset (keysInc_merase hw.kf), ?_, hok, ?_, hw.levs⟩, ?_, by simp [hget, hon], by simp [hget], ?_⟩
    · unfold KeysInc
      simp only [List.map_map]
      exact hw.kg
    · intro f f' j h1 h2
      simp only [hget] at h1 h2
      have key : ∀ f, (if f = new then some i else if f = old then none else mget f m.families) = some j →
          (f = new ∧ j = i) ∨ (f ≠ old ∧ mget f m.families = some j) := by
        intro f h
        split at h
        · rename_i e; cases h; exact Or.inl ⟨e, rfl⟩
        · split at h
          · cases h
          · rename_i e; exact Or.inr ⟨e, h⟩
      rcases key f h1 with ⟨e1, e2⟩ | ⟨e1, e2⟩ <;> rcases key f' h2 with ⟨e3, e4⟩ | ⟨e3, e4⟩
      · rw [e1, e3]
      · subst e2; exact absurd (hw.inj f' old j e4 ho) e3
      · subst e4; exact absurd (hw.inj f old j e2 ho) e1
      · exact hw.inj f f' j e2 e4
    · intro g L hL
      simp only [hgg] at hL
      obtain ⟨L0, hL0, rfl⟩ := Option.map_eq_some_iff.mp hL
      have h0 := hn g L0 hL0
      have h1 := hnotnew g L0 hL0
      clear hL hL0 hok hgg
      induction L0 with
      | nil => simp
      | cons y L0 ih =>
        rw [List.nodup_cons] at h0
        simp only [List.mem_cons, not_or] at h1
        rw [List.replace_cons]
        split
        · rw [List.nodup_cons]; exact ⟨h1.2, h0.2⟩
        · rw [List.nodup_cons]
          refine ⟨?_, ih h0.2 h1.2⟩
          rw [mem_replace_nodup h0.2]
          rintro (h2 | h2)
          · exact h0.1 h2.1
          · exact h1.1 h2.1.symm
    · intro g hg rel
      refine same_group_levs hw.ok hok rfl hg (by simpa [hgg] using hg) ?_ rel
      intro l hl a hla x hx
      unfold GrpHas
      simp only [hgg, hget]
      constructor
      · rintro ⟨L, hL, f, hfL, h1⟩
        obtain ⟨L0, hL0, rfl⟩ := Option.map_eq_some_iff.mp hL
        rcases (mem_replace_nodup (hn g L0 hL0) f).mp hfL with ⟨h2, h3⟩ | ⟨h2, h3⟩
        · have : f ≠ new := fun e => hnotnew g L0 hL0 (e ▸ h2)
          rw [if_neg this, if_neg h3] at h1
          exact ⟨L0, hL0, f, h2, h1⟩
        · rw [if_pos h2] at h1
          cases h1
          exact ⟨L0, hL0, old, h3, ho⟩
      · rintro ⟨L0, hL0, f, hfL, h1⟩
        refine ⟨_, by rw [hL0]; rfl, ?_⟩
        by_cases e : f = old
        · subst e
          rw [ho] at h1
          cases h1
          exact ⟨new, (mem_replace_nodup (hn g L0 hL0) new).mpr (Or.inr ⟨rfl, hfL⟩), by rw [if_pos rfl]⟩
        · have : f ≠ new := fun e => hnotnew g L0 hL0 (e ▸ hfL)
          exact ⟨f, (mem_replace_nodup (hn g L0 hL0) f).mpr (Or.inl ⟨hfL, e⟩), by rw [if_neg this, if_neg e]; exact h1⟩

example : (do
    let m ← changeFamilyName famWFSample ['y'] ['w']
    let r ← [['a'], ['b']].mapM (getGroupArr m 0)
    (.ok (r, m.groups) : M _)) = .ok ([[0, 2, 3], [2]], [(['a'], [['x'], ['w']]), (['b'], [['w'], ['z']])]) ∧
    changeFamilyName famWFSample ['y'] ['z'] = .error .exn := by decide +kernel

end MC
