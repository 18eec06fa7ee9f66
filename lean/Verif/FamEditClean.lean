import Verif.FamEditProps

/-!
# Families and groups of a MED file mesh: removal of families (C94)
-/

namespace MC

theorem keysInc_changeAllGroups {grp : List (Name × List Name)} (h : KeysInc grp) (f : Name) (news : List Name) : KeysInc (changeAllGroups grp f news) := by
  unfold KeysInc
  rw [keys_changeAllGroups]; exact h

theorem mget_eraseAll (f : Name) (grp : List (Name × List Name)) (g : Name) :
    mget g (changeAllGroups grp f []) = (mget g grp).map fun l => l.erase f := by
  rw [mget_changeAllGroups]
  congr 1
  funext l
  split
  · simp
  · rename_i h; exact (List.erase_of_not_mem h).symm

theorem mget_foldErase (fs : List Name) : ∀ (grp : List (Name × List Name)) (g : Name),
    mget g (fs.foldl (fun gr f => changeAllGroups gr f []) grp) = (mget g grp).map fun l => fs.foldl (fun l f => l.erase f) l := by
  induction fs with
  | nil => intro grp g; simp
  | cons f fs ih =>
    intro grp g
    rw [List.foldl_cons, ih, mget_eraseAll, Option.map_map]
    rfl

theorem keysInc_foldErase (fs : List Name) : ∀ (grp : List (Name × List Name)), KeysInc grp → KeysInc (fs.foldl (fun gr f => changeAllGroups gr f []) grp) := by
  induction fs with
  | nil => exact fun _ h => h
  | cons f fs ih => intro grp h; exact ih _ (keysInc_changeAllGroups h f [])

theorem foldErase_mem (fs : List Name) : ∀ (l : List Name), l.Nodup →
    (fs.foldl (fun l f => l.erase f) l).Nodup ∧ ∀ x, x ∈ fs.foldl (fun l f => l.erase f) l ↔ x ∈ l ∧ x ∉ fs := by
  induction fs with
  | nil => intro l h; exact ⟨h, by simp⟩
  | cons f fs ih =>
    intro l h
    obtain ⟨h1, h2⟩ := ih (l.erase f) (h.erase f)
    refine ⟨h1, fun x => ?_⟩
    rw [List.foldl_cons, h2, h.mem_erase_iff]
    simp only [List.mem_cons, not_or]
    tauto

/-- **C94.** `removeFamily` on a mesh whose groups have no family twice: the family is gone and every group has lost exactly the entities
of this family; an unknown family is refused. -/
theorem C94_remove_family (m : FamMesh) (hw : FamOK m) (hn : NodupFams m) (f : Name) :
    (mget f m.families = none → removeFamily m f = .error .exn) ∧
    (∀ i, mget f m.families = some i → ∃ m', removeFamily m f = .ok m' ∧ FamOK m' ∧ NodupFams m' ∧ mget f m'.families = none ∧
      ∀ rel a g, getFamilyFieldAtLevel m rel = .ok (some a) → mget g m.groups ≠ none →
        ∃ r r', getGroupArr m rel g = .ok r ∧ getGroupArr m' rel g = .ok r' ∧
          ∀ k : Int, k ∈ r' ↔ k ∈ r ∧ ∀ n : Nat, k = n → a[n]? ≠ some i) := by
  unfold removeFamily
  refine ⟨fun h => by rw [h]; rfl, fun i hi => ?_⟩
  rw [hi]
  have hmem : ∀ g L, mget g m.groups = some L → ∀ x, x ∈ L.erase f ↔ x ∈ L ∧ x ≠ f := by
    intro g L hL x
    rw [(hn g L hL).mem_erase_iff]; tauto
  have hok : GroupsOK { m with families := merase f m.families, groups := changeAllGroups m.groups f [] } := by
    intro g L hL f' hf'
    simp only [mget_eraseAll] at hL
    obtain ⟨L0, hL0, rfl⟩ := Option.map_eq_some_iff.mp hL
    obtain ⟨h1, h2⟩ := (hmem g L0 hL0 f').mp hf'
    obtain ⟨j, hj⟩ := hw.ok g L0 hL0 f' h1
    exact ⟨j, by simp only [mget_merase, if_neg h2]; exact hj⟩
  refine ⟨_, rfl, ⟨keysInc_merase hw.kf, keysInc_changeAllGroups hw.kg _ _, hok, ?_, hw.levs⟩, ?_, by simp [mget_merase], ?_⟩
  · intro x y j h1 h2
    simp only [mget_merase] at h1 h2
    split at h1
    · cases h1
    · split at h2
      · cases h2
      · exact hw.inj x y j h1 h2
  · intro g L hL
    simp only [mget_eraseAll] at hL
    obtain ⟨L0, hL0, rfl⟩ := Option.map_eq_some_iff.mp hL
    exact (hn g L0 hL0).erase f
  · intro rel a g ha hg
    obtain ⟨r, h1, h2, h3⟩ := read_group m rel a g hw.ok ha hg
    obtain ⟨r', h1', h2', h3'⟩ := read_group _ rel a g hok ha (by simpa [mget_eraseAll] using hg)
    refine ⟨r, r', h1, h1', fun k => ?_⟩
    rw [h3, h3']
    have key : ∀ x, GrpHas { m with families := merase f m.families, groups := changeAllGroups m.groups f [] } g x ↔ GrpHas m g x ∧ x ≠ i := by
      intro x
      unfold GrpHas
      simp only [mget_eraseAll, mget_merase]
      constructor
      · rintro ⟨L, hL, f', hf', hx⟩
        obtain ⟨L0, hL0, rfl⟩ := Option.map_eq_some_iff.mp hL
        obtain ⟨h4, h5⟩ := (hmem g L0 hL0 f').mp hf'
        rw [if_neg h5] at hx
        exact ⟨⟨L0, hL0, f', h4, hx⟩, fun e => h5 (hw.inj f' f i (e ▸ hx) hi)⟩
      · rintro ⟨⟨L0, hL0, f', hf', hx⟩, hne⟩
        have h5 : f' ≠ f := fun e => by
          rw [e, hi] at hx
          cases hx
          exact hne rfl
        exact ⟨_, by rw [hL0]; rfl, f', (hmem g L0 hL0 f').mpr ⟨hf', h5⟩, by rw [if_neg h5]; exact hx⟩
    constructor
    · rintro ⟨n, rfl, x, hx, hgx⟩
      obtain ⟨h4, h5⟩ := (key x).mp hgx
      refine ⟨⟨n, rfl, x, hx, h4⟩, fun n' e hn' => ?_⟩
      have : n = n' := by omega
      subst this
      rw [hx] at hn'
      cases hn'
      exact h5 rfl
    · rintro ⟨⟨n, rfl, x, hx, hgx⟩, h⟩
      exact ⟨n, rfl, x, hx, (key x).mpr ⟨hgx, fun e => h n rfl (e ▸ hx)⟩⟩

example : (do let m ← removeFamily famWFSample ['x']; [['a'], ['b']].mapM (getGroupArr m 0)) = .ok [[2], [2]] ∧
    removeFamily famWFSample ['q'] = .error .exn := by decide +kernel

/-! ## Families not used -/

/-- The id is in a family array. -/
def IdUsed (m : FamMesh) (i : Int) : Prop := ∃ l ∈ m.levs, ∃ a, l.fam = some a ∧ i ∈ a

theorem inUse_aux (L : List (List Int)) : ∀ (o : Option (List Int)),
    (L = [] ∧ o = none ∧ L.foldl (fun ret a => match ret with
      | some r => some (buildUnion [some (getDifferentValues a), some r])
      | none => some (getDifferentValues a)) o = none) ∨
    ∃ u, L.foldl (fun ret a => match ret with
      | some r => some (buildUnion [some (getDifferentValues a), some r])
      | none => some (getDifferentValues a)) o = some u ∧ ∀ x, x ∈ u ↔ (∃ r, o = some r ∧ x ∈ r) ∨ ∃ a ∈ L, x ∈ a := by
  induction L with
  | nil =>
    intro o
    cases o with
    | none => left; simp
    | some r => right; exact ⟨r, rfl, by simp⟩
  | cons a L ih =>
    intro o
    right
    rw [List.foldl_cons]
    cases o with
    | none =>
      rcases ih (some (getDifferentValues a)) with ⟨_, h, _⟩ | ⟨u, h1, h2⟩
      · cases h
      · refine ⟨u, h1, fun x => ?_⟩
        rw [h2]
        simp [(C14_different_values a).2]
    | some r =>
      rcases ih (some (buildUnion [some (getDifferentValues a), some r])) with ⟨_, h, _⟩ | ⟨u, h1, h2⟩
      · cases h
      · refine ⟨u, h1, fun x => ?_⟩
        rw [h2]
        simp only [Option.some.injEq, exists_eq_left', (C12_union _).2, List.mem_cons, List.not_mem_nil, or_false, exists_eq_or_imp]
        constructor
        · rintro ((h3 | ⟨b, rfl, h4⟩) | h3)
          · exact Or.inr (Or.inl (((C14_different_values a).2 x).mp h3))
          · exact Or.inl h4
          · exact Or.inr (Or.inr h3)
        · rintro (h3 | h3 | h3)
          · exact Or.inl (Or.inr ⟨r, rfl, h3⟩)
          · exact Or.inl (Or.inl (((C14_different_values a).2 x).mpr h3))
          · exact Or.inr h3

theorem inUse_some (m : FamMesh) (h : ∃ l ∈ m.levs, ∃ a, l.fam = some a) : ∃ u, computeAllFamilyIdsInUse m = some u ∧ ∀ x, x ∈ u ↔ IdUsed m x := by
  unfold computeAllFamilyIdsInUse
  rcases inUse_aux (m.levs.filterMap (·.fam)) none with ⟨h1, _⟩ | ⟨u, h1, h2⟩
  · obtain ⟨l, hl, a, ha⟩ := h
    have : a ∈ m.levs.filterMap (·.fam) := List.mem_filterMap.mpr ⟨l, hl, ha⟩
    rw [h1] at this
    simp at this
  · refine ⟨u, h1, fun x => ?_⟩
    rw [h2]
    unfold IdUsed
    simp only [reduceCtorEq, false_and, exists_false, false_or, List.mem_filterMap]
    constructor
    · rintro ⟨a, ⟨l, hl, ha⟩, hx⟩; exact ⟨l, hl, a, ha, hx⟩
    · rintro ⟨l, hl, a, ha, hx⟩; exact ⟨a, ⟨l, hl, ha⟩, hx⟩

theorem inUse_none (m : FamMesh) (h : ∀ l ∈ m.levs, l.fam = none) : computeAllFamilyIdsInUse m = none := by
  unfold computeAllFamilyIdsInUse
  have : m.levs.filterMap (·.fam) = [] := by
    rw [List.filterMap_eq_nil_iff]; exact h
  rw [this]; rfl

theorem removeOrphan_eq {m : FamMesh} (hw : FamOK m) (hn : NodupFams m) (hex : ∃ l ∈ m.levs, ∃ a, l.fam = some a) :
    ∃ m' ret, removeOrphanFamilies m = (ret, m') ∧ m'.levs = m.levs ∧ KeysInc m'.families ∧ KeysInc m'.groups ∧
      (∀ f i, mget f m'.families = some i ↔ mget f m.families = some i ∧ IdUsed m i) ∧
      (∀ f, f ∈ ret ↔ ∃ i, mget f m.families = some i ∧ ¬ IdUsed m i) ∧
      (∀ g, (mget g m'.groups = none ↔ mget g m.groups = none)) ∧
      (∀ g L', mget g m'.groups = some L' → ∃ L, mget g m.groups = some L ∧ L'.Nodup ∧ ∀ f, f ∈ L' ↔ f ∈ L ∧ ∃ i, mget f m.families = some i ∧ IdUsed m i) := by
  obtain ⟨u, h1, h2⟩ := inUse_some m hex
  unfold removeOrphanFamilies
  rw [h1]
  simp only
  have hret : ∀ f, f ∈ (m.families.filter fun p => decide (p.2 ∉ u)).map (·.1) ↔ ∃ i, mget f m.families = some i ∧ ¬ IdUsed m i := by
    intro f
    rw [List.mem_map]
    constructor
    · rintro ⟨⟨f', i⟩, h, rfl⟩
      obtain ⟨h3, h4⟩ := List.mem_filter.mp h
      exact ⟨i, mem_mget hw.kf h3, fun hu => by simp [(h2 i).mpr hu] at h4⟩
    · rintro ⟨i, hi, hu⟩
      refine ⟨(f, i), List.mem_filter.mpr ⟨mget_mem hi, ?_⟩, rfl⟩
      simpa using fun hh => hu ((h2 i).mp hh)
  have hin : ∀ g L, mget g m.groups = some L → ∀ f ∈ L, (f ∉ (m.families.filter fun p => decide (p.2 ∉ u)).map (·.1) ↔
      ∃ i, mget f m.families = some i ∧ IdUsed m i) := by
    intro g L hL f hf
    obtain ⟨i, hi⟩ := hw.ok g L hL f hf
    rw [hret]
    constructor
    · intro h
      exact ⟨i, hi, by_contra fun hu => h ⟨i, hi, hu⟩⟩
    · rintro ⟨j, hj, hu⟩ ⟨i', hi', hu'⟩
      rw [hj] at hi'
      cases hi'
      exact hu' hu
  refine ⟨_, _, rfl, ?_⟩
  by_cases hr : (m.families.filter fun p => decide (p.2 ∉ u)).map (·.1) = []
  · simp only [hr, if_true]
    refine ⟨trivial, hw.kf, hw.kg, ?_, by rw [← hr]; exact hret, by simp, ?_⟩
    · intro f i
      constructor
      · intro h
        refine ⟨h, by_contra fun hu => ?_⟩
        have := (hret f).mpr ⟨i, h, hu⟩
        rw [hr] at this
        simp at this
      · exact fun h => h.1
    · intro g L hL
      refine ⟨L, hL, hn g L hL, fun f => ⟨fun hf => ⟨hf, ?_⟩, fun h => h.1⟩⟩
      exact (hin g L hL f hf).mp (by rw [hr]; simp)
  · simp only [if_neg hr]
    refine ⟨trivial, keysInc_filter _ hw.kf, keysInc_foldErase _ _ hw.kg, ?_, hret, ?_, ?_⟩
    · intro f i
      rw [mget_filter _ hw.kf]
      rw [Option.filter_eq_some_iff]
      simp [h2]
    · intro g
      rw [mget_foldErase]; simp
    · intro g L' hL'
      rw [mget_foldErase] at hL'
      obtain ⟨L, hL, rfl⟩ := Option.map_eq_some_iff.mp hL'
      obtain ⟨h3, h4⟩ := foldErase_mem ((m.families.filter fun p => decide (p.2 ∉ u)).map (·.1)) L (hn g L hL)
      refine ⟨L, hL, h3, fun f => ?_⟩
      rw [h4]
      constructor
      · rintro ⟨h5, h6⟩; exact ⟨h5, (hin g L hL f h5).mp h6⟩
      · rintro ⟨h5, h6⟩; exact ⟨h5, (hin g L hL f h5).mpr h6⟩

/-- **C94.** `removeOrphanFamilies` on a mesh with family arrays, whose groups have no family twice: the families left are exactly those used in the arrays,
the others are returned, and all groups keep their entities at all levels. -/
theorem C94_remove_orphan_families (m : FamMesh) (hw : FamOK m) (hn : NodupFams m) (hex : ∃ l ∈ m.levs, ∃ a, l.fam = some a) :
    FamOK (removeOrphanFamilies m).2 ∧ NodupFams (removeOrphanFamilies m).2 ∧
    (removeOrphanFamilies m).2.levs = m.levs ∧
    (∀ f i, mget f (removeOrphanFamilies m).2.families = some i ↔ mget f m.families = some i ∧ IdUsed m i) ∧
    (∀ f, f ∈ (removeOrphanFamilies m).1 ↔ ∃ i, mget f m.families = some i ∧ ¬ IdUsed m i) ∧
    (∀ g, mget g (removeOrphanFamilies m).2.groups = none ↔ mget g m.groups = none) ∧
    ∀ g, mget g m.groups ≠ none → ∀ rel, getGroupArr (removeOrphanFamilies m).2 rel g = getGroupArr m rel g := by
  obtain ⟨m', ret, he, h1, h2, h3, h4, h5, h6, h7⟩ := removeOrphan_eq hw hn hex
  rw [he]
  simp only
  have hok : GroupsOK m' := by
    intro g L' hL' f hf
    obtain ⟨L, hL, _, h8⟩ := h7 g L' hL'
    obtain ⟨_, i, hi, hu⟩ := (h8 f).mp hf
    exact ⟨i, (h4 f i).mpr ⟨hi, hu⟩⟩
  refine ⟨⟨h2, h3, hok, ?_, by rw [h1]; exact hw.levs⟩, ?_, h1, h4, h5, h6, ?_⟩
  · intro f f' i hf hf'
    exact hw.inj f f' i ((h4 f i).mp hf).1 ((h4 f' i).mp hf').1
  · intro g L' hL'
    obtain ⟨L, hL, h8, _⟩ := h7 g L' hL'
    exact h8
  · intro g hg rel
    refine same_group_levs hw.ok hok h1 hg (fun hc => hg ((h6 g).mp hc)) ?_ rel
    intro l hl a hla x hx
    have hu : IdUsed m x := ⟨l, hl, a, hla, hx⟩
    constructor
    · rintro ⟨L', hL', f, hf, hfx⟩
      obtain ⟨L, hL, _, h8⟩ := h7 g L' hL'
      exact ⟨L, hL, f, ((h8 f).mp hf).1, ((h4 f x).mp hfx).1⟩
    · rintro ⟨L, hL, f, hf, hfx⟩
      obtain ⟨L', hL'⟩ := Option.ne_none_iff_exists'.mp (fun hc => hg ((h6 g).mp hc) : mget g m'.groups ≠ none)
      obtain ⟨L0, hL0, _, h8⟩ := h7 g L' hL'
      rw [hL] at hL0
      cases hL0
      exact ⟨L', hL', f, (h8 f).mpr ⟨hf, x, hfx, hu⟩, (h4 f x).mpr ⟨hfx, hu⟩⟩

/-- Families of groups and others that are not used. -/
def famOrphanSample : FamMesh where
  levs := [⟨1, 4, some [0, 3, 3, 0]⟩, ⟨0, 3, some [-1, 0, -2]⟩]
  families := [(['o'], -9), (['t'], -4), (['x'], -1), (['y'], -2), (['z'], 3)]
  groups := [(['a'], [['x'], ['y'], ['o']]), (['b'], [['y'], ['z']]), (['c'], [['o']])]

example : (removeOrphanFamilies famOrphanSample).1 = [['o'], ['t']] ∧
    (removeOrphanFamilies famOrphanSample).2.groups = [(['a'], [['x'], ['y']]), (['b'], [['y'], ['z']]), (['c'], [])] ∧
    [['a'], ['b'], ['c']].mapM (getGroupArr (removeOrphanFamilies famOrphanSample).2 0) = .ok [[0, 2], [2], []] ∧
    [['a'], ['b'], ['c']].mapM (getGroupArr famOrphanSample 0) = .ok [[0, 2], [2], []] := by decide +kernel

/-- **C94.** Without any family array all the families and groups are removed. -/
theorem C94_remove_orphan_no_array (m : FamMesh) (h : ∀ l ∈ m.levs, l.fam = none) :
    removeOrphanFamilies m = (m.families.map (·.1), { m with families := [], groups := [] }) := by
  unfold removeOrphanFamilies
  rw [inUse_none m h]

example : (removeOrphanFamilies { famOrphanSample with levs := [⟨0, 3, none⟩] }).2 = ⟨[⟨0, 3, none⟩], [], []⟩ := by decide +kernel

/-- **C94.** `removeOrphanGroups`: the groups returned and removed are exactly those without entity at any level; the others have the same entities. -/
theorem C94_remove_orphan_groups (m : FamMesh) (hw : FamOK m) (hn : NodupFams m) (hex : ∃ l ∈ m.levs, ∃ a, l.fam = some a) :
    FamOK (removeOrphanGroups m).2 ∧ NodupFams (removeOrphanGroups m).2 ∧
    (∀ g, g ∈ (removeOrphanGroups m).1 ↔ mget g m.groups ≠ none ∧ ∀ rel r, getGroupArr m rel g = .ok r → r = []) ∧
    (∀ g, mget g (removeOrphanGroups m).2.groups ≠ none ↔ mget g m.groups ≠ none ∧ ∃ rel r, getGroupArr m rel g = .ok r ∧ r ≠ []) ∧
    ∀ g, mget g (removeOrphanGroups m).2.groups ≠ none → ∀ rel, getGroupArr (removeOrphanGroups m).2 rel g = getGroupArr m rel g := by
  obtain ⟨w1, w2, w3, w4, _, w6, w7⟩ := C94_remove_orphan_families m hw hn hex
  obtain ⟨m', ret, he, h1, h2, h3, h4, h5, h6, h7⟩ := removeOrphan_eq hw hn hex
  unfold removeOrphanGroups
  rw [he] at w1 w2 w3 w4 w6 w7 ⊢
  simp only at w1 w2 w3 w4 w6 w7 ⊢
  obtain ⟨e1, e2, e3, e4⟩ := C94_remove_empty_groups m'
  have hkey : KeysInc (removeEmptyGroups m').2.groups := by
    unfold removeEmptyGroups
    simp only
    split
    · exact w1.kg
    · exact keysInc_filter _ w1.kg
  have hget : ∀ g L, mget g (removeEmptyGroups m').2.groups = some L ↔ mget g m'.groups = some L ∧ L ≠ [] := by
    intro g L
    rw [← mem_iff_mget hkey, e2, mem_iff_mget w1.kg]
  have hok : GroupsOK (removeEmptyGroups m').2 := by
    intro g L hL f hf
    obtain ⟨i, hi⟩ := w1.ok g L ((hget g L).mp hL).1 f hf
    exact ⟨i, by rw [e4]; exact hi⟩
  -- a group of `m'` has a family exactly when it has an entity
  have hent : ∀ g L, mget g m'.groups = some L → (L ≠ [] ↔ ∃ rel r, getGroupArr m rel g = .ok r ∧ r ≠ []) := by
    intro g L hL
    have hgm : mget g m.groups ≠ none := fun hc => by rw [(w6 g).mpr hc] at hL; cases hL
    obtain ⟨L0, hL0, _, h8⟩ := h7 g L hL
    constructor
    · intro hne
      obtain ⟨f, hf⟩ := List.exists_mem_of_ne_nil L hne
      obtain ⟨hf0, i, hi, l, hl, a, ha, hia⟩ := (h8 f).mp hf
      have hfld : getFamilyFieldAtLevel m l.rel = .ok (some a) := by rw [field_eq (mem_famLev hw.levs hl), ha]
      obtain ⟨r, r1, _, r3⟩ := read_group m l.rel a g hw.ok hfld hgm
      obtain ⟨k, hk⟩ := List.mem_iff_getElem?.mp hia
      have : (k : Int) ∈ r := (r3 k).mpr ⟨k, rfl, i, hk, L0, hL0, f, hf0, hi⟩
      exact ⟨l.rel, r, r1, List.ne_nil_of_mem this⟩
    · rintro ⟨rel, r, hr, hne⟩
      obtain ⟨i, hi⟩ := List.exists_mem_of_ne_nil r hne
      cases ha : getFamilyFieldAtLevel m rel with
      | error e =>
        rw [read_error m rel g e hw.ok ha hgm] at hr
        cases hr
      | ok o =>
        cases o with
        | none =>
          rw [read_none m rel g hw.ok ha hgm] at hr
          split at hr
          · cases hr; simp at hi
          · cases hr
        | some a =>
          obtain ⟨r', r1, _, r3⟩ := read_group m rel a g hw.ok ha hgm
          rw [hr] at r1
          cases r1
          obtain ⟨k, _, x, hx, L1, hL1, f, hf, hfx⟩ := (r3 i).mp hi
          rw [hL0] at hL1
          cases hL1
          obtain ⟨l, hl, hla⟩ := field_some ha
          have : f ∈ L := (h8 f).mpr ⟨hf, x, hfx, l, (famLev_mem hl).1, a, hla, List.mem_of_getElem? hx⟩
          exact List.ne_nil_of_mem this
  have hstay : ∀ g, mget g (removeEmptyGroups m').2.groups ≠ none ↔ mget g m.groups ≠ none ∧ ∃ rel r, getGroupArr m rel g = .ok r ∧ r ≠ [] := by
    intro g
    constructor
    · intro h
      obtain ⟨L, hL⟩ := Option.ne_none_iff_exists'.mp h
      obtain ⟨q1, q2⟩ := (hget g L).mp hL
      refine ⟨fun hc => ?_, (hent g L q1).mp q2⟩
      rw [(w6 g).mpr hc] at q1; cases q1
    · rintro ⟨q1, q2⟩
      obtain ⟨L, hL⟩ := Option.ne_none_iff_exists'.mp (fun hc => q1 ((w6 g).mp hc) : mget g m'.groups ≠ none)
      rw [(hget g L).mpr ⟨hL, (hent g L hL).mpr q2⟩]
      simp
  refine ⟨⟨by rw [e4]; exact w1.kf, hkey, hok, by rw [e4]; exact w1.inj, by rw [e3]; exact w1.levs⟩, ?_, ?_, hstay, ?_⟩
  · intro g L hL
    exact w2 g L ((hget g L).mp hL).1
  · intro g
    rw [e1, mem_iff_mget w1.kg]
    constructor
    · intro h
      have hgm : mget g m.groups ≠ none := fun hc => by rw [(w6 g).mpr hc] at h; cases h
      refine ⟨hgm, fun rel r hr => ?_⟩
      by_contra hne
      exact (hent g [] h).mpr ⟨rel, r, hr, hne⟩ rfl
    · rintro ⟨q1, q2⟩
      obtain ⟨L, hL⟩ := Option.ne_none_iff_exists'.mp (fun hc => q1 ((w6 g).mp hc) : mget g m'.groups ≠ none)
      by_cases hne : L = []
      · rw [hL, hne]
      · obtain ⟨rel, r, hr, hr2⟩ := (hent g L hL).mp hne
        exact absurd (q2 rel r hr) hr2
  · intro g hg rel
    have hgm := ((hstay g).mp hg).1
    rw [← w7 g hgm rel]
    refine same_group_levs w1.ok hok e3 (fun hc => hgm ((w6 g).mp hc)) hg ?_ rel
    intro _ _ _ _ x _
    unfold GrpHas
    simp only [e4]
    obtain ⟨L, hL⟩ := Option.ne_none_iff_exists'.mp hg
    rw [hL, ((hget g L).mp hL).1]

example : (removeOrphanGroups famOrphanSample).1 = [['c']] ∧ (removeOrphanGroups famOrphanSample).2.groups.map Prod.fst = [['a'], ['b']] := by decide +kernel

end MC
