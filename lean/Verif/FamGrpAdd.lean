import Verif.FamGrpProps

/-!
# Families and groups of a MED file mesh: adding a group (C93)
-/

namespace MC

/-- `GrpHas` for given maps. -/
def HasIn (fam : List (Name × Int)) (grp : List (Name × List Name)) (g : Name) (x : Int) : Prop :=
  ∃ fams, mget g grp = some fams ∧ ∃ f ∈ fams, mget f fam = some x

/-- No two families have the same id. -/
def IdsInj (fam : List (Name × Int)) : Prop := ∀ f f' i, mget f fam = some i → mget f' fam = some i → f = f'

/-- The groups `grp` lie on families of `fam`. -/
def LieOn (fam : List (Name × Int)) (grp : List (Name × List Name)) : Prop :=
  ∀ g fams, mget g grp = some fams → ∀ f ∈ fams, ∃ i, mget f fam = some i

theorem findOrCreate_spec (fam : List (Name × Int)) (hk : KeysInc fam) (i : Int) :
    ∃ n fam', findOrCreateFamily fam i = .ok (n, fam') ∧
      ((mget n fam = some i ∧ fam' = fam) ∨
       ((∀ f, mget f fam ≠ some i) ∧ mget n fam = none ∧ fam' = mset n i fam)) := by
  unfold findOrCreateFamily
  cases h : fam.find? fun p => decide (p.2 = i) with
  | some p =>
    refine ⟨p.1, fam, rfl, Or.inl ⟨?_, rfl⟩⟩
    have h1 := List.mem_of_find?_eq_some h
    have h2 := List.find?_some h
    simp only [decide_eq_true_eq] at h2
    rw [← h2]
    exact mem_mget hk h1
  | none =>
    obtain ⟨r, h1, h2⟩ := C92_new_name (familyName i) (fam.map (·.1)) (familyName_length i)
    refine ⟨r, mset r i fam, ?_, Or.inr ⟨?_, mget_none.mpr h2, rfl⟩⟩
    · simp only
      rw [h1, ok_bind]
    · intro f hf
      rw [List.find?_eq_none] at h
      have := h _ (mget_mem hf)
      simp at this

/-- What the search or the creation of a family does to the map, whatever the case. -/
structure FamExt (fam fam' : List (Name × Int)) (n : Name) (i : Int) : Prop where
  keys : KeysInc fam'
  got : mget n fam' = some i
  mono : ∀ f j, mget f fam = some j → mget f fam' = some j
  back : ∀ f j, mget f fam' = some j → mget f fam = some j ∨ (f = n ∧ j = i)
  inj : IdsInj fam'

theorem findOrCreate_ext (fam : List (Name × Int)) (hk : KeysInc fam) (hi : IdsInj fam) (i : Int) :
    ∃ n fam', findOrCreateFamily fam i = .ok (n, fam') ∧ FamExt fam fam' n i := by
  obtain ⟨n, fam', h1, h2⟩ := findOrCreate_spec fam hk i
  refine ⟨n, fam', h1, ?_⟩
  rcases h2 with ⟨h2, rfl⟩ | ⟨h2, h3, rfl⟩
  · exact ⟨hk, h2, fun _ _ h => h, fun _ _ h => Or.inl h, hi⟩
  · have hb : ∀ f j, mget f (mset n i fam) = some j → mget f fam = some j ∨ (f = n ∧ j = i) := by
      intro f j h
      rw [mget_mset] at h
      split at h
      · rename_i e
        cases h
        exact Or.inr ⟨e, rfl⟩
      · exact Or.inl h
    refine ⟨keysInc_mset hk, by rw [mget_mset, if_pos rfl], ?_, hb, ?_⟩
    · intro f j h
      rw [mget_mset, if_neg]
      · exact h
      · rintro rfl
        rw [h3] at h; cases h
    · intro f f' j h h'
      rcases hb f j h with h3 | ⟨e, e'⟩ <;> rcases hb f' j h' with h4 | ⟨e1, e1'⟩
      · exact hi f f' j h3 h4
      · subst e1'; exact absurd h3 (h2 f)
      · subst e'; exact absurd h4 (h2 f')
      · rw [e, e1]

theorem mget_changeAllGroups (f : Name) (news : List Name) (grp : List (Name × List Name)) (g : Name) :
    mget g (changeAllGroups grp f news) = (mget g grp).map fun l => if f ∈ l then l.erase f ++ news else l := by
  unfold changeAllGroups
  induction grp with
  | nil => rfl
  | cons p grp ih =>
    rw [List.map_cons]
    unfold mget
    have e : (if f ∈ p.2 then (p.1, p.2.erase f ++ news) else p).1 = p.1 := by split <;> rfl
    rw [e, ih]
    split
    · simp only [Option.map_some]
      split <;> rfl
    · rfl

theorem keys_changeAllGroups (f : Name) (news : List Name) (grp : List (Name × List Name)) :
    (changeAllGroups grp f news).map (·.1) = grp.map (·.1) := by
  unfold changeAllGroups
  rw [List.map_map]
  apply List.map_congr_left
  intro p _
  simp only [Function.comp]
  split <;> rfl

theorem hasIn_mono {fam fam' : List (Name × Int)} {grp : List (Name × List Name)} (hl : LieOn fam grp)
    (hm : ∀ f j, mget f fam = some j → mget f fam' = some j) (g : Name) (y : Int) : HasIn fam' grp g y ↔ HasIn fam grp g y := by
  constructor
  · rintro ⟨L, hL, f, hf, hy⟩
    obtain ⟨i, hi⟩ := hl g L hL f hf
    have := hm f i hi
    rw [hy] at this
    cases this
    exact ⟨L, hL, f, hf, hi⟩
  · rintro ⟨L, hL, f, hf, hy⟩
    exact ⟨L, hL, f, hf, hm f y hy⟩

/-- The families of a group after a replacement. -/
theorem hasIn_change {fam : List (Name × Int)} {grp : List (Name × List Name)} (hi : IdsInj fam) {n : Name} {x : Int} (hn : mget n fam = some x)
    (news : List Name) (g : Name) (y : Int) :
    (y ≠ x → (HasIn fam (changeAllGroups grp n news) g y ↔ HasIn fam grp g y ∨ (HasIn fam grp g x ∧ ∃ k ∈ news, mget k fam = some y))) ∧
    ((n ∈ news ∨ ∀ k ∈ news, mget k fam ≠ some x) → HasIn fam (changeAllGroups grp n news) g x → HasIn fam grp g x) ∧
    (n ∈ news → HasIn fam grp g x → HasIn fam (changeAllGroups grp n news) g x) := by
  have hx : ∀ L, mget g grp = some L → (n ∈ L ↔ HasIn fam grp g x) := by
    intro L hL
    constructor
    · intro h; exact ⟨L, hL, n, h, hn⟩
    · rintro ⟨L', hL', f, hf, hfx⟩
      rw [hL] at hL'
      cases hL'
      rw [hi n f x hn hfx]
      exact hf
  refine ⟨fun hy => ?_, fun hnews => ?_, fun hnews => ?_⟩
  · constructor
    · rintro ⟨L', hL', f, hf, hfy⟩
      rw [mget_changeAllGroups] at hL'
      cases hL : mget g grp with
      | none => rw [hL] at hL'; cases hL'
      | some L =>
        rw [hL] at hL'
        simp only [Option.map_some, Option.some.injEq] at hL'
        subst hL'
        split at hf
        · rename_i h
          rcases List.mem_append.mp hf with hf | hf
          · exact Or.inl ⟨L, hL, f, List.mem_of_mem_erase hf, hfy⟩
          · exact Or.inr ⟨(hx L hL).mp h, f, hf, hfy⟩
        · exact Or.inl ⟨L, hL, f, hf, hfy⟩
    · rintro (⟨L, hL, f, hf, hfy⟩ | ⟨hgx, k, hk, hky⟩)
      · refine ⟨_, by rw [mget_changeAllGroups, hL]; rfl, f, ?_, hfy⟩
        beta_reduce
        split
        · refine List.mem_append_left _ ((List.mem_erase_of_ne ?_).mpr hf)
          rintro rfl
          rw [hn] at hfy
          cases hfy
          exact hy rfl
        · exact hf
      · obtain ⟨L, hL, _⟩ := id hgx
        refine ⟨_, by rw [mget_changeAllGroups, hL]; rfl, k, ?_, hky⟩
        beta_reduce
        rw [if_pos ((hx L hL).mpr hgx)]
        exact List.mem_append_right _ hk
  · rintro ⟨L', hL', f, hf, hfx⟩
    rw [mget_changeAllGroups] at hL'
    cases hL : mget g grp with
    | none => rw [hL] at hL'; cases hL'
    | some L =>
      rw [hL] at hL'
      simp only [Option.map_some, Option.some.injEq] at hL'
      subst hL'
      split at hf
      · rename_i h
        exact (hx L hL).mp h
      · exact ⟨L, hL, f, hf, hfx⟩
  · rintro ⟨L, hL, f, hf, hfx⟩
    have h : n ∈ L := (hx L hL).mpr ⟨L, hL, f, hf, hfx⟩
    refine ⟨_, by rw [mget_changeAllGroups, hL]; rfl, n, ?_, hn⟩
    beta_reduce
    rw [if_pos h]
    exact List.mem_append_right _ hnews

theorem lieOn_change {fam : List (Name × Int)} {grp : List (Name × List Name)} (hl : LieOn fam grp) (n : Name) (news : List Name)
    (hn : ∀ k ∈ news, ∃ i, mget k fam = some i) : LieOn fam (changeAllGroups grp n news) := by
  intro g L' hL' f hf
  rw [mget_changeAllGroups] at hL'
  cases hL : mget g grp with
  | none => rw [hL] at hL'; cases hL'
  | some L =>
    rw [hL] at hL'
    simp only [Option.map_some, Option.some.injEq] at hL'
    subst hL'
    split at hf
    · rcases List.mem_append.mp hf with hf | hf
      · exact hl g L hL f (List.mem_of_mem_erase hf)
      · exact hn f hf
    · exact hl g L hL f hf

/-! ## The arrays -/

theorem setPartSimple_ok : ∀ (ids a : List Int) (v : Int), (∀ i ∈ ids, 0 ≤ i ∧ i < a.length) →
    ∃ c, setPartSimple a v ids = .ok c ∧ c.length = a.length ∧ ∀ (k : Nat) (x : Int), a[k]? = some x → c[k]? = some (if (k : Int) ∈ ids then v else x)
  | [], a, v, _ => ⟨a, rfl, rfl, by simp⟩
  | i :: ids, a, v, h => by
    obtain ⟨h1, h2⟩ := h i (by simp)
    obtain ⟨j, rfl⟩ := Int.eq_ofNat_of_zero_le h1
    have hj : j < a.length := by omega
    obtain ⟨c, h3, h4, h5⟩ := setPartSimple_ok ids (a.set j v) v (by
      intro i hi
      rw [List.length_set]
      exact h i (by simp [hi]))
    refine ⟨c, ?_, by rw [h4, List.length_set], fun k x hk => ?_⟩
    · unfold setPartSimple at h3 ⊢
      rw [List.foldlM_cons, if_pos ⟨h1, h2⟩, wr_natCast hj, ok_bind]
      exact h3
    · by_cases e : k = j
      · subst e
        have := h5 k v (by rw [List.getElem?_set]; simp [hj])
        rw [this]
        simp
      · have := h5 k x (by rw [List.getElem?_set, if_neg (Ne.symm e)]; exact hk)
        rw [this]
        have : ((k : Int) = (j : Int)) ↔ False := by constructor <;> intro h <;> first | omega | exact h.elim
        simp [this]

/-- The ids of the group that are in the family `x`, the entities of the family, those that are not in the group. -/
theorem addStep_sets (a ids famIds : List Int) (hs : StrictSorted ids) (hr : ∀ i ∈ ids, 0 ≤ i ∧ i < a.length) (hf : selectSafe a ids = .ok famIds) (x : Int) :
    ∃ ids2, (findIdsEqual famIds x).mapM (rd ids) = .ok ids2 ∧ (∀ i, i ∈ ids2 ↔ i ∈ ids ∧ ∃ k : Nat, i = k ∧ a[k]? = some x) ∧
      ∀ i, i ∈ buildSubstractionOptimized (findIdsEqual a x) ids2 ↔ i ∉ ids ∧ ∃ k : Nat, i = k ∧ a[k]? = some x := by
  have hfam : ∀ j : Nat, ∀ i, ids[j]? = some i → famIds[j]? = a[i.toNat]? := by
    have h1 : ids.mapM (fun i : Int => if 0 ≤ i ∧ i < a.length then rd a i else throwX) = .ok (ids.map fun i => (a[i.toNat]?).getD 0) := by
      apply dec_mapM_ok
      intro i hi
      rw [if_pos (hr i hi)]
      obtain ⟨k, rfl⟩ := Int.eq_ofNat_of_zero_le (hr i hi).1
      have hk : k < a.length := by have := (hr _ hi).2; omega
      rw [rd_natCast hk]
      simp [hk]
    unfold selectSafe at hf
    rw [h1] at hf
    cases hf
    intro j i hj
    rw [List.getElem?_map, hj]
    obtain ⟨h2, h3⟩ := hr i (List.mem_of_getElem? hj)
    obtain ⟨k, rfl⟩ := Int.eq_ofNat_of_zero_le h2
    have hk : k < a.length := by omega
    simp [hk]
  have hlen : famIds.length = ids.length := by
    unfold selectSafe at hf
    have h1 : ids.mapM (fun i : Int => if 0 ≤ i ∧ i < a.length then rd a i else throwX) = .ok (ids.map fun i => (a[i.toNat]?).getD 0) := by
      apply dec_mapM_ok
      intro i hi
      rw [if_pos (hr i hi)]
      obtain ⟨k, rfl⟩ := Int.eq_ofNat_of_zero_le (hr i hi).1
      have hk : k < a.length := by have := (hr _ hi).2; omega
      rw [rd_natCast hk]
      simp [hk]
    rw [h1] at hf
    cases hf
    simp
  obtain ⟨e1, e2⟩ := findIdsEqual_spec famIds x
  have hlt : ∀ i ∈ findIdsEqual famIds x, ∃ k : Nat, i = k ∧ k < ids.length := by
    intro i hi
    obtain ⟨k, rfl, hk⟩ := (e2 i).mp hi
    exact ⟨k, rfl, by rw [← hlen]; exact (List.getElem?_eq_some_iff.mp hk).1⟩
  refine ⟨(findIdsEqual famIds x).map fun i => (ids[i.toNat]?).getD 0, ?_, ?_, ?_⟩
  · apply dec_mapM_ok
    intro i hi
    obtain ⟨k, rfl, hk⟩ := hlt i hi
    rw [rd_natCast hk]
    simp [hk]
  all_goals
    have hmem : ∀ i, i ∈ (findIdsEqual famIds x).map (fun i => (ids[i.toNat]?).getD 0) ↔ i ∈ ids ∧ ∃ k : Nat, i = k ∧ a[k]? = some x := by
      intro i
      rw [List.mem_map]
      constructor
      · rintro ⟨j, hj, rfl⟩
        obtain ⟨k, rfl, hk⟩ := (e2 j).mp hj
        have hkl : k < ids.length := by rw [← hlen]; exact (List.getElem?_eq_some_iff.mp hk).1
        have h1 : ids[k]? = some ids[k] := by simp [hkl]
        have h2 := hfam k _ h1
        rw [hk] at h2
        obtain ⟨h3, h4⟩ := hr _ (List.mem_of_getElem? h1)
        simp only [Int.toNat_natCast, h1, Option.getD_some]
        refine ⟨List.getElem_mem _, ids[k].toNat, by omega, h2.symm⟩
      · rintro ⟨hi, k, rfl, hk⟩
        obtain ⟨j, hj, e⟩ := List.mem_iff_getElem.mp hi
        have h1 : ids[j]? = some (k : Int) := by simp [hj, e]
        refine ⟨(j : Int), (e2 _).mpr ⟨j, rfl, ?_⟩, ?_⟩
        · have := hfam j _ h1
          rw [this]
          simpa using hk
        · simp [h1]
  · exact hmem
  · obtain ⟨f1, f2⟩ := findIdsEqual_spec a x
    intro i
    rw [C13_substraction_optimized _ _ f1]
    · rw [List.mem_filter, f2, decide_eq_true_eq, hmem]
      constructor
      · rintro ⟨⟨k, rfl, hk⟩, h⟩
        exact ⟨fun hi => h ⟨hi, k, rfl, hk⟩, k, rfl, hk⟩
      · rintro ⟨h, k, rfl, hk⟩
        exact ⟨⟨k, rfl, hk⟩, fun hc => h hc.1⟩
    · unfold StrictSorted
      rw [List.pairwise_map]
      refine List.Pairwise.imp_of_mem ?_ e1
      intro i j hi hj hij
      obtain ⟨k, rfl, hk⟩ := hlt i hi
      obtain ⟨k', rfl, hk'⟩ := hlt j hj
      simp only [Int.toNat_natCast, hk, hk', List.getElem?_eq_getElem, Option.getD_some]
      exact List.pairwise_iff_getElem.mp hs k k' hk hk' (by omega)
    · intro i hi
      obtain ⟨_, k, rfl, hk⟩ := (hmem i).mp hi
      exact (f2 _).mpr ⟨k, rfl, hk⟩

end MC
