import Verif.FamGrp
import Verif.SetAlgProps
import Verif.ScanProps
import Verif.BoxProps
import Verif.StructDecThm

/-!
# Families and groups of a MED file mesh: reading (C92)
-/

namespace MC

/-! ## Maps -/

/-- The keys of a `std::map` increase. -/
def KeysInc {α : Type} (m : List (Name × α)) : Prop := (m.map (·.1)).Pairwise (· < ·)

theorem mget_mset {α : Type} (k k' : Name) (v : α) (m : List (Name × α)) :
    mget k' (mset k v m) = if k' = k then some v else mget k' m := by
  induction m with
  | nil =>
    simp only [mset, mget]
    by_cases h : k = k' <;> simp [h, eq_comm]
  | cons p m ih =>
    unfold mset
    split
    · rename_i h
      simp only [mget, h]
      by_cases hk : k = k'
      · simp [hk]
      · rw [if_neg hk, if_neg (Ne.symm hk), if_neg hk]
    · rename_i h
      split
      · simp only [mget]
        by_cases hk : k = k'
        · simp [hk]
        · rw [if_neg hk, if_neg (Ne.symm hk)]
      · simp only [mget, ih]
        by_cases hk : p.1 = k'
        · subst hk
          rw [if_pos rfl, if_neg h, if_pos rfl]
        · rw [if_neg hk, if_neg hk]

theorem mget_merase {α : Type} (k k' : Name) (m : List (Name × α)) :
    mget k' (merase k m) = if k' = k then none else mget k' m := by
  unfold merase
  induction m with
  | nil => simp [mget]
  | cons p m ih =>
    by_cases h : p.1 = k
    · rw [List.filter_cons_of_neg (by simp [h]), ih, mget]
      by_cases hk : k' = k
      · simp [hk]
      · rw [if_neg hk, if_neg hk, if_neg (by rw [h]; exact Ne.symm hk)]
    · rw [List.filter_cons_of_pos (by simp [h]), mget, ih, mget]
      by_cases hk : p.1 = k'
      · subst hk
        rw [if_pos rfl, if_neg h, if_pos rfl]
      · rw [if_neg hk, if_neg hk]

theorem mget_mem {α : Type} {k : Name} {v : α} {m : List (Name × α)} (h : mget k m = some v) : (k, v) ∈ m := by
  induction m with
  | nil => simp [mget] at h
  | cons p m ih =>
    unfold mget at h
    split at h
    · rename_i hk
      cases h
      subst hk
      exact List.mem_cons_self
    · exact List.mem_cons_of_mem _ (ih h)

theorem mget_none {α : Type} {k : Name} {m : List (Name × α)} : mget k m = none ↔ k ∉ m.map (·.1) := by
  induction m with
  | nil => simp [mget]
  | cons p m ih =>
    unfold mget
    split
    · rename_i h
      simp [h]
    · rename_i h
      rw [ih]
      simp only [List.map_cons, List.mem_cons, not_or]
      exact ⟨fun h1 => ⟨Ne.symm h, h1⟩, fun h1 => h1.2⟩

theorem mem_mget {α : Type} {k : Name} {v : α} {m : List (Name × α)} (hm : KeysInc m) (h : (k, v) ∈ m) : mget k m = some v := by
  induction m with
  | nil => simp at h
  | cons p m ih =>
    unfold KeysInc at hm
    rw [List.map_cons, List.pairwise_cons] at hm
    unfold mget
    rcases List.mem_cons.mp h with rfl | h
    · simp
    · have : p.1 ≠ k := by
        intro e
        have := hm.1 k (List.mem_map.mpr ⟨(k, v), h, rfl⟩)
        rw [e] at this
        exact lt_irrefl _ this
      rw [if_neg this]
      exact ih hm.2 h

theorem mem_iff_mget {α : Type} {k : Name} {v : α} {m : List (Name × α)} (hm : KeysInc m) : (k, v) ∈ m ↔ mget k m = some v :=
  ⟨mem_mget hm, mget_mem⟩

theorem mset_keys {α : Type} (k : Name) (v : α) (m : List (Name × α)) (x : Name) :
    x ∈ (mset k v m).map (·.1) ↔ x = k ∨ x ∈ m.map (·.1) := by
  have h := mget_mset k x v m
  by_cases hx : x = k
  · rw [if_pos hx] at h
    simp only [hx, true_or, iff_true]
    subst hx
    by_contra hn
    rw [← mget_none, h] at hn
    cases hn
  · rw [if_neg hx] at h
    have h1 := mget_none (k := x) (m := mset k v m)
    have h2 := mget_none (k := x) (m := m)
    rw [h] at h1
    simp only [hx, false_or]
    exact not_iff_not.mp (h1.symm.trans h2)

theorem keysInc_mset {α : Type} {k : Name} {v : α} {m : List (Name × α)} (hm : KeysInc m) : KeysInc (mset k v m) := by
  induction m with
  | nil => simp [mset, KeysInc]
  | cons p m ih =>
    have hm' := hm
    unfold KeysInc at hm
    rw [List.map_cons, List.pairwise_cons] at hm
    unfold mset
    split
    · rename_i h
      unfold KeysInc
      rw [List.map_cons, List.pairwise_cons]
      refine ⟨fun x hx => ?_, hm.2⟩
      have := hm.1 x hx
      rw [h] at this
      exact this
    · rename_i h
      split
      · rename_i hlt
        unfold KeysInc
        rw [List.map_cons, List.map_cons, List.pairwise_cons, List.pairwise_cons]
        refine ⟨fun x hx => ?_, hm⟩
        rcases List.mem_cons.mp hx with rfl | hx
        · exact hlt
        · exact lt_trans hlt (hm.1 x hx)
      · rename_i hlt
        unfold KeysInc
        rw [List.map_cons, List.pairwise_cons]
        refine ⟨fun x hx => ?_, ih hm.2⟩
        rcases (mset_keys k v m x).mp hx with rfl | hx
        · exact lt_of_le_of_ne (not_lt.mp hlt) h
        · exact hm.1 x hx

theorem keysInc_filter {α : Type} {m : List (Name × α)} (q : Name × α → Bool) (hm : KeysInc m) : KeysInc (m.filter q) :=
  hm.sublist ((List.filter_sublist).map _)

theorem keysInc_merase {α : Type} {k : Name} {m : List (Name × α)} (hm : KeysInc m) : KeysInc (merase k m) := keysInc_filter _ hm

theorem mem_nameInsert (k x : Name) (l : List Name) : x ∈ nameInsert k l ↔ x = k ∨ x ∈ l := by
  induction l with
  | nil => simp [nameInsert]
  | cons y l ih =>
    unfold nameInsert
    split
    · rename_i h
      subst h
      simp
    · split
      · simp
      · simp only [List.mem_cons, ih]
        tauto

theorem mem_nameInserts (l : List Name) : ∀ (s : List Name) (x : Name), x ∈ l.foldl (fun s f => nameInsert f s) s ↔ x ∈ s ∨ x ∈ l := by
  induction l with
  | nil => simp
  | cons y l ih =>
    intro s x
    rw [List.foldl_cons, ih, mem_nameInsert, List.mem_cons]
    tauto

/-! ## Ids of the entities of given families -/

theorem idsFold_aux (p : Int → Prop) [DecidablePred p] : ∀ (a : List Int) (o : Nat) (r : List Int), StrictSorted r → (∀ i ∈ r, i < (o : Int)) →
    let r' := (a.zipIdx o).foldl (fun r q => if p q.1 then r ++ [(q.2 : Int)] else r) r
    StrictSorted r' ∧ ∀ i, i ∈ r' ↔ i ∈ r ∨ ∃ k : Nat, i = ((o + k : Nat) : Int) ∧ ∃ x, a[k]? = some x ∧ p x
  | [], o, r, hr, _ => by simp [hr]
  | x :: a, o, r, hr, hlt => by
    simp only [List.zipIdx_cons, List.foldl_cons]
    by_cases hx : p x
    · rw [if_pos hx]
      obtain ⟨h1, h2⟩ := idsFold_aux p a (o + 1) (r ++ [(o : Int)])
        (by
          unfold StrictSorted
          rw [List.pairwise_append]
          exact ⟨hr, by simp, by simpa using hlt⟩)
        (by
          intro i hi
          rcases List.mem_append.mp hi with hi | hi
          · have := hlt i hi; push_cast; omega
          · simp at hi; omega)
      refine ⟨h1, fun i => ?_⟩
      rw [h2]
      constructor
      · rintro (h | ⟨k, rfl, y, hy, hp⟩)
        · rcases List.mem_append.mp h with h | h
          · exact Or.inl h
          · simp only [List.mem_singleton] at h
            exact Or.inr ⟨0, by simpa using h, x, by simp, hx⟩
        · exact Or.inr ⟨k + 1, by push_cast; omega, y, by simpa using hy, hp⟩
      · rintro (h | ⟨k, rfl, y, hy, hp⟩)
        · exact Or.inl (by simp [h])
        · cases k with
          | zero => exact Or.inl (by simp)
          | succ k => exact Or.inr ⟨k, by push_cast; omega, y, by simpa using hy, hp⟩
    · rw [if_neg hx]
      obtain ⟨h1, h2⟩ := idsFold_aux p a (o + 1) r hr (fun i hi => by have := hlt i hi; push_cast; omega)
      refine ⟨h1, fun i => ?_⟩
      rw [h2]
      constructor
      · rintro (h | ⟨k, rfl, y, hy, hp⟩)
        · exact Or.inl h
        · exact Or.inr ⟨k + 1, by push_cast; omega, y, by simpa using hy, hp⟩
      · rintro (h | ⟨k, rfl, y, hy, hp⟩)
        · exact Or.inl h
        · cases k with
          | zero =>
            simp only [List.getElem?_cons_zero, Option.some.injEq] at hy
            subst hy
            exact absurd hp hx
          | succ k => exact Or.inr ⟨k, by push_cast; omega, y, by simpa using hy, hp⟩

theorem findIdsEqualList_spec (a vals : List Int) : StrictSorted (findIdsEqualList a vals) ∧
    ∀ i, i ∈ findIdsEqualList a vals ↔ ∃ k : Nat, i = (k : Int) ∧ ∃ x, a[k]? = some x ∧ x ∈ vals := by
  obtain ⟨h1, h2⟩ := idsFold_aux (fun x => x ∈ vals) a 0 [] List.Pairwise.nil (by simp)
  exact ⟨h1, fun i => by rw [findIdsEqualList, h2]; simp⟩

theorem findIdsEqual_spec (a : List Int) (v : Int) : StrictSorted (findIdsEqual a v) ∧
    ∀ i, i ∈ findIdsEqual a v ↔ ∃ k : Nat, i = (k : Int) ∧ a[k]? = some v := by
  obtain ⟨h1, h2⟩ := idsFold_aux (fun x => x = v) a 0 [] List.Pairwise.nil (by simp)
  exact ⟨h1, fun i => by rw [findIdsEqual, h2]; simp⟩

/-! ## Groups -/

theorem getFamilyId_ok {m : FamMesh} {f : Name} {i : Int} : getFamilyId m f = .ok i ↔ mget f m.families = some i := by
  unfold getFamilyId
  cases h : mget f m.families <;> simp [throwX]

theorem getFamiliesIds_ok (m : FamMesh) (fams : List Name) (h : ∀ f ∈ fams, ∃ i, mget f m.families = some i) :
    ∃ ids, getFamiliesIds m fams = .ok ids ∧ ∀ x, x ∈ ids ↔ ∃ f ∈ fams, mget f m.families = some x := by
  have hh : ∀ f ∈ fams, getFamilyId m f = .ok ((mget f m.families).getD 0) := by
    intro f hf
    obtain ⟨i, hi⟩ := h f hf
    rw [getFamilyId_ok, hi]; rfl
  refine ⟨_, dec_mapM_ok hh, fun x => ?_⟩
  rw [List.mem_map]
  constructor
  · rintro ⟨f, hf, rfl⟩
    obtain ⟨i, hi⟩ := h f hf
    exact ⟨f, hf, by rw [hi]; rfl⟩
  · rintro ⟨f, hf, hx⟩
    exact ⟨f, hf, by rw [hx]; rfl⟩

theorem getFamiliesIds_exn (m : FamMesh) (fams : List Name) (h : ∃ f ∈ fams, mget f m.families = none) :
    getFamiliesIds m fams = .error .exn := by
  have := (mapM_check (getFamilyId m) (fun f => (mget f m.families).getD 0) (fun f => mget f m.families ≠ none)
    (fun f hf => by
      obtain ⟨i, hi⟩ := Option.ne_none_iff_exists'.mp hf
      rw [getFamilyId_ok, hi]; rfl)
    (fun f hf => by
      unfold getFamilyId
      rw [not_not.mp hf]; rfl) fams).2
  apply this
  intro hall
  obtain ⟨f, hf, hn⟩ := h
  exact hall f hf hn

theorem getFamiliesOnGroups_aux (m : FamMesh) : ∀ (gs : List Name) (acc : List Name), (∀ g ∈ gs, ∃ fams, mget g m.groups = some fams) →
    ∃ r, gs.foldlM (fun acc g => do
      let fams ← getFamiliesOnGroup m g
      (.ok (fams.foldl (fun s f => nameInsert f s) acc) : M (List Name))) acc = .ok r ∧
      ∀ f, f ∈ r ↔ f ∈ acc ∨ ∃ g ∈ gs, ∃ fams, mget g m.groups = some fams ∧ f ∈ fams
  | [], acc, _ => ⟨acc, rfl, by simp⟩
  | g :: gs, acc, h => by
    obtain ⟨fams, hf⟩ := h g (by simp)
    obtain ⟨r, h1, h2⟩ := getFamiliesOnGroups_aux m gs (fams.foldl (fun s f => nameInsert f s) acc) (fun g' hg' => h g' (by simp [hg']))
    refine ⟨r, ?_, fun f => ?_⟩
    · rw [List.foldlM_cons]
      have : getFamiliesOnGroup m g = .ok fams := by unfold getFamiliesOnGroup; rw [hf]
      rw [this, ok_bind, ok_bind]
      exact h1
    · rw [h2, mem_nameInserts]
      simp only [List.mem_cons, exists_eq_or_imp, hf, Option.some.injEq, exists_eq_left']
      tauto

theorem getFamiliesOnGroups_ok (m : FamMesh) (gs : List Name) (h : ∀ g ∈ gs, ∃ fams, mget g m.groups = some fams) :
    ∃ r, getFamiliesOnGroups m gs = .ok r ∧ ∀ f, f ∈ r ↔ ∃ g ∈ gs, ∃ fams, mget g m.groups = some fams ∧ f ∈ fams := by
  obtain ⟨r, h1, h2⟩ := getFamiliesOnGroups_aux m gs [] h
  exact ⟨r, h1, fun f => by rw [h2]; simp⟩

/-- The entities of family id `x` belong to the group `g`. -/
def GrpHas (m : FamMesh) (g : Name) (x : Int) : Prop :=
  ∃ fams, mget g m.groups = some fams ∧ ∃ f ∈ fams, mget f m.families = some x

/-- Every family of every group is a family of the mesh. -/
def GroupsOK (m : FamMesh) : Prop := ∀ g fams, mget g m.groups = some fams → ∀ f ∈ fams, ∃ i, mget f m.families = some i

/-- **C92.** `getGroupsArr` at a level that has a family array: exactly the increasing ids of the entities whose family id is
that of a family of one of the groups. -/
theorem C92_groups_arr (m : FamMesh) (rel : Int) (a : List Int) (gs : List Name) (hw : GroupsOK m)
    (ha : getFamilyFieldAtLevel m rel = .ok (some a)) (hg : ∀ g ∈ gs, ∃ fams, mget g m.groups = some fams) :
    ∃ r, getGroupsArr m rel gs = .ok r ∧ StrictSorted r ∧
      ∀ i, i ∈ r ↔ ∃ k : Nat, i = (k : Int) ∧ ∃ x, a[k]? = some x ∧ ∃ g ∈ gs, GrpHas m g x := by
  obtain ⟨fs, h1, h2⟩ := getFamiliesOnGroups_ok m gs hg
  obtain ⟨ids, h3, h4⟩ := getFamiliesIds_ok m fs (by
    intro f hf
    obtain ⟨g, _, fams, hgf, hff⟩ := (h2 f).mp hf
    exact hw g fams hgf f hff)
  obtain ⟨h5, h6⟩ := findIdsEqualList_spec a ids
  refine ⟨findIdsEqualList a ids, ?_, h5, fun i => ?_⟩
  · unfold getGroupsArr getFamiliesArr
    rw [h1, ok_bind, h3, ok_bind, ha, ok_bind]
  · rw [h6]
    constructor
    · rintro ⟨k, rfl, x, hx, hxi⟩
      obtain ⟨f, hf, hfx⟩ := (h4 x).mp hxi
      obtain ⟨g, hg, fams, hgf, hff⟩ := (h2 f).mp hf
      exact ⟨k, rfl, x, hx, g, hg, fams, hgf, f, hff, hfx⟩
    · rintro ⟨k, rfl, x, hx, g, hg, fams, hgf, f, hff, hfx⟩
      exact ⟨k, rfl, x, hx, (h4 x).mpr ⟨f, (h2 f).mpr ⟨g, hg, fams, hgf, hff⟩, hfx⟩⟩

/-- Two levels, four nodes and five cells; the group `a` lies on the families `x` and `y`, the group `b` on `y` and `z`. -/
def famSample : FamMesh where
  levs := [⟨1, 4, some [0, 3, 3, 0]⟩, ⟨0, 5, some [-1, 0, -2, -1, -4]⟩]
  families := [(['x'], -1), (['y'], -2), (['z'], 3)]
  groups := [(['a'], [['x'], ['y']]), (['b'], [['y'], ['z']])]

example : getGroupArr famSample 0 ['a'] = .ok [0, 2, 3] ∧ getGroupArr famSample 0 ['b'] = .ok [2] ∧ getGroupArr famSample 1 ['b'] = .ok [1, 2] ∧
    getGroupsArr famSample 0 [['b'], ['a']] = .ok [0, 2, 3] := by decide +kernel

/-- **C92.** The refusals: a group or a family that does not exist, a level that does not exist. -/
theorem C92_groups_arr_refused (m : FamMesh) (rel : Int) (gs : List Name) :
    ((∃ g ∈ gs, mget g m.groups = none) → getGroupsArr m rel gs = .error .exn) ∧
    ((∀ g ∈ gs, ∃ fams, mget g m.groups = some fams) → (∃ g ∈ gs, ∃ fams, mget g m.groups = some fams ∧ ∃ f ∈ fams, mget f m.families = none) →
      getGroupsArr m rel gs = .error .exn) ∧
    (GroupsOK m → (∀ g ∈ gs, ∃ fams, mget g m.groups = some fams) → (∀ l ∈ m.levs, l.rel ≠ rel) → rel ≠ 1 → getGroupsArr m rel gs = .error .exn) := by
  refine ⟨?_, ?_, ?_⟩
  · rintro ⟨g, hg, hn⟩
    have : ∀ (gs : List Name) (acc : List Name), g ∈ gs → gs.foldlM (fun acc g => do
        let fams ← getFamiliesOnGroup m g
        (.ok (fams.foldl (fun s f => nameInsert f s) acc) : M (List Name))) acc = .error .exn := by
      intro gs
      induction gs with
      | nil => intro acc h; simp at h
      | cons g' gs ih =>
        intro acc hm
        rw [List.foldlM_cons]
        cases hg' : mget g' m.groups with
        | none =>
          have e : getFamiliesOnGroup m g' = .error .exn := by unfold getFamiliesOnGroup; rw [hg']; rfl
          rw [e, err_bind, err_bind]
        | some fams =>
          have e : getFamiliesOnGroup m g' = .ok fams := by unfold getFamiliesOnGroup; rw [hg']
          rw [e, ok_bind, ok_bind]
          apply ih
          rcases List.mem_cons.mp hm with rfl | h
          · rw [hn] at hg'; cases hg'
          · exact h
    unfold getGroupsArr getFamiliesOnGroups
    rw [this gs [] hg, err_bind]
  · rintro hall ⟨g, hg, fams, hgf, f, hf, hn⟩
    obtain ⟨r, h1, h2⟩ := getFamiliesOnGroups_ok m gs hall
    unfold getGroupsArr getFamiliesArr
    rw [h1, ok_bind, getFamiliesIds_exn m r ⟨f, (h2 f).mpr ⟨g, hg, fams, hgf, hf⟩, hn⟩, err_bind]
  · intro hw hall hl h1
    obtain ⟨r, h3, h4⟩ := getFamiliesOnGroups_ok m gs hall
    obtain ⟨ids, h5, _⟩ := getFamiliesIds_ok m r (by
      intro f hf
      obtain ⟨g, _, fams, hgf, hff⟩ := (h4 f).mp hf
      exact hw g fams hgf f hff)
    have : getFamilyFieldAtLevel m rel = .error .exn := by
      unfold getFamilyFieldAtLevel famLev
      rw [List.find?_eq_none.mpr (by intro l hm; simpa using hl l hm), if_neg h1]; rfl
    unfold getGroupsArr getFamiliesArr
    rw [h3, ok_bind, h5, ok_bind, this, err_bind]

example : getGroupsArr famSample 0 [['a'], ['c']] = .error .exn ∧ getGroupArr famSample (-1) ['a'] = .error .exn ∧
    getGroupArr { famSample with families := [(['x'], -1)] } 0 ['a'] = .error .exn := by decide +kernel

/-- **C92.** Finding: asked for the cells of a group at a level that has cells but no family array (the usual case of a mesh
built in memory), the function uses a null pointer, where the documentation announces an exception; for nodes the answer is empty. -/
theorem C92_finding_no_array (m : FamMesh) (rel : Int) (gs : List Name) (hw : GroupsOK m) (hg : ∀ g ∈ gs, ∃ fams, mget g m.groups = some fams)
    (ha : getFamilyFieldAtLevel m rel = .ok none) :
    getGroupsArr m rel gs = if rel = 1 then .ok [] else .error .ub := by
  obtain ⟨r, h3, h4⟩ := getFamiliesOnGroups_ok m gs hg
  obtain ⟨ids, h5, _⟩ := getFamiliesIds_ok m r (by
    intro f hf
    obtain ⟨g, _, fams, hgf, hff⟩ := (h4 f).mp hf
    exact hw g fams hgf f hff)
  unfold getGroupsArr getFamiliesArr
  rw [h3, ok_bind, h5, ok_bind, ha, ok_bind]; rfl

example : getGroupArr ⟨[⟨1, 4, none⟩, ⟨0, 2, none⟩], [(['x'], -1)], [(['a'], [['x']])]⟩ 0 ['a'] = .error .ub ∧
    getGroupArr ⟨[⟨1, 4, none⟩, ⟨0, 2, none⟩], [(['x'], -1)], [(['a'], [['x']])]⟩ 1 ['a'] = .ok [] := by decide +kernel

theorem groupsOnFamily_aux (f : Name) : ∀ (l : List (Name × List Name)) (r : List Name),
    l.foldl (fun r p => if f ∈ p.2 then r ++ [p.1] else r) r = r ++ (l.filter fun p => decide (f ∈ p.2)).map (·.1)
  | [], r => by simp
  | p :: l, r => by
    rw [List.foldl_cons, groupsOnFamily_aux f l]
    by_cases h : f ∈ p.2
    · rw [if_pos h, List.filter_cons_of_pos (by simpa using h)]; simp
    · rw [if_neg h, List.filter_cons_of_neg (by simpa using h)]

/-- **C92.** `getGroupsOnFamily` and `getFamiliesOnGroup` are transposed of each other: the names, in increasing order and without
repetition, of the groups having the family. -/
theorem C92_groups_on_family (m : FamMesh) (f : Name) (hk : KeysInc m.groups) :
    (getGroupsOnFamily m f).Pairwise (· < ·) ∧
    ∀ g, g ∈ getGroupsOnFamily m f ↔ ∃ fams, getFamiliesOnGroup m g = .ok fams ∧ f ∈ fams := by
  unfold getGroupsOnFamily
  rw [groupsOnFamily_aux, List.nil_append]
  refine ⟨keysInc_filter _ hk, fun g => ?_⟩
  rw [List.mem_map]
  constructor
  · rintro ⟨p, hp, rfl⟩
    rw [List.mem_filter] at hp
    refine ⟨p.2, ?_, by simpa using hp.2⟩
    unfold getFamiliesOnGroup
    rw [mem_mget hk hp.1]
  · rintro ⟨fams, hf, hm⟩
    unfold getFamiliesOnGroup at hf
    cases hg : mget g m.groups with
    | none => rw [hg] at hf; cases hf
    | some fs =>
      rw [hg] at hf
      cases hf
      exact ⟨(g, fams), List.mem_filter.mpr ⟨mget_mem hg, by simpa using hm⟩, rfl⟩

example : getGroupsOnFamily famSample ['y'] = [['a'], ['b']] ∧ getGroupsOnFamily famSample ['x'] = [['a']] ∧ getGroupsOnFamily famSample ['q'] = [] := by
  decide +kernel

theorem levHasFamily_ok (m : FamMesh) (a : List Int) : ∀ (fams : List Name), (∀ f ∈ fams, ∃ i, mget f m.families = some i) →
    ∃ b, levHasFamily m a fams = .ok b ∧ (b = true ↔ ∃ f ∈ fams, ∃ i ∈ a, mget f m.families = some i)
  | [], _ => ⟨false, rfl, by simp⟩
  | f :: l, h => by
    obtain ⟨i, hi⟩ := h f (by simp)
    obtain ⟨b, h1, h2⟩ := levHasFamily_ok m a l (fun f hf => h f (by simp [hf]))
    unfold levHasFamily
    rw [hi]
    by_cases hia : i ∈ a
    · refine ⟨true, by simp [hia], ?_⟩
      simp only [true_iff]
      exact ⟨f, by simp, i, hia, hi⟩
    · refine ⟨b, by simp only [if_neg hia]; exact h1, ?_⟩
      rw [h2]
      constructor
      · rintro ⟨f', hf', r⟩; exact ⟨f', by simp [hf'], r⟩
      · rintro ⟨f', hf', j, hj, hm⟩
        rcases List.mem_cons.mp hf' with rfl | hf'
        · rw [hi] at hm; cases hm; exact absurd hj hia
        · exact ⟨f', hf', j, hj, hm⟩

theorem groupsOnLev_aux (m : FamMesh) (a : List Int) : ∀ (l : List (Name × List Name)) (r : List Name),
    (∀ p ∈ l, ∀ f ∈ p.2, ∃ i, mget f m.families = some i) →
    ∃ q : Name × List Name → Bool, (∀ p ∈ l, q p = true ↔ ∃ f ∈ p.2, ∃ i ∈ a, mget f m.families = some i) ∧
    l.foldlM (fun r p => do
      let b ← levHasFamily m a p.2
      (.ok (if b then r ++ [p.1] else r) : M (List Name))) r = .ok (r ++ (l.filter q).map (·.1)) := by
  intro l r h
  classical
  refine ⟨fun p => decide (∃ f ∈ p.2, ∃ i ∈ a, mget f m.families = some i), fun p _ => by simp, ?_⟩
  induction l generalizing r with
  | nil => simp; rfl
  | cons p l ih =>
    obtain ⟨b, h1, h2⟩ := levHasFamily_ok m a p.2 (h p (by simp))
    rw [List.foldlM_cons, h1, ok_bind, ok_bind, ih _ fun p hp => h p (by simp [hp])]
    by_cases hb : b = true
    · rw [List.filter_cons_of_pos (by simpa using h2.mp hb), hb]; simp
    · rw [List.filter_cons_of_neg (by rw [decide_eq_true_eq]; exact fun hc => hb (h2.mpr hc))]
      simp [hb]

/-- **C92.** `getGroupsOnSpecifiedLev`: exactly the groups for which `getGroupArr` is not empty at this level. -/
theorem C92_groups_on_lev (m : FamMesh) (rel : Int) (a : List Int) (hw : GroupsOK m) (hk : KeysInc m.groups)
    (ha : getFamilyFieldAtLevel m rel = .ok (some a)) :
    ∃ r, getGroupsOnSpecifiedLev m rel = .ok r ∧ r.Pairwise (· < ·) ∧
      ∀ g, g ∈ r ↔ ∃ ids, getGroupArr m rel g = .ok ids ∧ ids ≠ [] := by
  obtain ⟨q, hq, h1⟩ := groupsOnLev_aux m a m.groups [] (fun p hp f hf => hw p.1 p.2 (mem_mget hk hp) f hf)
  refine ⟨_, ?_, keysInc_filter q hk, fun g => ?_⟩
  · unfold getGroupsOnSpecifiedLev
    rw [ha, ok_bind]
    simpa using h1
  · rw [List.mem_map]
    constructor
    · rintro ⟨p, hp, rfl⟩
      rw [List.mem_filter] at hp
      obtain ⟨f, hf, i, hi, hfi⟩ := (hq p hp.1).mp hp.2
      have hg := mem_mget hk hp.1
      obtain ⟨r, h2, _, h4⟩ := C92_groups_arr m rel a [p.1] hw ha (by simp only [List.mem_singleton, forall_eq]; exact ⟨_, hg⟩)
      refine ⟨r, h2, ?_⟩
      obtain ⟨k, hk, rfl⟩ := List.mem_iff_getElem.mp hi
      have : (k : Int) ∈ r := (h4 k).mpr ⟨k, rfl, _, by simp [hk], p.1, by simp, p.2, hg, f, hf, hfi⟩
      exact List.ne_nil_of_mem this
    · rintro ⟨ids, h2, h3⟩
      cases hg : mget g m.groups with
      | none =>
        have := (C92_groups_arr_refused m rel [g]).1 ⟨g, by simp, hg⟩
        unfold getGroupArr at h2
        rw [this] at h2; cases h2
      | some fams =>
        obtain ⟨r, h5, _, h7⟩ := C92_groups_arr m rel a [g] hw ha (by simp only [List.mem_singleton, forall_eq]; exact ⟨_, hg⟩)
        unfold getGroupArr at h2
        rw [h5] at h2
        cases h2
        obtain ⟨i, hi⟩ := List.exists_mem_of_ne_nil _ h3
        obtain ⟨k, _, x, hx, g', hg', fams', hf', f, hf, hfx⟩ := (h7 i).mp hi
        simp only [List.mem_singleton] at hg'
        subst hg'
        rw [hg] at hf'
        cases hf'
        refine ⟨(g', fams), List.mem_filter.mpr ⟨mget_mem hg, (hq _ (mget_mem hg)).mpr ⟨f, hf, x, List.mem_of_getElem? hx, hfx⟩⟩, rfl⟩

example : getGroupsOnSpecifiedLev famSample 0 = .ok [['a'], ['b']] ∧ getGroupsOnSpecifiedLev famSample 1 = .ok [['b']] := by decide +kernel

/-! ## New names -/

theorem firstNotIn_some {avoid cands : List Name} {c : Name} (h : firstNotIn avoid cands = some c) : c ∉ avoid := by
  unfold firstNotIn at h
  simpa using List.find?_some h

theorem firstNotIn_none {avoid cands : List Name} (h : firstNotIn avoid cands = none) : ∀ c ∈ cands, c ∈ avoid := by
  unfold firstNotIn at h
  rw [List.find?_eq_none] at h
  intro c hc
  have := h c hc
  simpa using this

theorem length_add_le_flatten {x y : Name} : ∀ {l : List Name}, x ∈ l → y ∈ l → x ≠ y → x.length + y.length ≤ l.flatten.length
  | [], hx, _, _ => by simp at hx
  | z :: l, hx, hy, hne => by
    have one : ∀ (w : Name), w ∈ l → w.length ≤ l.flatten.length := fun w hw => by
      rw [List.length_flatten]
      exact List.single_le_sum (by simp) _ (List.mem_map.mpr ⟨w, hw, rfl⟩)
    rw [List.flatten_cons, List.length_append]
    rcases List.mem_cons.mp hx with h1 | h1 <;> rcases List.mem_cons.mp hy with h2 | h2
    · exact absurd (h1.trans h2.symm) hne
    · have := one y h2; rw [h1]; omega
    · have := one x h1; rw [h2]; omega
    · have := length_add_le_flatten h1 h2 hne; omega

/-- **C92.** `CreateNameNotIn` on a name of two characters or more never fails and returns a name out of the list, however
many names there are in it. -/
theorem C92_new_name (nameTry : Name) (avoid : List Name) (h : 2 ≤ nameTry.length) :
    ∃ r, createNameNotIn nameTry avoid = .ok r ∧ r ∉ avoid := by
  unfold createNameNotIn
  split
  · rename_i hn; exact ⟨_, rfl, hn⟩
  · rename_i h0
    split
    · rename_i c hc; exact ⟨c, rfl, firstNotIn_some hc⟩
    · rename_i h1
      split
      · rename_i c hc; exact ⟨c, rfl, firstNotIn_some hc⟩
      · have hA : nameTry ∈ avoid := by simpa using h0
        have hB : nameTry.drop 1 ∈ avoid := firstNotIn_none h1 _ (by
          rw [List.mem_map]
          exact ⟨0, by simp; omega, rfl⟩)
        have hl : (nameTry.drop 1).length = nameTry.length - 1 := by simp
        have hne : nameTry.drop 1 ≠ nameTry := by
          intro e
          rw [e] at hl; omega
        have : avoid.flatten ∉ avoid := by
          intro hm
          by_cases e : avoid.flatten = nameTry
          · have := length_add_le_flatten hB hA hne
            rw [e] at this
            omega
          · have := length_add_le_flatten hm hA e
            omega
        rw [if_pos this]
        exact ⟨_, rfl, this⟩

example : createNameNotIn ['F', '_', '3'] [['a'], ['F', '_', '3']] = .ok ['_', '3'] ∧
    createNameNotIn ['F', '_', '3'] [['_', '3'], ['F', '_', '3']] = .ok ['3'] := by decide +kernel

/-- Finding: the second attempt was meant to repeat the first character; it puts in front of the name as many control
characters as the code of that character, here 70 times the character of code 1. -/
theorem C92_finding_prefix :
    createNameNotIn ['F'] [['F']] = .ok (List.replicate 70 (Char.ofNat 1) ++ ['F']) := by decide +kernel

theorem familyName_length (i : Int) : 2 ≤ (familyName i).length := by
  unfold familyName
  simp

end MC
