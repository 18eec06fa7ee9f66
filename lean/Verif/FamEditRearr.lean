import Verif.FamEditClean

/-!
# Families and groups of a MED file mesh: unused families, rearrangement, removal at a level, group of all entities (C94)
-/

namespace MC

/-- The family belongs to a group. -/
def FamRef (m : FamMesh) (f : Name) : Prop := ∃ g L, mget g m.groups = some L ∧ f ∈ L

theorem filterOut_mem (L : List Name) : ∀ (s : List Name) (x : Name), x ∈ L.foldl (fun s f => s.filter fun x => decide (x ≠ f)) s ↔ x ∈ s ∧ x ∉ L := by
  induction L with
  | nil => intro s x; simp
  | cons f L ih =>
    intro s x
    rw [List.foldl_cons, ih]
    simp only [List.mem_filter, decide_eq_true_eq, List.mem_cons, not_or]
    tauto

theorem notRef_mem (gr : List (Name × List Name)) : ∀ (s : List Name) (x : Name),
    x ∈ gr.foldl (fun s p => p.2.foldl (fun s f => s.filter fun x => decide (x ≠ f)) s) s ↔ x ∈ s ∧ ∀ p ∈ gr, x ∉ p.2 := by
  induction gr with
  | nil => intro s x; simp
  | cons p gr ih =>
    intro s x
    rw [List.foldl_cons, ih, filterOut_mem]
    simp only [List.mem_cons, forall_eq_or_imp]
    tauto

theorem eraseNamed (sf : List Name) : ∀ (fams : List (Name × Int)), KeysInc fams →
    KeysInc (sf.foldl (fun fs f => if f ≠ dftFamName then merase f fs else fs) fams) ∧
    ∀ f, mget f (sf.foldl (fun fs f => if f ≠ dftFamName then merase f fs else fs) fams) = if f ∈ sf ∧ f ≠ dftFamName then none else mget f fams := by
  induction sf with
  | nil => intro fams h; exact ⟨h, by simp⟩
  | cons x sf ih =>
    intro fams h
    rw [List.foldl_cons]
    obtain ⟨h1, h2⟩ := ih (if x ≠ dftFamName then merase x fams else fams) (by split; exact keysInc_merase h; exact h)
    refine ⟨h1, fun f => ?_⟩
    rw [h2]
    by_cases hx : x ≠ dftFamName
    · rw [if_pos hx, mget_merase]
      by_cases e : f = x
      · subst e; simp [hx]
      · simp [e]
    · rw [if_neg hx]
      have hx := not_not.mp hx
      by_cases e : f = x
      · subst e; simp [hx]
      · simp [e]

/-- **C94.** `removeFamiliesReferedByNoGroups`: the families left are exactly those of a group and "FAMILLE_ZERO"; all groups keep their entities. -/
theorem C94_remove_unreferred (m : FamMesh) (hw : FamOK m) :
    FamOK (removeFamiliesReferedByNoGroups m) ∧ (removeFamiliesReferedByNoGroups m).levs = m.levs ∧
    (removeFamiliesReferedByNoGroups m).groups = m.groups ∧
    (∀ f i, mget f (removeFamiliesReferedByNoGroups m).families = some i ↔ mget f m.families = some i ∧ (f = dftFamName ∨ FamRef m f)) ∧
    ∀ g, mget g m.groups ≠ none → ∀ rel, getGroupArr (removeFamiliesReferedByNoGroups m) rel g = getGroupArr m rel g := by
  set sf := m.groups.foldl (fun s p => p.2.foldl (fun s f => s.filter fun x => decide (x ≠ f)) s) (m.families.map (·.1)) with hsf
  have hmem : ∀ f, f ∈ sf ↔ f ∈ m.families.map (·.1) ∧ ¬ FamRef m f := by
    intro f
    rw [hsf, notRef_mem]
    constructor
    · rintro ⟨h1, h2⟩
      refine ⟨h1, ?_⟩
      rintro ⟨g, L, hL, hf⟩
      exact h2 _ (mget_mem hL) hf
    · rintro ⟨h1, h2⟩
      refine ⟨h1, fun p hp hf => h2 ⟨p.1, p.2, mem_mget hw.kg hp, hf⟩⟩
  obtain ⟨k1, k2⟩ := eraseNamed sf m.families hw.kf
  have hfam : (removeFamiliesReferedByNoGroups m).families = sf.foldl (fun fs f => if f ≠ dftFamName then merase f fs else fs) m.families := rfl
  have hget : ∀ f i, mget f (removeFamiliesReferedByNoGroups m).families = some i ↔ mget f m.families = some i ∧ (f = dftFamName ∨ FamRef m f) := by
    intro f i
    rw [hfam, k2]
    constructor
    · intro h
      split at h
      · cases h
      · rename_i hc
        refine ⟨h, ?_⟩
        by_contra hh
        push Not at hh
        have : f ∈ m.families.map (·.1) := List.mem_map.mpr ⟨_, mget_mem h, rfl⟩
        exact hc ⟨(hmem f).mpr ⟨this, hh.2⟩, hh.1⟩
    · rintro ⟨h, hh⟩
      rw [if_neg]
      · exact h
      · rintro ⟨h1, h2⟩
        rcases hh with hh | hh
        · exact h2 hh
        · exact ((hmem f).mp h1).2 hh
  have hok : GroupsOK (removeFamiliesReferedByNoGroups m) := by
    intro g L hL f hf
    obtain ⟨i, hi⟩ := hw.ok g L hL f hf
    exact ⟨i, (hget f i).mpr ⟨hi, Or.inr ⟨g, L, hL, hf⟩⟩⟩
  refine ⟨⟨by rw [hfam]; exact k1, hw.kg, hok, ?_, hw.levs⟩, rfl, rfl, hget, ?_⟩
  · intro f f' i h1 h2
    exact hw.inj f f' i ((hget f i).mp h1).1 ((hget f' i).mp h2).1
  · intro g hg rel
    refine same_group_levs hw.ok hok rfl hg hg ?_ rel
    intro l hl a hla x hx
    constructor
    · rintro ⟨L, hL, f, hf, h1⟩
      exact ⟨L, hL, f, hf, ((hget f x).mp h1).1⟩
    · rintro ⟨L, hL, f, hf, h1⟩
      exact ⟨L, hL, f, hf, (hget f x).mpr ⟨h1, Or.inr ⟨g, L, hL, hf⟩⟩⟩

example : (removeFamiliesReferedByNoGroups { famOrphanSample with families := mset dftFamName 0 famOrphanSample.families }).families =
    [(dftFamName, 0), (['o'], -9), (['x'], -1), (['y'], -2), (['z'], 3)] := by decide +kernel

/-! ## rearrangeFamilies -/

theorem switches (a : List Int) (ids : List Int) : ∀ (v : List Bool), v.length = a.length →
    (ids.foldl (fun (v : List Bool) i => List.zipWith (fun x b => b || decide (x = i)) a v) v).length = a.length ∧
    ∀ (k : Nat) (x : Int) (b : Bool), a[k]? = some x → v[k]? = some b →
      (ids.foldl (fun (v : List Bool) i => List.zipWith (fun x b => b || decide (x = i)) a v) v)[k]? = some (b || decide (x ∈ ids)) := by
  induction ids with
  | nil => intro v h; exact ⟨h, by simp⟩
  | cons i ids ih =>
    intro v h
    rw [List.foldl_cons]
    obtain ⟨h1, h2⟩ := ih (List.zipWith (fun x b => b || decide (x = i)) a v) (by simp [h])
    refine ⟨h1, fun k x b hx hb => ?_⟩
    rw [h2 k x (b || decide (x = i)) hx (by simp [List.getElem?_zipWith, hx, hb])]
    simp [Bool.or_assoc, Bool.decide_or]

theorem mapM_ofWritten (r : List Int) : (r.map some).mapM ofWritten = .ok r := by
  induction r with
  | nil => rfl
  | cons x r ih =>
    rw [List.map_cons, List.mapM_cons, ih]
    rfl

theorem rearrangeLev_ok (ids : List Int) (l : FamLev) :
    rearrangeLev ids l = .ok { l with fam := l.fam.map (List.map fun x => if x ∈ ids then x else 0) } := by
  unfold rearrangeLev
  cases hl : l.fam with
  | none => cases l; simp_all
  | some a =>
    simp only [Option.map_some]
    obtain ⟨h1, h2⟩ := switches a ids (List.replicate a.length false) (by simp)
    set v := ids.foldl (fun (v : List Bool) i => List.zipWith (fun x b => b || decide (x = i)) a v) (List.replicate a.length false) with hv
    have h3 : ∀ (k : Nat) (x : Int), a[k]? = some x → v[k]? = some (decide (x ∈ ids)) := by
      intro k x hx
      have hk := (List.getElem?_eq_some_iff.mp hx).1
      rw [h2 k x false hx (by simp [hk])]
      simp
    obtain ⟨r, r1, r2, r3⟩ := C35_switched false v
    rw [r1, ok_bind, mapM_ofWritten, ok_bind]
    have hr : ∀ k : Nat, (k : Int) ∈ r ↔ ∃ x, a[k]? = some x ∧ x ∉ ids := by
      intro k
      rw [r3]
      constructor
      · rintro ⟨i, e, hi⟩
        have : k = i := by omega
        subst this
        have hk := (List.getElem?_eq_some_iff.mp hi).1
        have hx : a[k]? = some (a[k]'(by omega)) := by simp
        refine ⟨_, hx, ?_⟩
        rw [h3 k _ hx] at hi
        simpa using hi
      · rintro ⟨x, hx, hn⟩
        exact ⟨k, rfl, by rw [h3 k x hx]; simp [hn]⟩
    by_cases hn : r = []
    · rw [if_pos hn]
      have : a.map (fun x => if x ∈ ids then x else 0) = a := by
        conv_rhs => rw [← List.map_id a]
        apply List.map_congr_left
        intro x hx
        obtain ⟨k, hk⟩ := List.mem_iff_getElem?.mp hx
        have : x ∈ ids := by
          by_contra hc
          have := (hr k).mpr ⟨x, hk, hc⟩
          rw [hn] at this
          simp at this
        simp [this]
      rw [this, ← hl]
    · rw [if_neg hn]
      obtain ⟨c, c1, c2, c3⟩ := setPartSimple_ok r a 0 (by
        intro i hi
        obtain ⟨k, rfl, hk⟩ := (r3 i).mp hi
        have := (List.getElem?_eq_some_iff.mp hk).1
        omega)
      rw [c1, ok_bind]
      congr 3
      apply List.ext_getElem?
      intro k
      rw [List.getElem?_map]
      cases hk : a[k]? with
      | none =>
        rw [List.getElem?_eq_none_iff] at hk
        simp [c2, hk]
      | some x =>
        rw [c3 k x hk, Option.map_some]
        congr 1
        by_cases hx : x ∈ ids
        · rw [if_pos hx, if_neg]
          intro hc
          obtain ⟨y, hy, hy2⟩ := (hr k).mp hc
          rw [hk] at hy
          cases hy
          exact hy2 hx
        · rw [if_neg hx, if_pos ((hr k).mpr ⟨x, hk, hx⟩)]

/-- **C94.** `rearrangeFamilies` on a mesh with family arrays, whose groups have no family twice, is refused exactly when a group lies on "FAMILLE_ZERO" or on a family of id 0.
Otherwise all groups keep their entities at all levels, every id of the arrays is then 0 or that of a family of a group or of
"FAMILLE_ZERO", and every family left is used. -/
theorem C94_rearrange (m : FamMesh) (hw : FamOK m) (hn : NodupFams m) (hex : ∃ l ∈ m.levs, ∃ a, l.fam = some a) :
    ((FamRef m dftFamName ∨ ∃ f, FamRef m f ∧ mget f m.families = some 0) → rearrangeFamilies m = .error .exn) ∧
    (¬ FamRef m dftFamName → (∀ f, FamRef m f → mget f m.families ≠ some 0) → ∃ m', rearrangeFamilies m = .ok m' ∧ FamOK m' ∧ NodupFams m' ∧
      (∀ g, mget g m'.groups = none ↔ mget g m.groups = none) ∧
      (∀ g, mget g m.groups ≠ none → ∀ rel, getGroupArr m' rel g = getGroupArr m rel g) ∧
      (∀ i, IdUsed m' i → i = 0 ∨ ∃ f, mget f m'.families = some i ∧ (f = dftFamName ∨ FamRef m f)) ∧
      (∀ f i, mget f m'.families = some i → IdUsed m' i ∧ mget f m.families = some i ∧ (f = dftFamName ∨ FamRef m f))) := by
  obtain ⟨u1, u2, u3, u4, u5⟩ := C94_remove_unreferred m hw
  have hchk : (m.groups.any fun p => decide (dftFamName ∈ p.2)) = true ↔ FamRef m dftFamName := by
    rw [List.any_eq_true]
    constructor
    · rintro ⟨p, hp, h⟩
      exact ⟨p.1, p.2, mem_mget hw.kg hp, by simpa using h⟩
    · rintro ⟨g, L, hL, h⟩
      exact ⟨_, mget_mem hL, by simpa using h⟩
  have href : ∀ f, getGroupsOnFamily (removeFamiliesReferedByNoGroups m) f ≠ [] ↔ FamRef m f := by
    intro f
    have := (C92_groups_on_family (removeFamiliesReferedByNoGroups m) f u1.kg).2
    have hgf : ∀ g L, getFamiliesOnGroup (removeFamiliesReferedByNoGroups m) g = .ok L ↔ mget g m.groups = some L := by
      intro g L
      unfold getFamiliesOnGroup
      rw [u3]
      cases mget g m.groups <;> simp [throwX]
    simp only [hgf] at this
    constructor
    · intro h
      obtain ⟨g, hg⟩ := List.exists_mem_of_ne_nil _ h
      obtain ⟨L, hL, hf⟩ := (this g).mp hg
      exact ⟨g, L, hL, hf⟩
    · rintro ⟨g, L, hL, hf⟩
      exact List.ne_nil_of_mem ((this g).mpr ⟨L, hL, hf⟩)
  have hzero : ((removeFamiliesReferedByNoGroups m).families.any fun p => decide (p.2 = 0) && decide (getGroupsOnFamily (removeFamiliesReferedByNoGroups m) p.1 ≠ [])) = true ↔
      ∃ f, FamRef m f ∧ mget f m.families = some 0 := by
    rw [List.any_eq_true]
    constructor
    · rintro ⟨⟨f, i⟩, hp, h⟩
      rw [Bool.and_eq_true, decide_eq_true_eq, decide_eq_true_eq] at h
      simp only at h
      rw [href] at h
      obtain ⟨rfl, h2⟩ := h
      exact ⟨f, h2, ((u4 f 0).mp (mem_mget u1.kf hp)).1⟩
    · rintro ⟨f, h1, h2⟩
      refine ⟨(f, 0), mget_mem ((u4 f 0).mpr ⟨h2, Or.inr h1⟩), ?_⟩
      rw [Bool.and_eq_true, decide_eq_true_eq, decide_eq_true_eq]
      exact ⟨rfl, (href f).mpr h1⟩
  unfold rearrangeFamilies checkOrphanFamilyZero
  constructor
  · intro h
    by_cases h1 : FamRef m dftFamName
    · rw [if_pos (hchk.mpr h1)]; rfl
    · rw [if_neg (fun hc => h1 (hchk.mp hc)), ok_bind]
      simp only
      rw [if_pos (hzero.mpr (h.resolve_left h1))]; rfl
  · intro h1 h2
    rw [if_neg (fun hc => h1 (hchk.mp hc)), ok_bind]
    simp only
    have h2' : ¬ ∃ f, FamRef m f ∧ mget f m.families = some 0 := fun ⟨f, hf, hf0⟩ => h2 f hf hf0
    rw [if_neg (fun hc => h2' (hzero.mp hc))]
    set m1 := removeFamiliesReferedByNoGroups m with hm1
    set ids := m1.families.map (·.2) with hids
    have hidm : ∀ x, x ∈ ids ↔ ∃ f, mget f m1.families = some x := by
      intro x
      rw [hids, List.mem_map]
      constructor
      · rintro ⟨⟨f, i⟩, hp, rfl⟩; exact ⟨f, mem_mget u1.kf hp⟩
      · rintro ⟨f, hf⟩; exact ⟨_, mget_mem hf, rfl⟩
    set R : Int → Int := fun x => if x ∈ ids then x else 0 with hR
    have hlevs : m1.levs.mapM (rearrangeLev ids) = .ok (relabel R m1.levs) :=
      dec_mapM_ok fun l _ => rearrangeLev_ok ids l
    rw [hlevs, ok_bind]
    set m2 : FamMesh := { m1 with levs := relabel R m1.levs } with hm2
    have w2 : FamOK m2 := ⟨u1.kf, u1.kg, u1.ok, u1.inj, by
      simp only [hm2, relabel, List.map_map]; exact u1.levs⟩
    have n2 : NodupFams m2 := by
      intro g L hL
      exact hn g L (by rw [← u3]; exact hL)
    have x2 : ∃ l ∈ m2.levs, ∃ a, l.fam = some a := by
      obtain ⟨l, hl, a, ha⟩ := hex
      rw [← u2] at hl
      exact ⟨_, List.mem_map.mpr ⟨l, hl, rfl⟩, a.map R, by simp [ha]⟩
    obtain ⟨v1, v2, v3, v4, v5, v6, v7⟩ := C94_remove_orphan_families m2 w2 n2 x2
    have hused : ∀ i, IdUsed (removeOrphanFamilies m2).2 i ↔ IdUsed m2 i := by
      intro i
      unfold IdUsed
      rw [v3]
    have gr2 : m2.groups = m.groups := u3
    refine ⟨_, rfl, v1, v2, fun g => by rw [v6, gr2], ?_, ?_, ?_⟩
    · intro g hg rel
      rw [v7 g (by rw [gr2]; exact hg) rel, ← u5 g hg rel]
      refine same_group R rfl u1.ok w2.ok (by rw [u3]; exact hg) (by rw [gr2]; exact hg) ?_ rel
      intro l hl a hla x hx
      have e : ∀ y, GrpHas m2 g y ↔ GrpHas m1 g y := fun _ => Iff.rfl
      rw [e]
      by_cases hxi : x ∈ ids
      · simp [hR, hxi]
      · simp only [hR, if_neg hxi]
        constructor
        · rintro ⟨L, hL, f, hf, h0⟩
          have hL' : mget g m.groups = some L := by rw [← u3]; exact hL
          exact absurd ((u4 f 0).mp h0).1 (h2 f ⟨g, L, hL', hf⟩)
        · rintro ⟨L, hL, f, hf, h0⟩
          exact absurd ((hidm x).mpr ⟨f, h0⟩) hxi
    · intro i hi
      rw [hused] at hi
      obtain ⟨l, hl, a, ha, hia⟩ := hi
      obtain ⟨l0, hl0, rfl⟩ := List.mem_map.mp hl
      simp only at ha
      obtain ⟨a0, ha0, rfl⟩ := Option.map_eq_some_iff.mp ha
      obtain ⟨x, hx, rfl⟩ := List.mem_map.mp hia
      by_cases hxi : x ∈ ids
      · right
        have hRx : R x = x := by simp [hR, hxi]
        obtain ⟨f, hf⟩ := (hidm x).mp hxi
        refine ⟨f, ?_, ((u4 f x).mp hf).2⟩
        rw [hRx]
        refine (v4 f x).mpr ⟨hf, _, hl, _, ha, ?_⟩
        exact List.mem_map.mpr ⟨x, hx, hRx⟩
      · left
        simp [hR, hxi]
    · intro f i hf
      obtain ⟨h3, h4⟩ := (v4 f i).mp hf
      exact ⟨(hused i).mpr h4, (u4 f i).mp h3⟩

example : (do
    let m ← rearrangeFamilies { famOrphanSample with levs := [⟨0, 4, some [-1, -4, -2, 7]⟩] }
    let r ← [['a'], ['b'], ['c']].mapM (getGroupArr m 0)
    (.ok (r, m.levs.map FamLev.fam, m.families) : M _)) = .ok ([[0, 2], [2], []], [some [-1, 0, -2, 0]], [(['x'], -1), (['y'], -2)]) ∧
    rearrangeFamilies { famOrphanSample with families := mset ['z'] 0 famOrphanSample.families } = .error .exn := by decide +kernel

/-- **C94.** Finding: on a mesh without family array yet, `rearrangeFamilies` removes all the groups, where it is announced to have no impact on them. -/
theorem C94_finding_rearrange_no_array :
    (do let m ← rearrangeFamilies ⟨[⟨0, 3, none⟩], [(['x'], -1)], [(['a'], [['x']])]⟩; (.ok m.groups : M _)) = .ok [] := by decide +kernel

/-! ## removeGroupAtLevel -/

theorem famsNotIn_ok (m : FamMesh) (kill : List Int) : ∀ (fams acc : List Name), (∀ f ∈ fams, ∃ i, mget f m.families = some i) →
    ∃ r, fams.foldlM (fun r f => do
      let i ← getFamilyId m f
      (.ok (if i ∈ kill then r else r ++ [f]) : M (List Name))) acc = .ok r ∧
      ∀ f, f ∈ r ↔ f ∈ acc ∨ (f ∈ fams ∧ ∃ i, mget f m.families = some i ∧ i ∉ kill) := by
  intro fams
  induction fams with
  | nil => intro acc _; exact ⟨acc, rfl, by simp⟩
  | cons f fams ih =>
    intro acc h
    obtain ⟨i, hi⟩ := h f (by simp)
    rw [List.foldlM_cons, getFamilyId_ok.mpr hi, ok_bind, ok_bind]
    obtain ⟨r, h1, h2⟩ := ih (if i ∈ kill then acc else acc ++ [f]) (fun f hf => h f (by simp [hf]))
    refine ⟨r, h1, fun x => ?_⟩
    rw [h2]
    by_cases hk : i ∈ kill
    · rw [if_pos hk]
      simp only [List.mem_cons]
      constructor
      · rintro (h3 | ⟨h3, h4⟩)
        · exact Or.inl h3
        · exact Or.inr ⟨Or.inr h3, h4⟩
      · rintro (h3 | ⟨rfl | h3, h4⟩)
        · exact Or.inl h3
        · obtain ⟨j, hj, hj2⟩ := h4
          rw [hi] at hj
          cases hj
          exact absurd hk hj2
        · exact Or.inr ⟨h3, h4⟩
    · rw [if_neg hk]
      simp only [List.mem_cons, List.mem_append, List.not_mem_nil, or_false]
      constructor
      · rintro ((h3 | rfl) | ⟨h3, h4⟩)
        · exact Or.inl h3
        · exact Or.inr ⟨Or.inl rfl, i, hi, hk⟩
        · exact Or.inr ⟨Or.inr h3, h4⟩
      · rintro (h3 | ⟨rfl | h3, h4⟩)
        · exact Or.inl (Or.inl h3)
        · exact Or.inl (Or.inr rfl)
        · exact Or.inr ⟨h3, h4⟩

/-- **C94.** `removeGroupAtLevel` at a level with a family array: the group has no entity left there, the other groups are the same everywhere, and the group is the
same at the levels that share no family of the group with this one. -/
theorem C94_remove_group_at_level (m : FamMesh) (hw : FamOK m) (rel : Int) (a : List Int) (g : Name) (ha : getFamilyFieldAtLevel m rel = .ok (some a))
    (hg : mget g m.groups ≠ none) :
    ∃ m', removeGroupAtLevel m rel g = .ok m' ∧ FamOK m' ∧ (∀ g', mget g' m'.groups = none ↔ mget g' m.groups = none) ∧
      getGroupArr m' rel g = .ok [] ∧
      (∀ g', g' ≠ g → mget g' m.groups ≠ none → ∀ rel', getGroupArr m' rel' g' = getGroupArr m rel' g') ∧
      (∀ rel' b, getFamilyFieldAtLevel m rel' = .ok (some b) → (∀ x ∈ b, GrpHas m g x → x ∉ a) → getGroupArr m' rel' g = getGroupArr m rel' g) := by
  obtain ⟨L, hL⟩ := Option.ne_none_iff_exists'.mp hg
  obtain ⟨ids, i1, i2⟩ := getFamiliesIds_ok m L (hw.ok g L hL)
  have hids : getFamiliesIdsOnGroup m g = .ok ids := by
    unfold getFamiliesIdsOnGroup getFamiliesOnGroup
    rw [hL]
    exact i1
  obtain ⟨kill, k1, _, k3⟩ := (C12_intersection [some ids, some (getDifferentValues a)]).1 (by simp)
  have hkill : ∀ x, x ∈ kill ↔ GrpHas m g x ∧ x ∈ a := by
    intro x
    rw [k3]
    simp only [List.mem_cons, List.not_mem_nil, or_false, Option.some.injEq, forall_eq_or_imp, forall_eq, (C14_different_values a).2, i2]
    unfold GrpHas
    simp [hL]
  unfold removeGroupAtLevel
  rw [hL]
  simp only [hids, ha, ok_bind]
  unfold removeGroupOnArr
  rw [k1, ok_bind]
  by_cases hk : kill = []
  · rw [if_pos hk]
    have hno : ∀ x ∈ a, ¬ GrpHas m g x := by
      intro x hx hgx
      have := (hkill x).mpr ⟨hgx, hx⟩
      rw [hk] at this
      simp at this
    refine ⟨m, rfl, hw, fun _ => Iff.rfl, ?_, fun _ _ _ _ => rfl, fun _ _ _ _ => rfl⟩
    obtain ⟨r, r1, _, r3⟩ := read_group m rel a g hw.ok ha hg
    rw [r1]
    congr 1
    rw [List.eq_nil_iff_forall_not_mem]
    intro i hi
    obtain ⟨k, _, x, hx, hgx⟩ := (r3 i).mp hi
    exact hno x (List.mem_of_getElem? hx) hgx
  · rw [if_neg hk]
    obtain ⟨fs, f1, f2⟩ := famsNotIn_ok m kill L [] (hw.ok g L hL)
    have f1' : famsNotIn m kill L = .ok fs := f1
    rw [f1', ok_bind]
    have hok : GroupsOK { m with groups := mset g fs m.groups } := by
      intro g' L' hL' f hf
      simp only [mget_mset] at hL'
      split at hL'
      · cases hL'
        rcases (f2 f).mp hf with h | ⟨h, _⟩
        · simp at h
        · exact hw.ok g L hL f h
      · exact hw.ok g' L' hL' f hf
    have hnone : ∀ g', mget g' (mset g fs m.groups) = none ↔ mget g' m.groups = none := by
      intro g'
      rw [mget_mset]
      split
      · rename_i e; subst e; simp [hL]
      · rfl
    have hgr : ∀ x, GrpHas { m with groups := mset g fs m.groups } g x ↔ GrpHas m g x ∧ x ∉ a := by
      intro x
      unfold GrpHas
      simp only [mget_mset, if_true, Option.some.injEq, exists_eq_left', hL, f2, List.not_mem_nil, false_or]
      constructor
      · rintro ⟨f, ⟨h1, i, hi, hik⟩, hx⟩
        rw [hi] at hx
        have hx := Option.some.inj hx
        subst hx
        refine ⟨⟨f, h1, hi⟩, fun hxa => hik ((hkill _).mpr ⟨⟨L, hL, f, h1, hi⟩, hxa⟩)⟩
      · rintro ⟨⟨f, h1, hx⟩, hxa⟩
        exact ⟨f, ⟨h1, x, hx, fun hc => hxa ((hkill x).mp hc).2⟩, hx⟩
    refine ⟨_, rfl, ⟨hw.kf, keysInc_mset hw.kg, hok, hw.inj, hw.levs⟩, hnone, ?_, ?_, ?_⟩
    · obtain ⟨r, r1, _, r3⟩ := read_group _ rel a g hok ha (by simp [mget_mset])
      rw [r1]
      congr 1
      rw [List.eq_nil_iff_forall_not_mem]
      intro i hi
      obtain ⟨k, _, x, hx, hgx⟩ := (r3 i).mp hi
      exact ((hgr x).mp hgx).2 (List.mem_of_getElem? hx)
    · intro g' hne hg' rel'
      refine same_group_levs hw.ok hok rfl hg' (fun hc => hg' ((hnone g').mp hc)) ?_ rel'
      intro _ _ _ _ x _
      unfold GrpHas
      simp only [mget_mset, if_neg hne]
    · intro rel' b hb hdis
      obtain ⟨r, r1, r2, r3⟩ := read_group m rel' b g hw.ok hb hg
      obtain ⟨r', r1', r2', r3'⟩ := read_group _ rel' b g hok hb (by simp [mget_mset])
      rw [r1, r1']
      congr 1
      apply StrictSorted.ext r2' r2
      intro i
      rw [r3, r3']
      constructor
      · rintro ⟨k, rfl, x, hx, hgx⟩
        exact ⟨k, rfl, x, hx, ((hgr x).mp hgx).1⟩
      · rintro ⟨k, rfl, x, hx, hgx⟩
        exact ⟨k, rfl, x, hx, (hgr x).mpr ⟨hgx, hdis x (List.mem_of_getElem? hx) hgx⟩⟩

example : (do
    let m ← removeGroupAtLevel famWFSample 0 ['b']
    let r ← [0, 1].mapM fun (rel : Int) => [['a'], ['b']].mapM (getGroupArr m rel)
    (.ok r : M _)) = .ok [[[0, 2, 3], []], [[], [1, 2]]] := by decide +kernel

/-- **C94.** Finding: when a family of the group is also used at another level the group loses its entities there: removed on the cells, the
group has no node any more. -/
theorem C94_finding_remove_at_level :
    (do
      let m : FamMesh := ⟨[⟨1, 2, some [-1, 0]⟩, ⟨0, 2, some [-1, -1]⟩], [(['x'], -1)], [(['a'], [['x']])]⟩
      let r ← getGroupArr m 1 ['a']
      let m' ← removeGroupAtLevel m 0 ['a']
      let r' ← getGroupArr m' 1 ['a']
      (.ok (r, r') : M _)) = .ok ([0], []) := by decide +kernel

/-! ## createGroupOnAll -/

theorem createFams (L : List Int) : ∀ (st : List Name × List (Name × Int)), KeysInc st.2 → IdsInj st.2 →
    ∃ r, L.foldlM (fun (st : List Name × List (Name × Int)) i => do
        let q ← findOrCreateFamily st.2 i
        (.ok (st.1 ++ [q.1], q.2) : M _)) st = .ok r ∧ KeysInc r.2 ∧ IdsInj r.2 ∧
      (∀ f j, mget f st.2 = some j → mget f r.2 = some j) ∧
      ∃ new, r.1 = st.1 ++ new ∧ (∀ f ∈ new, ∃ i ∈ L, mget f r.2 = some i) ∧ ∀ i ∈ L, ∃ f ∈ new, mget f r.2 = some i := by
  induction L with
  | nil => intro st h1 h2; exact ⟨st, rfl, h1, h2, fun _ _ h => h, [], by simp⟩
  | cons i L ih =>
    intro st h1 h2
    obtain ⟨n, fam', e1, e2⟩ := findOrCreate_ext st.2 h1 h2 i
    rw [List.foldlM_cons, e1, ok_bind, ok_bind]
    obtain ⟨r, r1, r2, r3, r4, new, r5, r6, r7⟩ := ih (st.1 ++ [n], fam') e2.keys e2.inj
    refine ⟨r, r1, r2, r3, fun f j h => r4 f j (e2.mono f j h), n :: new, by rw [r5]; simp, ?_, ?_⟩
    · intro f hf
      rcases List.mem_cons.mp hf with rfl | hf
      · exact ⟨i, by simp, r4 _ _ e2.got⟩
      · obtain ⟨j, hj, h⟩ := r6 f hf
        exact ⟨j, by simp [hj], h⟩
    · intro j hj
      rcases List.mem_cons.mp hj with rfl | hj
      · exact ⟨n, by simp, r4 _ _ e2.got⟩
      · obtain ⟨f, hf, h⟩ := r7 j hj
        exact ⟨f, by simp [hf], h⟩

/-- **C94.** `createGroupOnAll`: the new group has all the entities of the level; the other groups are the same at all levels; an unknown level, an
existing group and a level without array are refused. -/
theorem C94_create_group_on_all (m : FamMesh) (hw : FamOK m) (rel : Int) (g : Name) :
    ((∀ a, getFamilyFieldAtLevel m rel ≠ .ok (some a)) ∨ mget g m.groups ≠ none → createGroupOnAll m rel g = .error .exn) ∧
    (∀ a, getFamilyFieldAtLevel m rel = .ok (some a) → mget g m.groups = none → ∃ m', createGroupOnAll m rel g = .ok m' ∧ FamOK m' ∧
      getGroupArr m' rel g = .ok ((List.range a.length).map fun (k : Nat) => (k : Int)) ∧
      ∀ g', mget g' m.groups ≠ none → ∀ rel', getGroupArr m' rel' g' = getGroupArr m rel' g') := by
  constructor
  · intro h
    unfold createGroupOnAll
    cases hl : famLev m rel with
    | none => rfl
    | some l =>
      cases hg : mget g m.groups with
      | some L => rfl
      | none =>
        simp only
        cases hla : l.fam with
        | none => rfl
        | some a =>
          rcases h with h | h
          · exact absurd (by rw [field_eq hl, hla]) (h a)
          · exact absurd hg h
  · intro a ha hg
    obtain ⟨l, hl, hla⟩ := field_some ha
    unfold createGroupOnAll
    rw [hl, hg]
    simp only [hla]
    obtain ⟨r, r1, r2, r3, r4, new, r5, r6, r7⟩ := createFams (getDifferentValues a) ([], m.families) hw.kf hw.inj
    rw [r1, ok_bind]
    simp only [List.nil_append] at r5
    have hdiff := (C14_different_values a).2
    have hok : GroupsOK { m with families := r.2, groups := mset g r.1 m.groups } := by
      intro g' L hL f hf
      simp only [mget_mset] at hL
      split at hL
      · cases hL
        rw [r5] at hf
        obtain ⟨i, _, hi⟩ := r6 f hf
        exact ⟨i, hi⟩
      · obtain ⟨i, hi⟩ := hw.ok g' L hL f hf
        exact ⟨i, r4 f i hi⟩
    refine ⟨_, rfl, ⟨r2, keysInc_mset hw.kg, hok, r3, hw.levs⟩, ?_, ?_⟩
    · obtain ⟨A, a1, a2, a3⟩ := read_group _ rel a g hok ha (by simp [mget_mset])
      rw [a1]
      congr 1
      apply StrictSorted.ext a2
      · unfold StrictSorted
        rw [List.pairwise_map]
        exact List.pairwise_lt_range.imp fun h => by omega
      · intro i
        rw [a3]
        simp only [List.mem_map, List.mem_range]
        constructor
        · rintro ⟨k, rfl, x, hx, _⟩
          exact ⟨k, (List.getElem?_eq_some_iff.mp hx).1, rfl⟩
        · rintro ⟨k, hk, rfl⟩
          refine ⟨k, rfl, a[k], by simp, ?_⟩
          obtain ⟨f, hf, hfx⟩ := r7 a[k] ((hdiff _).mpr (by simp))
          exact ⟨r.1, by simp [mget_mset], f, by rw [r5]; exact hf, hfx⟩
    · intro g' hg' rel'
      have hne : g' ≠ g := fun e => hg' (e ▸ hg)
      refine same_group_levs hw.ok hok rfl hg' (by simpa [mget_mset, hne] using hg') ?_ rel'
      intro _ _ _ _ x _
      unfold GrpHas
      simp only [mget_mset, if_neg hne]
      constructor
      · rintro ⟨L, hL, f, hf, hx⟩
        obtain ⟨i, hi⟩ := hw.ok g' L hL f hf
        rw [r4 f i hi] at hx
        cases hx
        exact ⟨L, hL, f, hf, hi⟩
      · rintro ⟨L, hL, f, hf, hx⟩
        exact ⟨L, hL, f, hf, r4 f x hx⟩

example : (do
    let m ← createGroupOnAll famWFSample 0 ['n']
    let r ← [['a'], ['b'], ['n']].mapM (getGroupArr m 0)
    (.ok r : M _)) = .ok [[0, 2, 3], [2], [0, 1, 2, 3, 4]] ∧ createGroupOnAll famWFSample (-1) ['n'] = .error .exn ∧
    createGroupOnAll famWFSample 0 ['a'] = .error .exn := by decide +kernel

end MC
