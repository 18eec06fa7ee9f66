import Verif.FamSet
import Verif.FamEditName
import Verif.PartitionProps

/-!
# Families and groups of a MED file mesh: groups set all at once (C95)
-/

namespace MC

/-- Two groups of two meshes have the same entities at a level whose ids are changed by `R` when the ids of one are changed
into those of the other. -/
theorem same_group_at (R : Int → Int) {m m' : FamMesh} {rel : Int}
    (hf : getFamilyFieldAtLevel m' rel = (getFamilyFieldAtLevel m rel).map (Option.map (List.map R))) (h1 : GroupsOK m) (h2 : GroupsOK m') {g g' : Name}
    (hg : mget g m.groups ≠ none) (hg' : mget g' m'.groups ≠ none)
    (h : ∀ a, getFamilyFieldAtLevel m rel = .ok (some a) → ∀ x ∈ a, GrpHas m' g' (R x) ↔ GrpHas m g x) :
    getGroupArr m' rel g' = getGroupArr m rel g := by
  cases ha : getFamilyFieldAtLevel m rel with
  | error e =>
    rw [ha] at hf
    rw [read_error m rel g e h1 ha hg, read_error m' rel g' e h2 hf hg']
  | ok o =>
    rw [ha] at hf
    cases o with
    | none => rw [read_none m rel g h1 ha hg, read_none m' rel g' h2 hf hg']
    | some a =>
      obtain ⟨A, r1, r2, r3⟩ := read_group m rel a g h1 ha hg
      obtain ⟨A', s1, s2, s3⟩ := read_group m' rel (a.map R) g' h2 hf hg'
      rw [r1, s1]
      congr 1
      apply StrictSorted.ext s2 r2
      intro i
      rw [s3, r3]
      constructor
      · rintro ⟨k, rfl, x, hx, hgx⟩
        rw [List.getElem?_map] at hx
        obtain ⟨y, hy, rfl⟩ := Option.map_eq_some_iff.mp hx
        exact ⟨k, rfl, y, hy, (h a ha y (List.mem_of_getElem? hy)).mp hgx⟩
      · rintro ⟨k, rfl, x, hx, hgx⟩
        exact ⟨k, rfl, R x, by rw [List.getElem?_map, hx]; rfl, (h a ha x (List.mem_of_getElem? hx)).mpr hgx⟩

theorem same_group_field {m m' : FamMesh} {rel : Int} (hf : getFamilyFieldAtLevel m' rel = getFamilyFieldAtLevel m rel) (h1 : GroupsOK m) (h2 : GroupsOK m')
    {g g' : Name} (hg : mget g m.groups ≠ none) (hg' : mget g' m'.groups ≠ none)
    (h : ∀ a, getFamilyFieldAtLevel m rel = .ok (some a) → ∀ x ∈ a, GrpHas m' g' x ↔ GrpHas m g x) :
    getGroupArr m' rel g' = getGroupArr m rel g := by
  refine same_group_at id ?_ h1 h2 hg hg' h
  rw [hf]
  cases getFamilyFieldAtLevel m rel with
  | error e => rfl
  | ok o => cases o <;> simp [Except.map]

theorem read_empty {m : FamMesh} {rel : Int} {a : List Int} {g : Name} (h : GroupsOK m) (ha : getFamilyFieldAtLevel m rel = .ok (some a))
    (hg : mget g m.groups ≠ none) (hn : ∀ x ∈ a, ¬ GrpHas m g x) : getGroupArr m rel g = .ok [] := by
  obtain ⟨r, r1, _, r3⟩ := read_group m rel a g h ha hg
  rw [r1]
  congr 1
  rw [List.eq_nil_iff_forall_not_mem]
  intro i hi
  obtain ⟨k, _, x, hx, hgx⟩ := (r3 i).mp hi
  exact hn x (List.mem_of_getElem? hx) hgx

/-! ## The names of the families -/

theorem familyName_inj {i j : Int} (h : familyName i = familyName j) : i = j := by
  unfold familyName at h
  have h := List.append_cancel_left h
  have dig : ∀ n n' : Nat, Nat.toDigits 10 n = Nat.toDigits 10 n' → n = n' := by
    intro n n' e
    rw [← Nat.ofDigitChars_toDigits (b := 10) (n := n) (by omega) (by omega), e, Nat.ofDigitChars_toDigits (by omega) (by omega)]
  have nod : ∀ n n' : Nat, '-' :: Nat.toDigits 10 n ≠ Nat.toDigits 10 n' := by
    intro n n' e
    have : '-' ∈ Nat.toDigits 10 n' := by rw [← e]; simp
    have := Nat.isDigit_of_mem_toDigits (by omega) (by omega) this
    simp at this
  split at h <;> split at h
  · have := dig _ _ (List.cons.inj h).2; omega
  · exact absurd h (nod _ _)
  · exact absurd h.symm (nod _ _)
  · have := dig _ _ h; omega

theorem putFamilies (ids : List Int) : ∀ (fs : List (Name × Int)), KeysInc fs → KeysInc (ids.foldl (fun fs i => mset (familyName i) i fs) fs) ∧
    (∀ i ∈ ids, mget (familyName i) (ids.foldl (fun fs i => mset (familyName i) i fs) fs) = some i) ∧
    ∀ f, (∀ i ∈ ids, f ≠ familyName i) → mget f (ids.foldl (fun fs i => mset (familyName i) i fs) fs) = mget f fs := by
  induction ids with
  | nil => intro fs h; exact ⟨h, by simp, by simp⟩
  | cons j ids ih =>
    intro fs h
    rw [List.foldl_cons]
    obtain ⟨h1, h2, h3⟩ := ih (mset (familyName j) j fs) (keysInc_mset h)
    refine ⟨h1, ?_, ?_⟩
    · intro i hi
      by_cases hin : i ∈ ids
      · exact h2 i hin
      · rcases List.mem_cons.mp hi with rfl | hi
        · rw [h3 _ (fun k hk e => hin (by rw [familyName_inj e]; exact hk)), mget_mset, if_pos rfl]
        · exact absurd hi hin
    · intro f hf
      rw [h3 f (fun i hi => hf i (by simp [hi])), mget_mset, if_neg (hf j (by simp))]

theorem pushGroup (nm : Int → Name) (n : Name) (fs : List Int) : ∀ (gr : List (Name × List Name)), KeysInc gr →
    KeysInc (fs.foldl (fun gr i => mset n ((mget n gr).getD [] ++ [nm i]) gr) gr) ∧
    ∀ g, mget g (fs.foldl (fun gr i => mset n ((mget n gr).getD [] ++ [nm i]) gr) gr) =
      if g = n ∧ fs ≠ [] then some ((mget n gr).getD [] ++ fs.map nm) else mget g gr := by
  induction fs with
  | nil => intro gr h; exact ⟨h, by simp⟩
  | cons x fs ih =>
    intro gr h
    rw [List.foldl_cons]
    obtain ⟨h1, h2⟩ := ih _ (keysInc_mset (k := n) (v := (mget n gr).getD [] ++ [nm x]) h)
    refine ⟨h1, fun g => ?_⟩
    rw [h2]
    simp only [mget_mset, if_true]
    by_cases e : g = n
    · subst e
      cases fs <;> simp
    · simp [e]

theorem pushGroups (nm : Int → Name) (Z : List (List Int × Name)) : ∀ (gr : List (Name × List Name)), KeysInc gr → (Z.map (·.2)).Nodup →
    KeysInc (Z.foldl (fun gr p => p.1.foldl (fun gr i => mset p.2 ((mget p.2 gr).getD [] ++ [nm i]) gr) gr) gr) ∧
    (∀ p ∈ Z, p.1 ≠ [] → mget p.2 (Z.foldl (fun gr p => p.1.foldl (fun gr i => mset p.2 ((mget p.2 gr).getD [] ++ [nm i]) gr) gr) gr) =
      some ((mget p.2 gr).getD [] ++ p.1.map nm)) ∧
    ∀ g, (∀ p ∈ Z, p.2 = g → p.1 = []) →
      mget g (Z.foldl (fun gr p => p.1.foldl (fun gr i => mset p.2 ((mget p.2 gr).getD [] ++ [nm i]) gr) gr) gr) = mget g gr := by
  induction Z with
  | nil => intro gr h _; exact ⟨h, by simp, by simp⟩
  | cons q Z ih =>
    intro gr h hn
    rw [List.map_cons, List.nodup_cons] at hn
    obtain ⟨k1, k2⟩ := pushGroup nm q.2 q.1 gr h
    rw [List.foldl_cons]
    obtain ⟨h1, h2, h3⟩ := ih _ k1 hn.2
    have hne : ∀ p ∈ Z, p.2 ≠ q.2 := fun p hp e => hn.1 (e ▸ List.mem_map.mpr ⟨p, hp, rfl⟩)
    refine ⟨h1, ?_, ?_⟩
    · intro p hp hp1
      rcases List.mem_cons.mp hp with rfl | hp
      · rw [h3 p.2 (fun r hr e => absurd e (hne r hr)), k2, if_pos ⟨rfl, hp1⟩]
      · rw [h2 p hp hp1, k2, if_neg (fun hc => hne p hp hc.1)]
    · intro g hg
      rw [h3 g (fun p hp e => hg p (by simp [hp]) e), k2]
      rw [if_neg]
      rintro ⟨e, e'⟩
      exact e' (hg q (by simp) e.symm)

/-! ## The partition -/

theorem mapM_mem {α β : Type} {f : α → M β} : ∀ {l : List α} {r : List β}, l.mapM f = .ok r → ∀ y ∈ r, ∃ x ∈ l, f x = .ok y := by
  intro l
  induction l with
  | nil =>
    intro r h y hy
    rw [List.mapM_nil] at h
    cases h
    simp at hy
  | cons a l ih =>
    intro r h y hy
    rw [List.mapM_cons] at h
    cases h1 : f a with
    | error e => rw [h1] at h; cases h
    | ok b =>
    rw [h1, ok_bind] at h
    cases h2 : l.mapM f with
    | error e => rw [h2] at h; cases h
    | ok r' =>
    rw [h2, ok_bind] at h
    cases h
    rcases List.mem_cons.mp hy with rfl | hy
    · exact ⟨a, by simp, h1⟩
    · obtain ⟨x, hx, e⟩ := ih h2 y hy
      exact ⟨x, by simp [hx], e⟩

theorem partition_fids_mem {groups : List (Option (List Int))} {n : Nat} {fam : List Int} {fids : List (List Int)}
    (h : makePartition groups n = .ok (fam, fids)) : ∀ fs ∈ fids, ∀ v ∈ fs, v ∈ fam := by
  unfold makePartition at h
  cases hs : signatures n (groups.filterMap id) with
  | error e => rw [hs] at h; cases h
  | ok sig =>
    rw [hs, ok_bind] at h
    simp only at h
    set ret := (sig.foldl partitionStep ([], 1, [])).2.2 with hret
    cases hm : (groups.filterMap id).mapM (fidsOfGroup ret) with
    | error e => rw [hm] at h; cases h
    | ok l =>
      rw [hm, ok_bind] at h
      simp only [Except.ok.injEq, Prod.mk.injEq] at h
      obtain ⟨h, rfl⟩ := h
      rw [← h]
      intro fs hfs v hv
      obtain ⟨g, _, hg⟩ := mapM_mem hm fs hfs
      unfold fidsOfGroup at hg
      cases hr : g.mapM (fun p => rd ret p) with
      | error e => rw [hr] at hg; cases hg
      | ok l =>
        rw [hr, ok_bind] at hg
        cases hg
        rcases mem_setInsertAll.mp hv with h0 | h0
        · simp at h0
        · obtain ⟨x, _, hx⟩ := mapM_mem hr v h0
          unfold rd at hx
          split at hx
          · split at hx
            · rename_i hx'
              cases hx
              exact List.mem_of_getElem? hx'
            · cases hx
          · cases hx

theorem translate_inj {off x y : Int} (h : translateFamId off x = translateFamId off y) : x = y := by
  unfold translateFamId at h
  split at h <;> omega

theorem translate_big {off x mx : Int} (h0 : 0 ≤ mx) (hoff : off = mx + 1 ∨ off = -(mx + 1)) (hx : 1 ≤ x) : mx < |translateFamId off x| := by
  unfold translateFamId
  rcases hoff with rfl | rfl
  · rw [if_pos (by omega), lt_abs]; omega
  · rw [if_neg (by omega), lt_abs]; omega

theorem field_putFam (m : FamMesh) (rel rel' : Int) (c : List Int) (h : rel' ≠ rel) :
    getFamilyFieldAtLevel (putFam m rel c) rel' = getFamilyFieldAtLevel m rel' := by
  unfold getFamilyFieldAtLevel
  rw [famLev_putFam, if_neg h]

theorem rels_putFam (m : FamMesh) (rel : Int) (c : List Int) : (putFam m rel c).levs.map (·.rel) = m.levs.map (·.rel) := by
  simp only [putFam, List.map_map]
  apply List.map_congr_left
  intro l _
  simp only [Function.comp_apply]
  split <;> rfl

/-- The largest absolute value of the ids of the families, 0 when there are none. -/
theorem familyOffset_ok (m : FamMesh) : ∃ mx : Int, 0 ≤ mx ∧ familyOffset m = .ok (mx + 1) ∧ ∀ f i, mget f m.families = some i → |i| ≤ mx := by
  unfold familyOffset
  by_cases h : m.families = []
  · rw [if_pos h]
    refine ⟨0, le_refl _, rfl, ?_⟩
    intro f i hf
    rw [h] at hf
    simp [mget] at hf
  · rw [if_neg h]
    obtain ⟨h1, h2⟩ := foldl_maxabs_ge m.families (-mcIdMax)
    refine ⟨m.families.foldl (fun r p => max |p.2| r) (-mcIdMax), ?_, ?_, ?_⟩
    · obtain ⟨p, hp⟩ := List.exists_mem_of_ne_nil _ h
      exact le_trans (abs_nonneg _) (h2 p hp)
    · unfold getMaxAbsFamilyId
      rw [if_neg h, ok_bind]
    · intro f i hf
      exact h2 (f, i) (mget_mem hf)

theorem zip_forall₂ {α β γ : Type} {R : α → β → Prop} (n : γ → α) : ∀ {l : List γ} {r : List β}, List.Forall₂ R (l.map n) r →
    (∀ c ∈ l, ∃ b, (b, c) ∈ List.zip r l ∧ R (n c) b) ∧ (∀ p ∈ List.zip r l, R (n p.2) p.1 ∧ p.2 ∈ l) ∧ (List.zip r l).map (·.2) = l := by
  intro l
  induction l with
  | nil => intro r h; cases h; simp
  | cons a l ih =>
    intro r h
    rw [List.map_cons] at h
    cases h with
    | cons h1 h2 =>
      rename_i b r
      obtain ⟨i1, i2, i3⟩ := ih h2
      refine ⟨?_, ?_, ?_⟩
      · intro c hc
        rcases List.mem_cons.mp hc with rfl | hc
        · exact ⟨b, by simp, h1⟩
        · obtain ⟨b', hb, hr⟩ := i1 c hc
          exact ⟨b', by simp [hb], hr⟩
      · intro p hp
        rw [List.zip_cons_cons] at hp
        rcases List.mem_cons.mp hp with rfl | hp
        · exact ⟨h1, by simp⟩
        · exact ⟨(i2 p hp).1, by simp [(i2 p hp).2]⟩
      · simpa using i3

/-- **C95.** `setGroupsAtLevel` on a mesh where a family named after an id (`Family_3`) has an id at least as large: each group given
has at the level exactly the entities given, all the other groups of the mesh have none there any more, and nothing changes at the
other levels. -/
theorem C95_set_groups (m : FamMesh) (hw : FamWF m) (rel : Int) (l : FamLev) (hl : famLev m rel = some l) (grps : List (Name × List Int))
    (hne : grps ≠ []) (hnd : (grps.map Prod.fst).Nodup) (hnn : ∀ p ∈ grps, p.1 ≠ []) (hin : ∀ p ∈ grps, ∀ i ∈ p.2, 0 ≤ i ∧ i < l.size)
    (hfree : ∀ k : Int, mget (familyName k) m.families ≠ none → ∃ f i, mget f m.families = some i ∧ |k| ≤ |i|) :
    ∃ m', setGroupsAtLevel m rel grps = .ok m' ∧ FamWF m' ∧
      (∀ p ∈ grps, p.2 ≠ [] → ∃ r, getGroupArr m' rel p.1 = .ok r ∧ StrictSorted r ∧ ∀ i, i ∈ r ↔ i ∈ p.2) ∧
      (∀ g, mget g m.groups ≠ none → (∀ p ∈ grps, p.1 = g → p.2 = []) → getGroupArr m' rel g = .ok []) ∧
      (∀ rel' g, rel' ≠ rel → mget g m.groups ≠ none → getGroupArr m' rel' g = getGroupArr m rel' g) ∧
      (∀ rel' b, ∀ p ∈ grps, rel' ≠ rel → getFamilyFieldAtLevel m rel' = .ok (some b) → p.2 ≠ [] → mget p.1 m.groups = none →
        getGroupArr m' rel' p.1 = .ok []) ∧
      (∀ g, mget g m'.groups ≠ none ↔ mget g m.groups ≠ none ∨ ∃ p ∈ grps, p.1 = g ∧ p.2 ≠ []) := by
  obtain ⟨hlm, hlr⟩ := famLev_mem hl
  obtain ⟨mx, hmx0, hoff, hmx⟩ := familyOffset_ok m
  have hfm : (grps.map fun p => some p.2).filterMap id = grps.map Prod.snd := by
    rw [List.filterMap_map]
    exact congrFun (List.filterMap_eq_map (f := Prod.snd)) grps
  obtain ⟨fam, fids, hp, hlen, _, hF, mm, hmm⟩ := (C21_partition (grps.map fun p => some p.2) l.size).1 (by
    intro g hg v hv
    obtain ⟨p, hp, e⟩ := List.mem_map.mp hg
    cases e
    exact hin p hp v hv)
  rw [hfm] at hF
  have hfv := partition_fids_mem hp
  obtain ⟨off, hoffe⟩ : ∃ off, off = if rel = 1 then mx + 1 else -(mx + 1) := ⟨_, rfl⟩
  have hoffs : off = mx + 1 ∨ off = -(mx + 1) := by rw [hoffe]; split <;> simp
  obtain ⟨T, hT⟩ : ∃ T, T = translateFamId off := ⟨_, rfl⟩
  have hTinj : ∀ x y, T x = T y → x = y := fun x y e => translate_inj (off := off) (by rw [← hT]; exact e)
  have hTbig : ∀ x ∈ fam, mx < |T x| := fun x hx => hT ▸ translate_big hmx0 hoffs ((hmm x).mp hx).1
  have hdv : ∀ y, y ∈ getDifferentValues (fam.map T) ↔ ∃ x ∈ fam, T x = y := by
    intro y
    rw [(C14_different_values _).2, List.mem_map]
  obtain ⟨D, hD⟩ : ∃ D, D = getDifferentValues (fam.map T) := ⟨_, rfl⟩
  rw [← hD] at hdv
  obtain ⟨z1, z2, z3⟩ := zip_forall₂ Prod.snd hF
  obtain ⟨nm, hnm⟩ : ∃ nm : Int → Name, nm = fun i => if i ∈ D then familyName i else [] := ⟨_, rfl⟩
  obtain ⟨f1, f2, f3⟩ := putFamilies D m.families hw.kf
  -- the groups
  obtain ⟨Z, hZ⟩ : ∃ Z, Z = List.zip (fids.map (List.map T)) (grps.map Prod.fst) := ⟨_, rfl⟩
  have hZe : Z = (List.zip fids grps).map fun p => (p.1.map T, p.2.1) := by
    rw [hZ, List.zip_map]
    rfl
  have hZn : (Z.map (·.2)) = grps.map Prod.fst := by
    rw [hZe, List.map_map]
    conv => rhs; rw [← z3]
    rw [List.map_map]
    rfl
  obtain ⟨g1, g2, g3⟩ := pushGroups nm Z m.groups hw.kg (hZn ▸ hnd)
  obtain ⟨m', hm'⟩ : ∃ m', m' = putFam (appendFamilyEntries m D (fids.map (List.map T)) (grps.map Prod.fst)) rel (fam.map T) := ⟨_, rfl⟩
  have hmf : m'.families = D.foldl (fun fs i => mset (familyName i) i fs) m.families := by rw [hm']; rfl
  have hmg : m'.groups = Z.foldl (fun gr p => p.1.foldl (fun gr i => mset p.2 ((mget p.2 gr).getD [] ++ [nm i]) gr) gr) m.groups := by
    rw [hm', hZ, hnm]; rfl
  rw [← hmf] at f1 f2 f3
  rw [← hmg] at g1 g2 g3
  have hrun : setGroupsAtLevel m rel grps = .ok m' := by
    unfold setGroupsAtLevel
    rw [if_neg hne, if_neg (by simpa using hnd), if_neg (by
      intro h
      obtain ⟨p, hp, e⟩ := List.mem_map.mp h
      exact hnn p hp e), hl]
    simp only
    rw [hp, ok_bind, hoff, ok_bind, ← hoffe]
    unfold setGroupsCore setFamilyFieldArr
    rw [← hT, ← hD]
    have : famLev (appendFamilyEntries m D (fids.map (List.map T)) (grps.map Prod.fst)) rel = some l := hl
    rw [this]
    simp only
    rw [if_neg (by simp [hlen]), hm']
    rfl
  -- old names
  have hold : ∀ f i, mget f m.families = some i → mget f m'.families = some i := by
    intro f i hf
    rw [f3 f, hf]
    rintro k hk rfl
    obtain ⟨x, hx, rfl⟩ := (hdv k).mp hk
    obtain ⟨f', i', hf', hle⟩ := hfree _ (by rw [hf]; simp)
    have := hmx f' i' hf'
    have := hTbig x hx
    omega
  have hnew : ∀ x ∈ fam, mget (familyName (T x)) m'.families = some (T x) := fun x hx => f2 _ ((hdv _).mpr ⟨x, hx, rfl⟩)
  have hcase : ∀ f i, mget f m'.families = some i → mget f m.families = some i ∨ ∃ x ∈ fam, f = familyName (T x) ∧ i = T x := by
    intro f i hf
    by_cases h : ∃ x ∈ fam, f = familyName (T x)
    · obtain ⟨x, hx, rfl⟩ := h
      rw [hnew x hx] at hf
      cases hf
      exact Or.inr ⟨x, hx, rfl, rfl⟩
    · left
      rw [f3 f] at hf
      · exact hf
      · rintro k hk rfl
        obtain ⟨x, hx, rfl⟩ := (hdv k).mp hk
        exact h ⟨x, hx, rfl⟩
  have hnmT : ∀ x ∈ fam, nm (T x) = familyName (T x) := by
    intro x hx
    rw [hnm]
    simp only
    rw [if_pos ((hdv _).mpr ⟨x, hx, rfl⟩)]
  -- families of the pieces
  have hpiece : ∀ p ∈ grps, ∃ fs : List Int, (∀ v ∈ fs, v ∈ fam) ∧ (∀ e : Nat, e < l.size → ((e : Int) ∈ p.2 ↔ ∃ v ∈ fs, fam[e]? = some v)) ∧
      (p.2 = [] ↔ fs = []) ∧ (fs.map T, p.1) ∈ Z := by
    intro p hp'
    obtain ⟨fs, hfs, _, hfs2⟩ := z1 p hp'
    have hfv' := hfv fs (List.of_mem_zip hfs).1
    refine ⟨fs, hfv', hfs2, ?_, ?_⟩
    · constructor
      · intro e
        rw [List.eq_nil_iff_forall_not_mem]
        intro v hv
        obtain ⟨k, hk, hkv⟩ := List.mem_iff_getElem.mp (hfv' v hv)
        have := (hfs2 k (by omega)).mpr ⟨v, hv, by rw [List.getElem?_eq_getElem hk, hkv]⟩
        rw [e] at this
        simp at this
      · intro e
        rw [List.eq_nil_iff_forall_not_mem]
        intro i hi
        obtain ⟨h0, h1⟩ := hin p hp' i hi
        obtain ⟨v, hv, _⟩ := (hfs2 i.toNat (by omega)).mp (by rw [Int.toNat_of_nonneg h0]; exact hi)
        rw [e] at hv
        simp at hv
    · rw [hZe]
      exact List.mem_map.mpr ⟨(fs, p), hfs, rfl⟩
  have hZback : ∀ q ∈ Z, ∃ p ∈ grps, ∃ fs : List Int, q = (fs.map T, p.1) ∧ (∀ v ∈ fs, v ∈ fam) ∧ (p.2 = [] ↔ fs = []) := by
    intro q hq
    have hq0 := hq
    rw [hZe] at hq
    obtain ⟨⟨fs, p⟩, hqz, rfl⟩ := List.mem_map.mp hq
    have hp' := (z2 _ hqz).2
    obtain ⟨fs', h1, _, h3, h4⟩ := hpiece p hp'
    have hnd' : (Z.map (·.2)).Nodup := hZn ▸ hnd
    have : (fs.map T, p.1) = (fs'.map T, p.1) := List.inj_on_of_nodup_map hnd' hq0 h4 rfl
    have hfs : fs = fs' := by
      have := (Prod.mk.inj this).1
      exact List.map_injective_iff.mpr (fun x y e => hTinj x y e) this
    subst hfs
    exact ⟨p, hp', fs, rfl, h1, h3⟩
  have hgin : ∀ p ∈ grps, p.2 ≠ [] → ∃ fs : List Int, (∀ v ∈ fs, v ∈ fam) ∧ (∀ e : Nat, e < l.size → ((e : Int) ∈ p.2 ↔ ∃ v ∈ fs, fam[e]? = some v)) ∧
      mget p.1 m'.groups = some ((mget p.1 m.groups).getD [] ++ fs.map fun v => familyName (T v)) := by
    intro p hp' hp2
    obtain ⟨fs, h1, h2, h3, h4⟩ := hpiece p hp'
    refine ⟨fs, h1, h2, ?_⟩
    rw [g2 _ h4 (by simp only [ne_eq, List.map_eq_nil_iff]; exact fun e => hp2 (h3.mpr e)), List.map_map]
    congr 2
    apply List.map_congr_left
    intro v hv
    exact hnmT v (h1 v hv)
  have hgout : ∀ g, (∀ p ∈ grps, p.1 = g → p.2 = []) → mget g m'.groups = mget g m.groups := by
    intro g hg
    apply g3
    intro q hq e
    obtain ⟨p, hp', fs, rfl, _, h3⟩ := hZback q hq
    simp only at e
    rw [h3.mp (hg p hp' e)]
    rfl
  -- the groups of m'
  have hok : GroupsOK m' := by
    intro g fams hgf f hf
    by_cases hc : ∀ p ∈ grps, p.1 = g → p.2 = []
    · rw [hgout g hc] at hgf
      obtain ⟨i, hi⟩ := hw.ok g fams hgf f hf
      exact ⟨i, hold f i hi⟩
    · push Not at hc
      obtain ⟨p, hp', rfl, hp2⟩ := hc
      obtain ⟨fs, h1, _, h3⟩ := hgin p hp' hp2
      rw [h3] at hgf
      cases hgf
      rcases List.mem_append.mp hf with hf | hf
      · cases ho : mget p.1 m.groups with
        | none => rw [ho] at hf; simp at hf
        | some fams =>
          rw [ho] at hf
          obtain ⟨i, hi⟩ := hw.ok _ fams ho f hf
          exact ⟨i, hold f i hi⟩
      · obtain ⟨v, hv, rfl⟩ := List.mem_map.mp hf
        exact ⟨_, hnew v (h1 v hv)⟩
  have hasOld : ∀ g x, mget g m.groups ≠ none → |x| ≤ mx → (GrpHas m' g x ↔ GrpHas m g x) := by
    intro g x hg hx
    obtain ⟨fams, ho⟩ := Option.ne_none_iff_exists'.mp hg
    have key : ∀ f ∈ fams, (mget f m'.families = some x ↔ mget f m.families = some x) := by
      intro f hf
      obtain ⟨i, hi⟩ := hw.ok g fams ho f hf
      rw [hold f i hi, hi]
    by_cases hc : ∀ p ∈ grps, p.1 = g → p.2 = []
    · unfold GrpHas
      rw [hgout g hc, ho]
      constructor
      · rintro ⟨_, e, f, hf, h⟩; cases e; exact ⟨_, rfl, f, hf, (key f hf).mp h⟩
      · rintro ⟨_, e, f, hf, h⟩; cases e; exact ⟨_, rfl, f, hf, (key f hf).mpr h⟩
    · push Not at hc
      obtain ⟨p, hp', rfl, hp2⟩ := hc
      obtain ⟨fs, h1, _, h3⟩ := hgin p hp' hp2
      unfold GrpHas
      rw [h3, ho]
      constructor
      · rintro ⟨_, e, f, hf, h⟩
        cases e
        rcases List.mem_append.mp hf with hf | hf
        · exact ⟨_, rfl, f, hf, (key f hf).mp h⟩
        · obtain ⟨v, hv, rfl⟩ := List.mem_map.mp hf
          rw [hnew v (h1 v hv)] at h
          cases h
          have := hTbig v (h1 v hv)
          omega
      · rintro ⟨_, e, f, hf, h⟩
        cases e
        exact ⟨_, rfl, f, List.mem_append_left _ hf, (key f hf).mpr h⟩
  have oldNot : ∀ g x, x ∈ fam → ¬ GrpHas m g (T x) := by
    rintro g x hx ⟨fams, _, f, _, h⟩
    have := hmx f _ h
    have := hTbig x hx
    omega
  have hlev : famLev m' rel = some { l with fam := some (fam.map T) } := by
    rw [hm', famLev_putFam, if_pos rfl]
    have : famLev (appendFamilyEntries m D (fids.map (List.map T)) (grps.map Prod.fst)) rel = some l := hl
    rw [this]; rfl
  have hfield : getFamilyFieldAtLevel m' rel = .ok (some (fam.map T)) := field_eq hlev
  have hfield' : ∀ rel', rel' ≠ rel → getFamilyFieldAtLevel m' rel' = getFamilyFieldAtLevel m rel' := by
    intro rel' h
    rw [hm', field_putFam _ _ _ _ h]
    rfl
  have hsmall : ∀ rel' b, getFamilyFieldAtLevel m rel' = .ok (some b) → ∀ x ∈ b, |x| ≤ mx := by
    intro rel' b hb x hx
    obtain ⟨l', hl', hb'⟩ := field_some hb
    rcases hw.bound l' (famLev_mem hl').1 b hb' x hx with rfl | ⟨f, i, hf, hle⟩
    · simpa using hmx0
    · exact le_trans hle (hmx f i hf)
  have hexists : ∀ g, mget g m'.groups ≠ none ↔ mget g m.groups ≠ none ∨ ∃ p ∈ grps, p.1 = g ∧ p.2 ≠ [] := by
    intro g
    by_cases hc : ∀ p ∈ grps, p.1 = g → p.2 = []
    · rw [hgout g hc]
      constructor
      · exact Or.inl
      · rintro (h | ⟨p, hp', e, h⟩)
        · exact h
        · exact absurd (hc p hp' e) h
    · push Not at hc
      obtain ⟨p, hp', rfl, hp2⟩ := hc
      obtain ⟨fs, _, _, h3⟩ := hgin p hp' hp2
      rw [h3]
      simp only [ne_eq, reduceCtorEq, not_false_eq_true, true_iff]
      exact Or.inr ⟨p, hp', rfl, hp2⟩
  refine ⟨m', hrun, ⟨f1, g1, hok, ?_, ?_, ?_, ?_⟩, ?_, ?_, ?_, ?_, hexists⟩
  · -- ids are distinct
    intro f f' i h h'
    rcases hcase f i h with a | ⟨x, hx, rfl, rfl⟩ <;> rcases hcase f' _ h' with b | ⟨y, hy, rfl, e⟩
    · exact hw.inj f f' i a b
    · have := hmx f _ a
      have := hTbig y hy
      rw [e] at *
      omega
    · have := hmx f' _ b
      have := hTbig x hx
      omega
    · rw [e]
  · rw [hm', rels_putFam]
    exact hw.levs
  · intro k hk
    rw [hm'] at hk
    obtain ⟨k0, hk0, rfl⟩ := List.mem_map.mp hk
    have hs := hw.size k0 hk0
    split
    · rename_i e
      have : k0 = l := by
        have h1 := mem_famLev hw.levs hk0
        rw [e, hl] at h1
        exact (Option.some.inj h1).symm
      subst this
      refine ⟨hs.1, ?_⟩
      rintro a e
      cases e
      simp [hlen]
    · exact hs
  · intro k hk a ha x hx
    rw [hm'] at hk
    obtain ⟨k0, hk0, rfl⟩ := List.mem_map.mp hk
    right
    split at ha
    · cases ha
      obtain ⟨y, hy, rfl⟩ := List.mem_map.mp hx
      exact ⟨_, _, hnew y hy, le_refl _⟩
    · rcases hw.bound k0 hk0 a ha x hx with rfl | ⟨f, i, hf, hle⟩
      · have : 0 < fam.length := by rw [hlen]; exact (hw.size l hlm).1
        exact ⟨_, _, hnew _ (List.getElem_mem this), by simp⟩
      · exact ⟨f, i, hold f i hf, hle⟩
  · intro p hp' hp2
    obtain ⟨r, r1, r2, r3⟩ := read_group m' rel _ p.1 hok hfield ((hexists _).mpr (Or.inr ⟨p, hp', rfl, hp2⟩))
    refine ⟨r, r1, r2, fun i => ?_⟩
    rw [r3]
    obtain ⟨fs, h1, h2, h3⟩ := hgin p hp' hp2
    have hhas : ∀ x ∈ fam, (GrpHas m' p.1 (T x) ↔ x ∈ fs) := by
      intro x hx
      constructor
      · rintro ⟨fams, e, f, hf, h⟩
        rw [h3] at e
        cases e
        rcases List.mem_append.mp hf with hf | hf
        · exfalso
          cases ho : mget p.1 m.groups with
          | none => rw [ho] at hf; simp at hf
          | some fams =>
            rw [ho] at hf
            obtain ⟨i, hi⟩ := hw.ok _ fams ho f hf
            rw [hold f i hi] at h
            cases h
            have := hmx f _ hi
            have := hTbig x hx
            omega
        · obtain ⟨v, hv, rfl⟩ := List.mem_map.mp hf
          rw [hnew v (h1 v hv)] at h
          rw [← hTinj v x (Option.some.inj h)]
          exact hv
      · intro hxs
        exact ⟨_, h3, familyName (T x), List.mem_append_right _ (List.mem_map.mpr ⟨x, hxs, rfl⟩), hnew x hx⟩
    constructor
    · rintro ⟨k, rfl, x, hx, hg⟩
      rw [List.getElem?_map] at hx
      obtain ⟨y, hy, rfl⟩ := Option.map_eq_some_iff.mp hx
      have hk : k < l.size := by
        rw [← hlen]
        exact (List.getElem?_eq_some_iff.mp hy).1
      exact (h2 k hk).mpr ⟨y, (hhas y (List.mem_of_getElem? hy)).mp hg, hy⟩
    · intro hi
      obtain ⟨h0, hlt⟩ := hin p hp' i hi
      obtain ⟨v, hv, hfe⟩ := (h2 i.toNat (by omega)).mp (by rw [Int.toNat_of_nonneg h0]; exact hi)
      exact ⟨i.toNat, (Int.toNat_of_nonneg h0).symm, T v, by rw [List.getElem?_map, hfe]; rfl, (hhas v (h1 v hv)).mpr hv⟩
  · intro g hg hc
    refine read_empty hok hfield (by rw [hgout g hc]; exact hg) ?_
    intro x hx hgx
    obtain ⟨y, hy, rfl⟩ := List.mem_map.mp hx
    obtain ⟨fams, e, f, hf, h⟩ := hgx
    rw [hgout g hc] at e
    obtain ⟨i, hi⟩ := hw.ok _ fams e f hf
    rw [hold f i hi] at h
    cases h
    exact oldNot g y hy ⟨fams, e, f, hf, hi⟩
  · intro rel' g hr hg
    apply same_group_field (hfield' rel' hr) hw.ok hok hg ((hexists g).mpr (Or.inl hg))
    intro a ha x hx
    exact hasOld g x hg (hsmall rel' a ha x hx)
  · intro rel' b p hp' hr hb hp2 hn
    refine read_empty hok (by rw [hfield' rel' hr]; exact hb) ((hexists _).mpr (Or.inr ⟨p, hp', rfl, hp2⟩)) ?_
    rintro x hx ⟨fams, e, f, hf, h⟩
    obtain ⟨fs, h1, _, h3⟩ := hgin p hp' hp2
    rw [h3, hn] at e
    cases e
    simp only [Option.getD_none, List.nil_append] at hf
    obtain ⟨v, hv, rfl⟩ := List.mem_map.mp hf
    rw [hnew v (h1 v hv)] at h
    cases h
    have := hsmall rel' b hb _ hx
    have := hTbig v (h1 v hv)
    omega

/-- Groups given at two levels: `a` of the sample is replaced at the level 0, keeps its nodes. -/
example : (do
      let m ← setGroupsAtLevel famWFSample 0 [(['a'], [4, 1]), (['n'], [1, 2]), (['e'], [])]
      let r ← [['a'], ['b'], ['n']].mapM (getGroupArr m 0)
      let r' ← [['a'], ['b'], ['n']].mapM (getGroupArr m 1)
      (.ok (r, r') : M _)) = .ok ([[1, 4], [], [1, 2]], (famWFSample.groups.map Prod.fst).map (fun g => ((getGroupArr famWFSample 1 g).toOption.getD [])) ++ [[]]) := by
  decide +kernel

/-- **C95.** What `setGroupsAtLevel` refuses: two groups of the same name, a group without a name, a level the mesh does not have, an id
that is not one of an entity of the level.  Nothing to set: nothing is done. -/
theorem C95_set_groups_refused (m : FamMesh) (rel : Int) (grps : List (Name × List Int)) :
    setGroupsAtLevel m rel [] = .ok m ∧
    (¬ (grps.map Prod.fst).Nodup → setGroupsAtLevel m rel grps = .error .exn) ∧
    (∀ p ∈ grps, p.1 = [] → setGroupsAtLevel m rel grps = .error .exn) ∧
    (grps ≠ [] → (∀ l ∈ m.levs, l.rel ≠ rel) → setGroupsAtLevel m rel grps = .error .exn) ∧
    (∀ l, famLev m rel = some l → ∀ p ∈ grps, ∀ i ∈ p.2, i < 0 ∨ (l.size : Int) ≤ i → setGroupsAtLevel m rel grps = .error .exn) := by
  unfold setGroupsAtLevel
  refine ⟨by rw [if_pos rfl], ?_, ?_, ?_, ?_⟩
  · intro h
    rw [if_neg (by rintro rfl; simp at h), if_pos h]; rfl
  · intro p hp e
    rw [if_neg (by rintro rfl; simp at hp)]
    split
    · rfl
    · rw [if_pos (List.mem_map.mpr ⟨p, hp, e⟩)]; rfl
  · intro h hl
    have : famLev m rel = none := by
      unfold famLev
      rw [List.find?_eq_none]
      intro l hl'
      simpa using hl l hl'
    rw [if_neg h, this]
    split
    · rfl
    · split <;> rfl
  · intro l hl p hp i hi hr
    rw [if_neg (by rintro rfl; simp at hp), hl]
    split
    · rfl
    · split
      · rfl
      · simp only
        rw [(C21_partition _ _).2 ⟨p.2, List.mem_map.mpr ⟨p, hp, rfl⟩, fun h => by have := h i hi; omega⟩]
        rfl

example : setGroupsAtLevel famWFSample 0 [(['n'], [1]), (['n'], [2])] = .error .exn ∧ setGroupsAtLevel famWFSample 0 [(['n'], [9])] = .error .exn ∧
    setGroupsAtLevel famWFSample (-3) [(['n'], [1])] = .error .exn := by decide +kernel

/-- **C95.** Finding: a group given without any entity is not created. -/
theorem C95_finding_empty_group :
    (do
      let m ← setGroupsAtLevel famWFSample 0 [(['n'], []), (['p'], [1])]
      (.ok (mget ['n'] m.groups) : M _)) = .ok none := by decide +kernel

/-- **C95.** Finding: a family of the mesh that has the name of a new one (here `Family_-3` of id 1, the names the normalisation of the
ids leaves behind) is taken over by it: the group `a`, that is only on the nodes, loses them and gets a cell when another group is set on the
cells, and `hfree` cannot be dropped from `C95_set_groups`. -/
theorem C95_finding_name_reused :
    (do
      let m : FamMesh := ⟨[⟨1, 3, some [1, 0, 1]⟩, ⟨0, 2, none⟩], [(familyName (-3), 1)], [(['a'], [familyName (-3)])]⟩
      let r ← getGroupArr m 1 ['a']
      let m' ← setGroupsAtLevel m 0 [(['n'], [0])]
      let r' ← getGroupArr m' 1 ['a']
      let r0 ← getGroupArr m' 0 ['a']
      (.ok (r, r', r0) : M _)) = .ok ([0, 2], [], [0]) := by decide +kernel

end MC
