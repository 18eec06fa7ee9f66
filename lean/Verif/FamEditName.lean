import Verif.FamEditZip

/-!
# Families and groups of a MED file mesh: families named after their group (C94)
-/

namespace MC

/-- `f` is the only family of the group `g` and is in no other group. -/
def AloneIn (m : FamMesh) (g f : Name) : Prop := mget g m.groups = some [f] ∧ ∀ g' L, mget g' m.groups = some L → f ∈ L → g' = g

/-- The name the family is announced to have: that of its group when it is alone in it, its own otherwise. -/
def NewName (m : FamMesh) (f n : Name) : Prop := AloneIn m n f ∨ (n = f ∧ ∀ g, ¬ AloneIn m g f)

theorem newName_fun {m : FamMesh} {f n n' : Name} (h : NewName m f n) (h' : NewName m f n') : n = n' := by
  rcases h with h | ⟨rfl, h⟩ <;> rcases h' with h' | ⟨rfl, h'⟩
  · exact h'.2 n [f] h.1 (by simp)
  · exact absurd h (h' n)
  · exact absurd h' (h n')
  · rfl

theorem alone_iff (m : FamMesh) (hk : KeysInc m.groups) (f g : Name) : AloneIn m g f ↔ getGroupsOnFamily m f = [g] ∧ mget g m.groups = some [f] := by
  obtain ⟨h1, h2⟩ := C92_groups_on_family m f hk
  have h3 : ∀ g', g' ∈ getGroupsOnFamily m f ↔ ∃ L, mget g' m.groups = some L ∧ f ∈ L := by
    intro g'
    rw [h2]
    unfold getFamiliesOnGroup
    cases mget g' m.groups <;> simp [throwX]
  constructor
  · rintro ⟨h4, h5⟩
    refine ⟨names_ext h1 (by simp) fun x => ?_, h4⟩
    rw [h3, List.mem_singleton]
    constructor
    · rintro ⟨L, hL, hf⟩; exact h5 x L hL hf
    · rintro rfl; exact ⟨[f], h4, by simp⟩
  · rintro ⟨h4, h5⟩
    refine ⟨h5, fun g' L hL hf => ?_⟩
    have := (h3 g').mpr ⟨L, hL, hf⟩
    rw [h4, List.mem_singleton] at this
    exact this

/-- State after the families `P`. -/
structure AssignInv (m : FamMesh) (P : List (Name × Int)) (st : List (Name × Int) × List (Name × List Name)) : Prop where
  kf : KeysInc st.1
  kg : KeysInc st.2
  fam : ∀ n i, mget n st.1 = some i ↔ ∃ f, (f, i) ∈ P ∧ NewName m f n
  grp : ∀ g, (∃ f i, (f, i) ∈ P ∧ AloneIn m g f ∧ mget g st.2 = some [g]) ∨ ((∀ f i, (f, i) ∈ P → ¬ AloneIn m g f) ∧ mget g st.2 = mget g m.groups)

/-- The family keeps its name. -/
def assignKeep (st : List (Name × Int) × List (Name × List Name)) (p : Name × Int) : M (List (Name × Int) × List (Name × List Name)) :=
  match mget p.1 st.1 with
  | some _ => throwX
  | none => .ok (mset p.1 p.2 st.1, st.2)

theorem assignOne_alone {m : FamMesh} {st : List (Name × Int) × List (Name × List Name)} {p : Name × Int} {g : Name}
    (h1 : getGroupsOnFamily m p.1 = [g]) (h2 : mget g st.2 = some [p.1]) :
    assignOne m st p = match mget g st.1 with
      | some _ => throwX
      | none => .ok (mset g p.2 st.1, mset g [g] st.2) := by
  unfold assignOne
  rw [h1]
  simp only
  rw [h2]
  cases hc : mget g st.1 <;> simp [List.replace_cons]

theorem assignOne_other {m : FamMesh} {st : List (Name × Int) × List (Name × List Name)} {p : Name × Int}
    (h : ∀ g f, getGroupsOnFamily m p.1 = [g] → mget g st.2 ≠ some [f]) : assignOne m st p = assignKeep st p := by
  unfold assignOne assignKeep
  split
  · rename_i g hg
    split
    · rename_i f hf
      exact absurd hf (h g f hg)
    · rfl
  · rfl

theorem assign_step (m : FamMesh) (hk : KeysInc m.groups) (P : List (Name × Int)) (st : List (Name × Int) × List (Name × List Name)) (p : Name × Int)
    (hn : ∀ i, (p.1, i) ∉ P) (h : AssignInv m P st) :
    ((∃ f i n, (f, i) ∈ P ∧ NewName m f n ∧ NewName m p.1 n) → assignOne m st p = .error .exn) ∧
    ((∀ f i n, (f, i) ∈ P → NewName m f n → ¬ NewName m p.1 n) → ∃ st', assignOne m st p = .ok st' ∧ AssignInv m (P ++ [p]) st') := by
  have hgrp : ∀ g L, mget g m.groups = some L → p.1 ∈ L → mget g st.2 = some L := by
    intro g L hL hp
    rcases h.grp g with ⟨f, i, h1, h2, h3⟩ | ⟨_, h2⟩
    · have h4 := h2.1
      rw [hL] at h4
      cases h4
      rw [List.mem_singleton] at hp
      rw [hp] at hn
      exact absurd h1 (hn i)
    · rw [h2, hL]
  have hgo : ∀ g, getGroupsOnFamily m p.1 = [g] → ∃ L, mget g m.groups = some L ∧ p.1 ∈ L := by
    intro g hg
    obtain ⟨L, hL, hp⟩ := ((C92_groups_on_family m p.1 hk).2 g).mp (by rw [hg]; simp)
    refine ⟨L, ?_, hp⟩
    unfold getFamiliesOnGroup at hL
    cases hc : mget g m.groups with
    | none => rw [hc] at hL; simp [throwX] at hL
    | some L' => rw [hc] at hL; simpa using hL
  by_cases ha : ∃ g, AloneIn m g p.1
  · obtain ⟨g, ha⟩ := ha
    obtain ⟨a1, a2⟩ := (alone_iff m hk p.1 g).mp ha
    rw [assignOne_alone a1 (hgrp g _ a2 (by simp))]
    constructor
    · rintro ⟨f, i, n, h1, h2, h3⟩
      have e : n = g := newName_fun h3 (Or.inl ha)
      subst e
      rw [(h.fam n i).mpr ⟨f, h1, h2⟩]
      rfl
    · intro hno
      have hnone : mget g st.1 = none := by
        cases hc : mget g st.1 with
        | none => rfl
        | some i =>
          obtain ⟨f, h1, h2⟩ := (h.fam g i).mp hc
          exact absurd (Or.inl ha) (hno f i g h1 h2)
      rw [hnone]
      refine ⟨_, rfl, keysInc_mset h.kf, keysInc_mset h.kg, ?_, ?_⟩
      · intro n i
        simp only [mget_mset]
        constructor
        · intro h1
          split at h1
          · rename_i e
            subst e
            cases h1
            exact ⟨p.1, by simp, Or.inl ha⟩
          · obtain ⟨f, h2, h3⟩ := (h.fam n i).mp h1
            exact ⟨f, by simp [h2], h3⟩
        · rintro ⟨f, h1, h2⟩
          rcases List.mem_append.mp h1 with h1 | h1
          · have := (h.fam n i).mpr ⟨f, h1, h2⟩
            rw [if_neg]
            · exact this
            · rintro rfl
              rw [hnone] at this
              cases this
          · rw [List.mem_singleton] at h1
            subst h1
            rw [if_pos (newName_fun h2 (Or.inl ha))]
      · intro g'
        simp only [mget_mset]
        by_cases e : g' = g
        · subst e
          exact Or.inl ⟨p.1, p.2, by simp, ha, by simp⟩
        · rw [if_neg e]
          rcases h.grp g' with ⟨f, i, h1, h2, h3⟩ | ⟨h1, h2⟩
          · exact Or.inl ⟨f, i, by simp [h1], h2, h3⟩
          · refine Or.inr ⟨fun f i hf => ?_, h2⟩
            rcases List.mem_append.mp hf with hf | hf
            · exact h1 f i hf
            · rw [List.mem_singleton] at hf
              intro hc
              have hc' : AloneIn m g' p.1 := by rw [← hf]; exact hc
              exact e (hc'.2 g [p.1] ha.1 (by simp)).symm
  · push Not at ha
    have hnn : NewName m p.1 p.1 := Or.inr ⟨rfl, ha⟩
    rw [assignOne_other (by
      intro g f hg hc
      obtain ⟨L, hL, hp⟩ := hgo g hg
      have := hgrp g L hL hp
      rw [hc] at this
      cases this
      rw [List.mem_singleton] at hp
      subst hp
      exact ha g ((alone_iff m hk p.1 g).mpr ⟨hg, hL⟩))]
    unfold assignKeep
    constructor
    · rintro ⟨f, i, n, h1, h2, h3⟩
      have e : n = p.1 := newName_fun h3 hnn
      subst e
      rw [(h.fam p.1 i).mpr ⟨f, h1, h2⟩]
      rfl
    · intro hno
      have hnone : mget p.1 st.1 = none := by
        cases hc : mget p.1 st.1 with
        | none => rfl
        | some i =>
          obtain ⟨f, h1, h2⟩ := (h.fam p.1 i).mp hc
          exact absurd hnn (hno f i p.1 h1 h2)
      rw [hnone]
      refine ⟨_, rfl, keysInc_mset h.kf, h.kg, ?_, ?_⟩
      · intro n i
        simp only [mget_mset]
        constructor
        · intro h1
          split at h1
          · rename_i e
            subst e
            cases h1
            exact ⟨p.1, by simp, hnn⟩
          · obtain ⟨f, h2, h3⟩ := (h.fam n i).mp h1
            exact ⟨f, by simp [h2], h3⟩
        · rintro ⟨f, h1, h2⟩
          rcases List.mem_append.mp h1 with h1 | h1
          · have := (h.fam n i).mpr ⟨f, h1, h2⟩
            rw [if_neg]
            · exact this
            · rintro rfl
              rw [hnone] at this
              cases this
          · rw [List.mem_singleton] at h1
            subst h1
            rw [if_pos (newName_fun h2 hnn)]
      · intro g'
        rcases h.grp g' with ⟨f, i, h1, h2, h3⟩ | ⟨h1, h2⟩
        · exact Or.inl ⟨f, i, by simp [h1], h2, h3⟩
        · refine Or.inr ⟨fun f i hf => ?_, h2⟩
          rcases List.mem_append.mp hf with hf | hf
          · exact h1 f i hf
          · rw [List.mem_singleton] at hf
            intro hc
            have hc' : AloneIn m g' p.1 := by rw [← hf]; exact hc
            exact ha g' hc'

theorem newName_ex (m : FamMesh) (f : Name) : ∃ n, NewName m f n := by
  by_cases h : ∃ g, AloneIn m g f
  · obtain ⟨g, h⟩ := h; exact ⟨g, Or.inl h⟩
  · push Not at h; exact ⟨f, Or.inr ⟨rfl, h⟩⟩

theorem assign_fold (m : FamMesh) (hk : KeysInc m.groups) : ∀ (L P : List (Name × Int)) (st : List (Name × Int) × List (Name × List Name)),
    KeysInc (P ++ L) → AssignInv m P st →
    ((∃ f f' i i' n, f ≠ f' ∧ (f, i) ∈ P ++ L ∧ (f', i') ∈ L ∧ NewName m f n ∧ NewName m f' n) → L.foldlM (assignOne m) st = .error .exn) ∧
    ((∀ f f' i i' n, f ≠ f' → (f, i) ∈ P ++ L → (f', i') ∈ L → NewName m f n → ¬ NewName m f' n) →
      ∃ st', L.foldlM (assignOne m) st = .ok st' ∧ AssignInv m (P ++ L) st') := by
  intro L
  induction L with
  | nil =>
    intro P st _ h
    refine ⟨?_, fun _ => ⟨st, rfl, by simpa using h⟩⟩
    rintro ⟨f, f', i, i', n, _, _, h1, _⟩
    simp at h1
  | cons p L ih =>
    intro P st hs h
    have hnd : ((P ++ p :: L).map (·.1)).Nodup := hs.imp fun h => ne_of_lt h
    have hn : ∀ i, (p.1, i) ∉ P := by
      intro i hi
      rw [List.map_append, List.nodup_append] at hnd
      exact hnd.2.2 p.1 (List.mem_map.mpr ⟨_, hi, rfl⟩) p.1 (by simp) rfl
    obtain ⟨s1, s2⟩ := assign_step m hk P st p hn h
    have eq : P ++ p :: L = (P ++ [p]) ++ L := by simp
    rw [List.foldlM_cons]
    by_cases hc : ∃ f i n, (f, i) ∈ P ∧ NewName m f n ∧ NewName m p.1 n
    · rw [s1 hc]
      refine ⟨fun _ => rfl, fun hno => ?_⟩
      obtain ⟨f, i, n, h1, h2, h3⟩ := hc
      have hne : f ≠ p.1 := fun e => hn i (e ▸ h1)
      exact absurd h3 (hno f p.1 i p.2 n hne (by simp [h1]) (by simp) h2)
    · have hc' : ∀ f i n, (f, i) ∈ P → NewName m f n → ¬ NewName m p.1 n := fun f i n h1 h2 h3 => hc ⟨f, i, n, h1, h2, h3⟩
      obtain ⟨st1, e1, e2⟩ := s2 hc'
      rw [e1, ok_bind]
      obtain ⟨i1, i2⟩ := ih (P ++ [p]) st1 (by rw [← eq]; exact hs) e2
      rw [eq]
      constructor
      · rintro ⟨f, f', i, i', n, hne, h1, h2, h3, h4⟩
        apply i1
        rcases List.mem_cons.mp h2 with h2 | h2
        · subst h2
          rcases List.mem_append.mp h1 with h1 | h1
          · rcases List.mem_append.mp h1 with h1 | h1
            · exact absurd h4 (hc' f i n h1 h3)
            · rw [List.mem_singleton] at h1
              exact absurd (Prod.mk.inj h1).1 hne
          · exact ⟨f', f, i', i, n, hne.symm, by simp, h1, h4, h3⟩
        · exact ⟨f, f', i, i', n, hne, h1, h2, h3, h4⟩
      · intro hno
        exact i2 fun f f' i i' n hne h1 h2 => hno f f' i i' n hne h1 (by simp [h2])

/-- **C94.** `assignFamilyNameWithGroupName` is refused exactly when two families would have the same name.  Otherwise the families are those of the mesh
with their ids and their new names, and all groups keep their entities at all levels. -/
theorem C94_assign_names (m : FamMesh) (hw : FamOK m) :
    ((∃ f f' n, f ≠ f' ∧ mget f m.families ≠ none ∧ mget f' m.families ≠ none ∧ NewName m f n ∧ NewName m f' n) →
      assignFamilyNameWithGroupName m = .error .exn) ∧
    ((∀ f f' n, f ≠ f' → mget f m.families ≠ none → mget f' m.families ≠ none → NewName m f n → ¬ NewName m f' n) →
      ∃ m', assignFamilyNameWithGroupName m = .ok m' ∧ FamOK m' ∧ m'.levs = m.levs ∧
        (∀ n i, mget n m'.families = some i ↔ ∃ f, mget f m.families = some i ∧ NewName m f n) ∧
        (∀ g, mget g m'.groups = none ↔ mget g m.groups = none) ∧
        ∀ g, mget g m.groups ≠ none → ∀ rel, getGroupArr m' rel g = getGroupArr m rel g) := by
  have hne : ∀ f i, (f, i) ∈ m.families → mget f m.families ≠ none := fun f i h => by rw [mem_mget hw.kf h]; simp
  obtain ⟨h1, h2⟩ := assign_fold m hw.kg m.families [] ([], m.groups) (by simpa using hw.kf)
    ⟨by simp [KeysInc], hw.kg, by simp [mget], fun g => Or.inr ⟨by simp, rfl⟩⟩
  rw [List.nil_append] at h1 h2
  unfold assignFamilyNameWithGroupName
  constructor
  · rintro ⟨f, f', n, hff, hf, hf', h3, h4⟩
    obtain ⟨i, hi⟩ := Option.ne_none_iff_exists'.mp hf
    obtain ⟨i', hi'⟩ := Option.ne_none_iff_exists'.mp hf'
    rw [h1 ⟨f, f', i, i', n, hff, mget_mem hi, mget_mem hi', h3, h4⟩]
    rfl
  · intro hno
    obtain ⟨st, e, inv⟩ := h2 fun f f' i i' n hff h3 h4 => hno f f' n hff (hne f i h3) (hne f' i' h4)
    rw [e, ok_bind]
    have hfam : ∀ n i, mget n st.1 = some i ↔ ∃ f, mget f m.families = some i ∧ NewName m f n := by
      intro n i
      rw [inv.fam]
      simp only [mem_iff_mget hw.kf]
    have hnone : ∀ g, mget g st.2 = none ↔ mget g m.groups = none := by
      intro g
      rcases inv.grp g with ⟨f, i, _, h3, h4⟩ | ⟨_, h3⟩
      · rw [h4, h3.1]; simp
      · rw [h3]
    have keep : ∀ g L f, mget g m.groups = some L → f ∈ L → (∀ f i, (f, i) ∈ m.families → ¬ AloneIn m g f) → NewName m f f := by
      intro g L f hL hf hn
      refine Or.inr ⟨rfl, fun g' ha => ?_⟩
      obtain ⟨i, hi⟩ := hw.ok g L hL f hf
      have := ha.2 g L hL hf
      subst this
      exact hn f i (mget_mem hi) ha
    have hgr : ∀ g L', mget g st.2 = some L' → ∃ L, mget g m.groups = some L ∧ (∀ f ∈ L, ∃ n ∈ L', NewName m f n) ∧ ∀ n ∈ L', ∃ f ∈ L, NewName m f n := by
      intro g L' hL'
      rcases inv.grp g with ⟨f, i, hf, h3, h4⟩ | ⟨h3, h4⟩
      · rw [h4] at hL'
        cases hL'
        exact ⟨[f], h3.1, fun f' hf' => ⟨g, by simp, by rw [List.mem_singleton] at hf'; subst hf'; exact Or.inl h3⟩,
          fun n hn => ⟨f, by simp, by rw [List.mem_singleton] at hn; subst hn; exact Or.inl h3⟩⟩
      · rw [h4] at hL'
        exact ⟨L', hL', fun f hf => ⟨f, hf, keep g L' f hL' hf h3⟩, fun f hf => ⟨f, hf, keep g L' f hL' hf h3⟩⟩
    have hok : GroupsOK { m with families := st.1, groups := st.2 } := by
      intro g L' hL' n hn
      obtain ⟨L, hL, _, h4⟩ := hgr g L' hL'
      obtain ⟨f, hf, h5⟩ := h4 n hn
      obtain ⟨i, hi⟩ := hw.ok g L hL f hf
      exact ⟨i, (hfam n i).mpr ⟨f, hi, h5⟩⟩
    refine ⟨_, rfl, ⟨inv.kf, inv.kg, hok, ?_, hw.levs⟩, rfl, hfam, hnone, ?_⟩
    · intro n n' i h3 h4
      obtain ⟨f, hf, h5⟩ := (hfam n i).mp h3
      obtain ⟨f', hf', h6⟩ := (hfam n' i).mp h4
      have := hw.inj f f' i hf hf'
      subst this
      exact newName_fun h5 h6
    · intro g hg rel
      refine same_group_levs hw.ok hok rfl hg (fun hc => hg ((hnone g).mp hc)) ?_ rel
      intro _ _ _ _ x _
      obtain ⟨L', hL'⟩ := Option.ne_none_iff_exists'.mp (fun hc => hg ((hnone g).mp hc))
      obtain ⟨L, hL, h3, h4⟩ := hgr g L' hL'
      unfold GrpHas
      simp only [hL', hL, Option.some.injEq, exists_eq_left']
      constructor
      · rintro ⟨n, hn, hx⟩
        obtain ⟨f, hf, h5⟩ := h4 n hn
        obtain ⟨f', hf', h6⟩ := (hfam n x).mp hx
        refine ⟨f, hf, ?_⟩
        by_cases e : f = f'
        · rw [e]; exact hf'
        · obtain ⟨i, hi⟩ := hw.ok g L hL f hf
          exact absurd h6 (hno f f' n e (by rw [hi]; simp) (by rw [hf']; simp) h5)
      · rintro ⟨f, hf, hx⟩
        obtain ⟨n, hn, h5⟩ := h3 f hf
        exact ⟨n, hn, (hfam n x).mpr ⟨f, hx, h5⟩⟩

/-- The group c has the family z for itself. -/
def famNameSample : FamMesh :=
  ⟨[⟨0, 4, some [-1, -2, -3, -2]⟩], [(['x'], -1), (['y'], -2), (['z'], -3)], [(['a'], [['x'], ['y']]), (['b'], [['y']]), (['c'], [['z']])]⟩

example : (do
    let m ← assignFamilyNameWithGroupName famNameSample
    let r ← [['a'], ['b'], ['c']].mapM (getGroupArr m 0)
    (.ok (r, m.families) : M _)) = .ok ([[0, 1, 3], [1, 3], [2]], [(['c'], -3), (['x'], -1), (['y'], -2)]) ∧
    assignFamilyNameWithGroupName { famNameSample with families := mset ['c'] 5 famNameSample.families } = .error .exn := by decide +kernel

end MC
