import Verif.FamSetProps

/-!
# Families and groups of a MED file mesh: families kept on given levels (C95)
-/

namespace MC

/-- What holds all along `keepFamIdsOnlyOnLevs`. -/
structure Kept (m0 : FamMesh) (next0 : Int) (st : KeepSt) : Prop where
  ok : FamOK st.mesh
  start : next0 ≤ st.next
  vals : ∀ rel a, getFamilyFieldAtLevel st.mesh rel = .ok (some a) → ∀ x ∈ a, x < st.next
  ids : ∀ f i, mget f st.mesh.families = some i → i < st.next
  fresh : ∀ k, st.next ≤ k → mget (familyName k) st.mesh.families = none
  old : ∀ f i, mget f m0.families = some i → mget f st.mesh.families = some i
  grps : ∀ g, mget g st.mesh.groups ≠ none ↔ mget g m0.groups ≠ none
  arr : ∀ rel g, mget g m0.groups ≠ none → getGroupArr st.mesh rel g = getGroupArr m0 rel g
  rels : st.mesh.levs.map (·.rel) = m0.levs.map (·.rel)

theorem mget_map_pairs {α : Type} (h : Name × α → Name × α) (hk : ∀ p, (h p).1 = p.1) (k : Name) (l : List (Name × α)) :
    mget k (l.map h) = (mget k l).map fun v => (h (k, v)).2 := by
  induction l with
  | nil => rfl
  | cons p l ih =>
    obtain ⟨a, b⟩ := p
    have hp : h (a, b) = (a, (h (a, b)).2) := Prod.ext (hk (a, b)) rfl
    rw [List.map_cons, hp]
    by_cases e : a = k
    · subst e; simp [mget]
    · simpa [mget, e] using ih

theorem nameGivenId {m : FamMesh} (h : FamOK m) {f : Name} {i : Int} (hf : mget f m.families = some i) : getFamilyNameGivenId m i = .ok f := by
  unfold getFamilyNameGivenId
  cases hc : m.families.find? fun p => decide (p.2 = i) with
  | none =>
    rw [List.find?_eq_none] at hc
    exact absurd (hc _ (mget_mem hf)) (by simp)
  | some p =>
    have h1 := List.find?_some hc
    have h2 := List.mem_of_find?_eq_some hc
    simp only [decide_eq_true_eq] at h1
    have := h.inj p.1 f i (mem_mget h.kf (by rw [← h1]; exact h2)) hf
    simp [this]

theorem field_putFam_self {m : FamMesh} {rel : Int} {a : List Int} (h : getFamilyFieldAtLevel m rel = .ok (some a)) (c : List Int) :
    getFamilyFieldAtLevel (putFam m rel c) rel = .ok (some c) := by
  obtain ⟨l, hl, _⟩ := field_some h
  have : famLev (putFam m rel c) rel = some { l with fam := some c } := by rw [famLev_putFam, if_pos rfl, hl]; rfl
  exact field_eq this

/-- One family cut at one level. -/
theorem keepOne_ok {m0 : FamMesh} {next0 : Int} {st : KeepSt} (K : Kept m0 next0 st) (all : List Name)
    (hall : ∀ k, next0 ≤ k → familyName k ∉ all) (rel x : Int) (a : List Int) (ha : getFamilyFieldAtLevel st.mesh rel = .ok (some a)) (f : Name)
    (hf : mget f m0.families = some x) :
    ∃ st', keepOne all rel st x = .ok st' ∧ Kept m0 next0 st' ∧ st'.same = false ∧ st'.next = st.next + 1 ∧
      (∀ rel', rel' ≠ rel → getFamilyFieldAtLevel st'.mesh rel' = getFamilyFieldAtLevel st.mesh rel') ∧
      getFamilyFieldAtLevel st'.mesh rel = .ok (some (a.map fun y => if y = x then st.next else y)) := by
  have hfx := K.old f x hf
  have hxn := K.ids f x hfx
  obtain ⟨gm, hgm⟩ : ∃ gm : FamMesh, gm = { st.mesh with groups := st.mesh.groups.map fun p => if f ∈ p.2 then (p.1, p.2 ++ [familyName st.next]) else p
                                                         families := mset (familyName st.next) st.next st.mesh.families } := ⟨_, rfl⟩
  obtain ⟨m', hm'⟩ : ∃ m', m' = putFam gm rel (changeValue x st.next a).2 := ⟨_, rfl⟩
  have hrun : keepOne all rel st x = .ok ⟨false, m', st.next + 1⟩ := by
    unfold keepOne
    rw [nameGivenId K.ok hfx, ok_bind]
    unfold createNameNotIn
    rw [if_pos (hall _ K.start), ok_bind, ha, ok_bind, hm', hgm]
  have hfam : ∀ f', mget f' m'.families = if f' = familyName st.next then some st.next else mget f' st.mesh.families := by
    intro f'
    have : m'.families = mset (familyName st.next) st.next st.mesh.families := by rw [hm', hgm]; rfl
    rw [this, mget_mset]
  have hgrp : ∀ g, mget g m'.groups = (mget g st.mesh.groups).map fun fs => if f ∈ fs then fs ++ [familyName st.next] else fs := by
    intro g
    have : m'.groups = st.mesh.groups.map fun p => if f ∈ p.2 then (p.1, p.2 ++ [familyName st.next]) else p := by rw [hm', hgm]; rfl
    rw [this, mget_map_pairs _ (fun p => by split <;> rfl)]
    congr 1
    funext v
    simp only
    split <;> rfl
  have hfr := K.fresh st.next (le_refl _)
  have hfold : ∀ f' i, mget f' st.mesh.families = some i → mget f' m'.families = some i := by
    intro f' i h
    rw [hfam, if_neg (by rintro rfl; rw [hfr] at h; cases h)]
    exact h
  have hfield' : ∀ rel', rel' ≠ rel → getFamilyFieldAtLevel m' rel' = getFamilyFieldAtLevel st.mesh rel' := by
    intro rel' h
    rw [hm', field_putFam _ _ _ _ h, hgm]
    rfl
  have hfield : getFamilyFieldAtLevel m' rel = .ok (some (a.map fun y => if y = x then st.next else y)) := by
    rw [hm', ← changeValue_snd]
    have : getFamilyFieldAtLevel gm rel = .ok (some a) := by rw [hgm]; exact ha
    exact field_putFam_self this _
  have hok : GroupsOK m' := by
    intro g fams hg f' hf'
    rw [hgrp] at hg
    obtain ⟨fs, h1, rfl⟩ := Option.map_eq_some_iff.mp hg
    have : f' ∈ fs ∨ f' = familyName st.next := by
      split at hf'
      · simpa using hf'
      · exact Or.inl hf'
    rcases this with h | rfl
    · obtain ⟨i, hi⟩ := K.ok.ok g fs h1 f' h
      exact ⟨i, hfold f' i hi⟩
    · exact ⟨st.next, by rw [hfam, if_pos rfl]⟩
  -- which ids a group has
  have hasNew : ∀ g, GrpHas m' g st.next ↔ GrpHas st.mesh g x := by
    intro g
    constructor
    · rintro ⟨fams, hg, f', hf', h⟩
      rw [hgrp] at hg
      obtain ⟨fs, h1, rfl⟩ := Option.map_eq_some_iff.mp hg
      split at hf'
      · rename_i hin
        exact ⟨fs, h1, f, hin, hfx⟩
      · obtain ⟨i, hi⟩ := K.ok.ok g fs h1 f' hf'
        rw [hfold f' i hi] at h
        cases h
        exact absurd (K.ids f' _ hi) (lt_irrefl _)
    · rintro ⟨fs, h1, f', hf', h⟩
      have : f' = f := K.ok.inj f' f x h hfx
      subst this
      refine ⟨fs ++ [familyName st.next], ?_, familyName st.next, by simp, by rw [hfam, if_pos rfl]⟩
      rw [hgrp, h1]
      simp [hf']
  have hasOld : ∀ g y, y < st.next → (GrpHas m' g y ↔ GrpHas st.mesh g y) := by
    intro g y hy
    constructor
    · rintro ⟨fams, hg, f', hf', h⟩
      rw [hgrp] at hg
      obtain ⟨fs, h1, rfl⟩ := Option.map_eq_some_iff.mp hg
      rw [hfam] at h
      split at h
      · cases h; exact absurd hy (lt_irrefl _)
      · rename_i hn
        refine ⟨fs, h1, f', ?_, h⟩
        split at hf'
        · rcases List.mem_append.mp hf' with h' | h'
          · exact h'
          · exact absurd (by simpa using h') hn
        · exact hf'
    · rintro ⟨fs, h1, f', hf', h⟩
      refine ⟨_, by rw [hgrp, h1]; rfl, f', ?_, hfold f' y h⟩
      simp only
      split
      · exact List.mem_append_left _ hf'
      · exact hf'
  have hgne : ∀ g, mget g m'.groups ≠ none ↔ mget g st.mesh.groups ≠ none := by
    intro g
    rw [hgrp]
    cases mget g st.mesh.groups <;> simp
  refine ⟨_, hrun, ⟨⟨?_, ?_, hok, ?_, ?_⟩, ?_, ?_, ?_, ?_, ?_, ?_, ?_, ?_⟩, rfl, rfl, hfield', hfield⟩
  · have : m'.families = mset (familyName st.next) st.next st.mesh.families := by rw [hm', hgm]; rfl
    rw [this]
    exact keysInc_mset K.ok.kf
  · have : m'.groups = st.mesh.groups.map fun p => if f ∈ p.2 then (p.1, p.2 ++ [familyName st.next]) else p := by rw [hm', hgm]; rfl
    have hk : m'.groups.map (·.1) = st.mesh.groups.map (·.1) := by
      rw [this, List.map_map]
      apply List.map_congr_left
      intro p _
      simp only [Function.comp_apply]
      split <;> rfl
    have := K.ok.kg
    unfold KeysInc at this ⊢
    simp only
    rw [hk]
    exact this
  · intro f1 f2 i h1 h2
    rw [hfam] at h1 h2
    split at h1 <;> split at h2
    · rename_i e1 e2; rw [e1, e2]
    · cases h1; exact absurd (K.ids _ _ h2) (lt_irrefl _)
    · cases h2; exact absurd (K.ids _ _ h1) (lt_irrefl _)
    · exact K.ok.inj f1 f2 i h1 h2
  · rw [show (⟨false, m', st.next + 1⟩ : KeepSt).mesh = m' from rfl, hm', rels_putFam, hgm]
    exact K.ok.levs
  · have := K.start
    simp only
    omega
  · intro rel' b hb y hy
    simp only at hb ⊢
    by_cases hr : rel' = rel
    · subst hr
      rw [hfield] at hb
      cases hb
      obtain ⟨z, hz, rfl⟩ := List.mem_map.mp hy
      have := K.vals rel' a ha z hz
      split <;> omega
    · rw [hfield' rel' hr] at hb
      have := K.vals rel' b hb y hy
      omega
  · intro f' i h
    simp only at h ⊢
    rw [hfam] at h
    split at h
    · cases h; omega
    · have := K.ids f' i h; omega
  · intro k hk
    simp only at hk ⊢
    rw [hfam, if_neg (fun e => by have := familyName_inj e; omega)]
    exact K.fresh k (by omega)
  · intro f' i h
    exact hfold f' i (K.old f' i h)
  · intro g
    rw [hgne]
    exact K.grps g
  · intro rel' g hg
    rw [← K.arr rel' g hg]
    have hg1 := (K.grps g).mpr hg
    by_cases hr : rel' = rel
    · subst hr
      refine same_group_at (fun y => if y = x then st.next else y) (by rw [hfield, ha]; rfl) K.ok.ok hok hg1 ((hgne g).mpr hg1) ?_
      intro b hb y hy
      by_cases e : y = x
      · subst e
        simpa using hasNew g
      · simp only [if_neg e]
        exact hasOld g y (K.vals _ _ hb y hy)
    · refine same_group_field (hfield' rel' hr) K.ok.ok hok hg1 ((hgne g).mpr hg1) ?_
      intro b hb y hy
      exact hasOld g y (K.vals _ _ hb y hy)
  · rw [show (⟨false, m', st.next + 1⟩ : KeepSt).mesh = m' from rfl, hm', rels_putFam, hgm]
    exact K.rels

theorem keepIds_ok {m0 : FamMesh} {next0 : Int} (all : List Name) (hall : ∀ k, next0 ≤ k → familyName k ∉ all) (rel : Int) (xs : List Int) :
    ∀ (st : KeepSt) (_ : Kept m0 next0 st) (a : List Int) (_ : getFamilyFieldAtLevel st.mesh rel = .ok (some a))
      (_ : ∀ x ∈ xs, x < next0 ∧ ∃ f, mget f m0.families = some x),
    ∃ st', xs.foldlM (keepOne all rel) st = .ok st' ∧ Kept m0 next0 st' ∧
      (∀ rel', rel' ≠ rel → getFamilyFieldAtLevel st'.mesh rel' = getFamilyFieldAtLevel st.mesh rel') ∧
      (xs = [] → st' = st) ∧ (xs ≠ [] → st'.same = false) ∧
      ∃ R : Int → Int, getFamilyFieldAtLevel st'.mesh rel = .ok (some (a.map R)) ∧ (∀ y, y ∉ xs → R y = y) ∧ ∀ y ∈ xs, next0 ≤ R y := by
  induction xs with
  | nil =>
    intro st K a ha _
    exact ⟨st, rfl, K, fun _ _ => rfl, fun _ => rfl, fun h => absurd rfl h, id, by simpa using ha, fun _ _ => rfl, by simp⟩
  | cons x xs ih =>
    intro st K a ha hx
    obtain ⟨hx0, f, hf⟩ := hx x (by simp)
    obtain ⟨s1, r1, K1, e1, n1, o1, a1⟩ := keepOne_ok K all hall rel x a ha f hf
    obtain ⟨s2, r2, K2, o2, z2, e2, R, a2, u2, v2⟩ := ih s1 K1 _ a1 (fun y hy => hx y (by simp [hy]))
    refine ⟨s2, by rw [List.foldlM_cons, r1, ok_bind, r2], K2, (fun rel' h => by rw [o2 rel' h, o1 rel' h]), (fun h => by cases h), (fun _ => ?_),
      fun y => R (if y = x then st.next else y), ?_, ?_, ?_⟩
    · by_cases hn : xs = []
      · rw [z2 hn, e1]
      · exact e2 hn
    · rw [a2, List.map_map]; rfl
    · intro y hy
      simp only
      rw [if_neg (fun e => hy (by simp [e]))]
      exact u2 y (fun h => hy (by simp [h]))
    · intro y hy
      simp only
      have hst := K.start
      split
      · rw [u2 _ (fun h => by have := (hx _ (List.mem_cons_of_mem _ h)).1; omega)]
        exact hst
      · rename_i e
        exact v2 y (by simpa [e] using hy)

theorem keepLevs_ok {m0 : FamMesh} {next0 : Int} (all : List Name) (hall : ∀ k, next0 ≤ k → familyName k ∉ all) (famIds : List Int)
    (hids : ∀ x ∈ famIds, x < next0 ∧ ∃ f, mget f m0.families = some x) (rels : List Int) :
    ∀ (st : KeepSt) (_ : Kept m0 next0 st) (_ : rels.Nodup) (_ : ∀ r ∈ rels, ∃ o, getFamilyFieldAtLevel st.mesh r = .ok o),
    ∃ st', rels.foldlM (keepLev all famIds) st = .ok st' ∧ Kept m0 next0 st' ∧
      (∀ r, r ∉ rels → getFamilyFieldAtLevel st'.mesh r = getFamilyFieldAtLevel st.mesh r) ∧
      (st'.same = true ↔ st.same = true ∧ ∀ r ∈ rels, ∀ a, getFamilyFieldAtLevel st.mesh r = .ok (some a) → ∀ y ∈ a, y ∉ famIds) ∧
      (st'.same = true → st' = st) ∧
      ∀ r ∈ rels, ∃ R : Int → Int, getFamilyFieldAtLevel st'.mesh r = (getFamilyFieldAtLevel st.mesh r).map (Option.map (List.map R)) ∧
        (∀ y, y ∉ famIds → R y = y) ∧ ∀ a, getFamilyFieldAtLevel st.mesh r = .ok (some a) → ∀ y ∈ famIds, y ∈ a → next0 ≤ R y := by
  induction rels with
  | nil => intro st K _ _; exact ⟨st, rfl, K, fun _ _ => rfl, by simp, fun _ => rfl, by simp⟩
  | cons rel rels ih =>
    intro st K hn hex
    rw [List.nodup_cons] at hn
    obtain ⟨o, ho⟩ := hex rel (by simp)
    -- the first level
    have step : ∃ s1, keepLev all famIds st rel = .ok s1 ∧ Kept m0 next0 s1 ∧
        (∀ r, r ≠ rel → getFamilyFieldAtLevel s1.mesh r = getFamilyFieldAtLevel st.mesh r) ∧
        (s1.same = true ↔ st.same = true ∧ ∀ a, getFamilyFieldAtLevel st.mesh rel = .ok (some a) → ∀ y ∈ a, y ∉ famIds) ∧
        (s1.same = true → s1 = st) ∧
        ∃ R : Int → Int, getFamilyFieldAtLevel s1.mesh rel = (getFamilyFieldAtLevel st.mesh rel).map (Option.map (List.map R)) ∧
          (∀ y, y ∉ famIds → R y = y) ∧ ∀ a, getFamilyFieldAtLevel st.mesh rel = .ok (some a) → ∀ y ∈ famIds, y ∈ a → next0 ≤ R y := by
      unfold keepLev
      rw [ho, ok_bind]
      cases o with
      | none =>
        refine ⟨st, rfl, K, fun _ _ => rfl, ?_, fun _ => rfl, id, ?_, fun _ _ => rfl, ?_⟩
        · constructor
          · intro h; exact ⟨h, fun a e => by cases e⟩
          · exact fun h => h.1
        · rw [ho]; rfl
        · intro a e; cases e
      | some a =>
        simp only
        have hmem : ∀ y, y ∈ ((getDifferentValues a).filter fun x => decide (x ∈ famIds)) ↔ y ∈ a ∧ y ∈ famIds := by
          intro y
          rw [List.mem_filter, (C14_different_values a).2]
          simp
        generalize hxs : ((getDifferentValues a).filter fun x => decide (x ∈ famIds)) = xs at hmem
        obtain ⟨s1, r1, K1, o1, z1, e1, R, a1, u1, v1⟩ := keepIds_ok all hall rel xs st K a ho (fun x hx => hids x ((hmem x).mp hx).2)
        have hnil : xs = [] ↔ ∀ y ∈ a, y ∉ famIds := by
          rw [List.eq_nil_iff_forall_not_mem]
          constructor
          · intro h y hy hf; exact h y ((hmem y).mpr ⟨hy, hf⟩)
          · intro h y hy; exact h y ((hmem y).mp hy).1 ((hmem y).mp hy).2
        refine ⟨s1, r1, K1, o1, ?_, ?_, R, ?_, ?_, ?_⟩
        · by_cases hx : xs = []
          · rw [z1 hx]
            constructor
            · intro h; exact ⟨h, fun b e => by cases e; exact hnil.mp hx⟩
            · exact fun h => h.1
          · rw [e1 hx]
            simp only [Bool.false_eq_true, false_iff, not_and]
            intro _ h
            exact hx (hnil.mpr (h a rfl))
        · intro h
          by_cases hx : xs = []
          · exact z1 hx
          · rw [e1 hx] at h; cases h
        · rw [a1]; rfl
        · intro y hy
          exact u1 y (fun h => hy ((hmem y).mp h).2)
        · intro b e y hy hya
          cases e
          exact v1 y ((hmem y).mpr ⟨hya, hy⟩)
    obtain ⟨s1, r1, K1, o1, e1, z1, R, a1, u1, v1⟩ := step
    have hsame : ∀ r ∈ rels, getFamilyFieldAtLevel s1.mesh r = getFamilyFieldAtLevel st.mesh r := fun r hr => o1 r (fun e => hn.1 (e ▸ hr))
    obtain ⟨s2, r2, K2, o2, e2, z2, q2⟩ := ih s1 K1 hn.2 (fun r hr => by rw [hsame r hr]; exact hex r (by simp [hr]))
    refine ⟨s2, by rw [List.foldlM_cons, r1, ok_bind, r2], K2, ?_, ?_, ?_, ?_⟩
    · intro r hr
      simp only [List.mem_cons, not_or] at hr
      rw [o2 r hr.2, o1 r hr.1]
    · rw [e2, e1]
      constructor
      · rintro ⟨⟨h1, h2⟩, h3⟩
        refine ⟨h1, fun r hr => ?_⟩
        rcases List.mem_cons.mp hr with rfl | hr
        · exact h2
        · rw [← hsame r hr]; exact h3 r hr
      · rintro ⟨h1, h2⟩
        exact ⟨⟨h1, h2 rel (by simp)⟩, fun r hr => by rw [hsame r hr]; exact h2 r (by simp [hr])⟩
    · intro h
      have h1 := z2 h
      rw [h1] at h
      rw [h1, z1 h]
    · intro r hr
      rcases List.mem_cons.mp hr with rfl | hr
      · exact ⟨R, by rw [o2 r hn.1, a1], u1, v1⟩
      · have := q2 r hr
        rw [hsame r hr] at this
        exact this

theorem foldl_maxid_ge (l : List (Name × Int)) : ∀ r : Int, r ≤ l.foldl (fun r p => max p.2 r) r ∧ ∀ p ∈ l, p.2 ≤ l.foldl (fun r p => max p.2 r) r := by
  induction l with
  | nil => simp
  | cons q l ih =>
    intro r
    rw [List.foldl_cons]
    obtain ⟨h1, h2⟩ := ih (max q.2 r)
    have h3 := le_max_left q.2 r
    have h4 := le_max_right q.2 r
    refine ⟨by omega, fun p hp => ?_⟩
    rcases List.mem_cons.mp hp with rfl | hp
    · omega
    · exact h2 p hp

theorem keepNext_ok (m : FamMesh) : ∃ next, keepNext m = .ok next ∧ ∀ f i, mget f m.families = some i → i < next := by
  unfold keepNext
  split
  · rename_i h
    refine ⟨1, rfl, ?_⟩
    intro f i hf
    rw [h] at hf
    simp [mget] at hf
  · rename_i h
    unfold getMaxFamilyId
    rw [if_neg h, ok_bind]
    refine ⟨_, rfl, ?_⟩
    intro f i hf
    have := (foldl_maxid_ge m.families (-mcIdMax)).2 (f, i) (mget_mem hf)
    simp only at this
    omega

/-- **C95.** `keepFamIdsOnlyOnLevs`, when the ids are those of families, no entity has an id larger than those of all families and no
family is named after a larger id: the entities of all groups remain the same at all levels; at the levels that are not among those given
no entity is in the families any more, the entities of the other families keep theirs; the given levels are not touched; the
answer says if nothing had to be changed. -/
theorem C95_keep_on_levels (m : FamMesh) (hw : FamOK m) (famIds levs : List Int) (hids : ∀ x ∈ famIds, ∃ f, mget f m.families = some x)
    (hval : ∀ rel a, getFamilyFieldAtLevel m rel = .ok (some a) → ∀ x ∈ a, ∃ f i, mget f m.families = some i ∧ x ≤ i)
    (hfree : ∀ k : Int, mget (familyName k) m.families ≠ none → ∃ f i, mget f m.families = some i ∧ k ≤ i) :
    ∃ same m', keepFamIdsOnlyOnLevs m famIds levs = .ok (same, m') ∧ FamOK m' ∧
      (∀ g, mget g m'.groups ≠ none ↔ mget g m.groups ≠ none) ∧
      (∀ rel g, mget g m.groups ≠ none → getGroupArr m' rel g = getGroupArr m rel g) ∧
      (∀ rel ∈ levs, getFamilyFieldAtLevel m' rel = getFamilyFieldAtLevel m rel) ∧
      (∀ rel a, rel ∉ levs → getFamilyFieldAtLevel m rel = .ok (some a) → ∃ a', getFamilyFieldAtLevel m' rel = .ok (some a') ∧
        a'.length = a.length ∧ (∀ y ∈ a', y ∉ famIds) ∧ ∀ k : Nat, ∀ y, a[k]? = some y → y ∉ famIds → a'[k]? = some y) ∧
      (same = true ↔ ∀ rel a, rel ∉ levs → getFamilyFieldAtLevel m rel = .ok (some a) → ∀ y ∈ a, y ∉ famIds) ∧
      (same = true → m' = m) := by
  obtain ⟨next, hnext, hlt⟩ := keepNext_ok m
  obtain ⟨rels, hrels⟩ : ∃ rels, rels = (setInsertAll [] (m.levs.map FamLev.rel)).filter fun r => decide (r ∉ levs) := ⟨_, rfl⟩
  have hmem : ∀ r, r ∈ rels ↔ (∃ l ∈ m.levs, l.rel = r) ∧ r ∉ levs := by
    intro r
    rw [hrels, List.mem_filter, mem_setInsertAll]
    simp
  have hnod : rels.Nodup := by
    rw [hrels]
    exact List.Nodup.filter _ (StrictSorted.nodup (sorted_setInsertAll (by simp [StrictSorted])))
  have K : Kept m next ⟨true, m, next⟩ := by
    refine ⟨hw, le_refl _, ?_, hlt, ?_, fun _ _ h => h, fun _ => Iff.rfl, fun _ _ _ => rfl, rfl⟩
    · intro rel a ha x hx
      obtain ⟨f, i, hf, hle⟩ := hval rel a ha x hx
      have := hlt f i hf
      simp only
      omega
    · intro k hk
      by_contra h
      obtain ⟨f, i, hf, hle⟩ := hfree k h
      have := hlt f i hf
      simp only at hk
      omega
  have hall : ∀ k, next ≤ k → familyName k ∉ m.families.map (·.1) := fun k hk => mget_none.mp (K.fresh k hk)
  have hfids : ∀ x ∈ famIds, x < next ∧ ∃ f, mget f m.families = some x := by
    intro x hx
    obtain ⟨f, hf⟩ := hids x hx
    exact ⟨hlt f x hf, f, hf⟩
  obtain ⟨st, r1, K1, o1, e1, z1, q1⟩ := keepLevs_ok (m.families.map (·.1)) hall famIds hfids rels ⟨true, m, next⟩ K hnod (by
    intro r hr
    obtain ⟨⟨l, hl, rfl⟩, _⟩ := (hmem r).mp hr
    exact ⟨_, field_eq (mem_famLev hw.levs hl)⟩)
  have hin : ∀ rel a, getFamilyFieldAtLevel m rel = .ok (some a) → rel ∉ levs → rel ∈ rels := by
    intro rel a ha hr
    obtain ⟨l, hl, _⟩ := field_some ha
    obtain ⟨h1, h2⟩ := famLev_mem hl
    exact (hmem rel).mpr ⟨⟨l, h1, h2⟩, hr⟩
  refine ⟨st.same, st.mesh, ?_, K1.ok, K1.grps, K1.arr, ?_, ?_, ?_, ?_⟩
  · unfold keepFamIdsOnlyOnLevs
    rw [hnext, ok_bind, ← hrels, r1, ok_bind]
  · intro rel hr
    exact o1 rel (fun h => ((hmem rel).mp h).2 hr)
  · intro rel a hr ha
    obtain ⟨R, hR, u, v⟩ := q1 rel (hin rel a ha hr)
    simp only [ha] at hR v
    refine ⟨a.map R, hR, by simp, ?_, ?_⟩
    · intro y hy hf
      obtain ⟨z, hz, rfl⟩ := List.mem_map.mp hy
      by_cases hzf : z ∈ famIds
      · have := v a rfl z hzf hz
        have := (hfids _ hf).1
        omega
      · rw [u z hzf] at hf
        exact hzf hf
    · intro k y hk hy
      rw [List.getElem?_map, hk, Option.map_some, u y hy]
  · rw [e1]
    simp only [true_and]
    constructor
    · intro h rel a hr ha
      exact h rel (hin rel a ha hr) a ha
    · intro h rel hr a ha
      exact h rel a ((hmem rel).mp hr).2 ha
  · intro h
    rw [z1 h]

/-- The family of the group `b` on the cells is also put on the nodes 1 and 2: they get a family of their own. -/
example : (do
      let m : FamMesh := { famWFSample with levs := [⟨1, 4, some [0, -2, -2, 3]⟩, ⟨0, 5, some [-1, 0, -2, -1, -4]⟩] }
      let r ← keepFamIdsOnlyOnLevs m [-2, 3] [0]
      let g ← [['a'], ['b']].mapM (getGroupArr m 1)
      let g' ← [['a'], ['b']].mapM (getGroupArr r.2 1)
      (.ok (r.1, r.2.levs.map FamLev.fam, g, g') : M _)) =
    .ok (false, [some [0, 4, 4, 5], some [-1, 0, -2, -1, -4]], [[1, 2], [1, 2, 3]], [[1, 2], [1, 2, 3]]) := by decide +kernel

/-- **C95.** Finding: when all families have negative ids, as those of the cells, the first new family gets the id 0 (the one after the largest),
and the nodes that have no family enter the group. -/
theorem C95_finding_zero_id :
    (do
      let m : FamMesh := ⟨[⟨1, 3, some [0, -1, 0]⟩, ⟨0, 2, some [-1, -1]⟩], [(['x'], -1)], [(['a'], [['x']])]⟩
      let g ← getGroupArr m 1 ['a']
      let r ← keepFamIdsOnlyOnLevs m [-1] [0]
      let g' ← getGroupArr r.2 1 ['a']
      (.ok (r.1, g, g') : M _)) = .ok (false, [1], [0, 1, 2]) := by decide +kernel

end MC
