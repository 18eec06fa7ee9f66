import Verif.FamEditRearr

/-!
# Families and groups of a MED file mesh: merge of the families with the same groups (C94)
-/

namespace MC

/-! ## The sets of families with the same groups -/

theorem nameInsert_sorted (k : Name) : ∀ (l : List Name), l.Pairwise (· < ·) → (nameInsert k l).Pairwise (· < ·) := by
  intro l
  induction l with
  | nil => intro _; simp [nameInsert]
  | cons x l ih =>
    intro h
    have h' := List.pairwise_cons.mp h
    unfold nameInsert
    split
    · exact h
    · rename_i hne
      split
      · rename_i hlt
        rw [List.pairwise_cons]
        refine ⟨fun y hy => ?_, h⟩
        rcases List.mem_cons.mp hy with rfl | hy
        · exact hlt
        · exact lt_trans hlt (h'.1 y hy)
      · rename_i hlt
        rw [List.pairwise_cons]
        refine ⟨fun y hy => ?_, ih h'.2⟩
        rcases (mem_nameInsert k y l).mp hy with rfl | hy
        · exact lt_of_le_of_ne (not_lt.mp hlt) hne
        · exact h'.1 y hy

theorem nameInserts_sorted (l : List Name) : ∀ (s : List Name), s.Pairwise (· < ·) → (l.foldl (fun s f => nameInsert f s) s).Pairwise (· < ·) := by
  induction l with
  | nil => exact fun _ h => h
  | cons x l ih => intro s h; exact ih _ (nameInsert_sorted x s h)

theorem names_ext {l l' : List Name} (h : l.Pairwise (· < ·)) (h' : l'.Pairwise (· < ·)) (e : ∀ x, x ∈ l ↔ x ∈ l') : l = l' := by
  have n : l.Nodup := h.imp fun h => ne_of_lt h
  have n' : l'.Nodup := h'.imp fun h => ne_of_lt h
  exact List.Perm.eq_of_pairwise (le := (· < ·)) (fun a b _ _ h1 h2 => absurd (lt_trans h1 h2) (lt_irrefl a)) h h' ((List.perm_ext_iff_of_nodup n n').mpr e)

theorem mem_groupSet {m : FamMesh} (hk : KeysInc m.groups) (f g : Name) : g ∈ groupSet m f ↔ ∃ L, mget g m.groups = some L ∧ f ∈ L := by
  unfold groupSet
  rw [mem_nameInserts, (C92_groups_on_family m f hk).2]
  unfold getFamiliesOnGroup
  cases mget g m.groups <;> simp [throwX]

theorem groupSet_ext {m : FamMesh} (hk : KeysInc m.groups) {f f' : Name}
    (h : ∀ g, (∃ L, mget g m.groups = some L ∧ f ∈ L) ↔ ∃ L, mget g m.groups = some L ∧ f' ∈ L) : groupSet m f = groupSet m f' :=
  names_ext (nameInserts_sorted _ _ List.Pairwise.nil) (nameInserts_sorted _ _ List.Pairwise.nil) fun g => by
    rw [mem_groupSet hk, mem_groupSet hk]; exact h g

theorem bucketAdd_keys (k : List Name) (f : Name) (x : List Name) : ∀ (b : List (List Name × List Name)),
    x ∈ (bucketAdd k f b).map (·.1) ↔ x = k ∨ x ∈ b.map (·.1) := by
  intro b
  induction b with
  | nil => simp [bucketAdd]
  | cons p b ih =>
    unfold bucketAdd
    split
    · rename_i h; simp [h]
    · split
      · simp
      · rw [List.map_cons, List.mem_cons, ih, List.map_cons, List.mem_cons]
        tauto

theorem bucketAdd_sorted (k : List Name) (f : Name) : ∀ (b : List (List Name × List Name)), (b.map (·.1)).Pairwise (· < ·) →
    ((bucketAdd k f b).map (·.1)).Pairwise (· < ·) := by
  intro b
  induction b with
  | nil => intro _; simp [bucketAdd]
  | cons p b ih =>
    intro h
    have h' := h
    rw [List.map_cons, List.pairwise_cons] at h'
    unfold bucketAdd
    split
    · rename_i e
      rw [List.map_cons, ← e]
      exact h
    · rename_i hne
      split
      · rename_i hlt
        rw [List.map_cons, List.pairwise_cons]
        refine ⟨fun y hy => ?_, h⟩
        rcases List.mem_cons.mp hy with rfl | hy
        · exact hlt
        · exact lt_trans hlt (h'.1 y hy)
      · rename_i hlt
        rw [List.map_cons, List.pairwise_cons]
        refine ⟨fun y hy => ?_, ih h'.2⟩
        rcases (bucketAdd_keys k f y b).mp hy with rfl | hy
        · exact lt_of_le_of_ne (not_lt.mp hlt) hne
        · exact h'.1 y hy

theorem bucketAdd_mem (k : List Name) (f : Name) : ∀ (b : List (List Name × List Name)), (b.map (·.1)).Pairwise (· < ·) → ∀ p ∈ bucketAdd k f b,
    (p.1 ≠ k ∧ p ∈ b) ∨ (p.1 = k ∧ ((∃ q ∈ b, q.1 = k ∧ p.2 = q.2 ++ [f]) ∨ ((∀ q ∈ b, q.1 ≠ k) ∧ p.2 = [f]))) := by
  intro b
  induction b with
  | nil =>
    intro _ p hp
    simp only [bucketAdd, List.mem_singleton] at hp
    subst hp
    exact Or.inr ⟨rfl, Or.inr ⟨by simp, rfl⟩⟩
  | cons q b ih =>
    intro h p hp
    have h' := h
    rw [List.map_cons, List.pairwise_cons] at h'
    have hb : ∀ r ∈ b, q.1 < r.1 := fun r hr => h'.1 _ (List.mem_map.mpr ⟨r, hr, rfl⟩)
    unfold bucketAdd at hp
    split at hp
    · rename_i e
      rcases List.mem_cons.mp hp with rfl | hp
      · exact Or.inr ⟨rfl, Or.inl ⟨q, by simp, e, rfl⟩⟩
      · refine Or.inl ⟨fun e' => ?_, by simp [hp]⟩
        have := hb p hp
        rw [e, e'] at this
        exact lt_irrefl _ this
    · rename_i hne
      split at hp
      · rename_i hlt
        rcases List.mem_cons.mp hp with rfl | hp
        · refine Or.inr ⟨rfl, Or.inr ⟨fun r hr e => ?_, rfl⟩⟩
          rcases List.mem_cons.mp hr with rfl | hr
          · exact hne e
          · have := lt_trans hlt (hb r hr)
            rw [e] at this
            exact lt_irrefl _ this
        · refine Or.inl ⟨fun e => ?_, hp⟩
          rcases List.mem_cons.mp hp with rfl | hp
          · exact hne e
          · have := lt_trans hlt (hb p hp)
            rw [e] at this
            exact lt_irrefl _ this
      · rcases List.mem_cons.mp hp with rfl | hp
        · exact Or.inl ⟨hne, by simp⟩
        · rcases ih h'.2 p hp with ⟨h1, h2⟩ | ⟨h1, ⟨r, h2, h3, h4⟩ | ⟨h2, h3⟩⟩
          · exact Or.inl ⟨h1, by simp [h2]⟩
          · exact Or.inr ⟨h1, Or.inl ⟨r, by simp [h2], h3, h4⟩⟩
          · refine Or.inr ⟨h1, Or.inr ⟨fun r hr => ?_, h3⟩⟩
            rcases List.mem_cons.mp hr with rfl | hr
            · exact hne
            · exact h2 r hr

/-- The families of `P` with the set `k` of groups. -/
def withSet (m : FamMesh) (P : List Name) (k : List Name) : List Name := P.filter fun f => decide (groupSet m f = k)

theorem buckets_inv (m : FamMesh) (l : List (Name × Int)) : ∀ (P : List Name) (b : List (List Name × List Name)),
    (b.map (·.1)).Pairwise (· < ·) → (∀ p ∈ b, p.2 = withSet m P p.1 ∧ p.2 ≠ []) → (∀ f ∈ P, groupSet m f ∈ b.map (·.1)) →
    (∀ p ∈ l.foldl (fun b p => bucketAdd (groupSet m p.1) p.1 b) b, p.2 = withSet m (P ++ l.map (·.1)) p.1 ∧ p.2 ≠ []) ∧
    ∀ f ∈ P ++ l.map (·.1), groupSet m f ∈ (l.foldl (fun b p => bucketAdd (groupSet m p.1) p.1 b) b).map (·.1) := by
  induction l with
  | nil =>
    intro P b _ h2 h3
    rw [List.map_nil, List.append_nil]
    exact ⟨h2, h3⟩
  | cons q l ih =>
    intro P b h1 h2 h3
    have := ih (P ++ [q.1]) (bucketAdd (groupSet m q.1) q.1 b) (bucketAdd_sorted _ _ _ h1) ?_ ?_
    · rw [List.foldl_cons]
      simpa using this
    · intro p hp
      unfold withSet
      rw [List.filter_append]
      rcases bucketAdd_mem _ _ b h1 p hp with ⟨e, hb⟩ | ⟨e, ⟨r, hr, hr1, hr2⟩ | ⟨hn, hs⟩⟩
      · obtain ⟨h4, h5⟩ := h2 p hb
        refine ⟨?_, h5⟩
        rw [h4]
        unfold withSet
        simp [Ne.symm e]
      · obtain ⟨h4, h5⟩ := h2 r hr
        rw [hr2, h4, e, hr1]
        unfold withSet
        simp
      · rw [hs, e]
        have : P.filter (fun f => decide (groupSet m f = groupSet m q.1)) = [] := by
          rw [List.filter_eq_nil_iff]
          intro f hf
          simp only [decide_eq_true_eq]
          intro he
          obtain ⟨r, hr, hr1⟩ := List.mem_map.mp (h3 f hf)
          exact hn r hr (by rw [hr1, he])
        simp [this]
    · intro f hf
      rw [bucketAdd_keys]
      rcases List.mem_append.mp hf with hf | hf
      · exact Or.inr (h3 f hf)
      · rw [List.mem_singleton] at hf; subst hf; exact Or.inl rfl

/-- The family that stays of those with the same groups as `f`. -/
def zipRep (m : FamMesh) (f : Name) : Name := ((withSet m (m.families.map (·.1)) (groupSet m f)).head?).getD f

theorem buckets_spec (m : FamMesh) : (∀ p ∈ zipBuckets m, p.2 = withSet m (m.families.map (·.1)) p.1 ∧ p.2 ≠ []) ∧
    ∀ f ∈ m.families.map (·.1), ∃ p ∈ zipBuckets m, p.1 = groupSet m f := by
  obtain ⟨h1, h2⟩ := buckets_inv m m.families [] [] (by simp) (by simp) (by simp)
  refine ⟨by simpa [zipBuckets] using h1, fun f hf => ?_⟩
  have := h2 f (by simpa using hf)
  obtain ⟨p, hp, e⟩ := List.mem_map.mp this
  exact ⟨p, hp, e⟩

theorem zipRep_spec (m : FamMesh) {f : Name} (hf : f ∈ m.families.map (·.1)) :
    zipRep m f ∈ m.families.map (·.1) ∧ groupSet m (zipRep m f) = groupSet m f ∧ zipRep m (zipRep m f) = zipRep m f := by
  have hm : f ∈ withSet m (m.families.map (·.1)) (groupSet m f) := by simp only [withSet, List.mem_filter]; exact ⟨hf, by simp⟩
  have hr : zipRep m f ∈ withSet m (m.families.map (·.1)) (groupSet m f) := by
    unfold zipRep
    revert hm
    generalize withSet m (m.families.map (·.1)) (groupSet m f) = W
    cases W with
    | nil => simp
    | cons w W => simp
  have hr' := hr
  unfold withSet at hr'
  rw [List.mem_filter] at hr'
  have e : groupSet m (zipRep m f) = groupSet m f := by simpa using hr'.2
  refine ⟨hr'.1, e, ?_⟩
  have e2 : ∀ y, groupSet m y = groupSet m f → zipRep m y = zipRep m f := by
    intro y hy
    unfold zipRep
    rw [hy]
    revert hm
    generalize withSet m (m.families.map (·.1)) (groupSet m f) = W
    cases W with
    | nil => simp
    | cons w W => simp
  exact e2 _ e

theorem zipRep_congr (m : FamMesh) {f f' : Name} (hf : f ∈ m.families.map (·.1)) (h : groupSet m f = groupSet m f') : zipRep m f = zipRep m f' := by
  have hm : f ∈ withSet m (m.families.map (·.1)) (groupSet m f) := by simp only [withSet, List.mem_filter]; exact ⟨hf, by simp⟩
  unfold zipRep
  rw [← h]
  revert hm
  generalize withSet m (m.families.map (·.1)) (groupSet m f) = W
  cases W <;> simp

theorem bucket_mem (m : FamMesh) {p : List Name × List Name} (hp : p ∈ zipBuckets m) {f : Name} :
    f ∈ p.2 ↔ f ∈ m.families.map (·.1) ∧ groupSet m f = p.1 := by
  rw [((buckets_spec m).1 p hp).1]
  unfold withSet
  rw [List.mem_filter, decide_eq_true_eq]

theorem bucket_head (m : FamMesh) {p : List Name × List Name} (hp : p ∈ zipBuckets m) {f0 : Name} {rest : List Name} (h : p.2 = f0 :: rest)
    {f : Name} (hf : f ∈ p.2) : zipRep m f = f0 := by
  have e := ((bucket_mem m hp).mp hf).2
  unfold zipRep
  rw [e, ← ((buckets_spec m).1 p hp).1, h]
  rfl

theorem bucket_nodup (m : FamMesh) (hk : KeysInc m.families) {p : List Name × List Name} (hp : p ∈ zipBuckets m) : p.2.Nodup := by
  rw [((buckets_spec m).1 p hp).1]
  exact List.Nodup.filter _ (hk.imp fun h => ne_of_lt h)

/-- The families removed are those that are not the first of their set. -/
theorem mem_zipKill (m : FamMesh) (hk : KeysInc m.families) (f : Name) : f ∈ zipKill (zipBuckets m) ↔ f ∈ m.families.map (·.1) ∧ zipRep m f ≠ f := by
  unfold zipKill
  rw [List.mem_flatMap]
  constructor
  · rintro ⟨p, hp, hf⟩
    obtain ⟨h1, h2⟩ := (buckets_spec m).1 p hp
    obtain ⟨f0, rest, h⟩ := List.exists_cons_of_ne_nil h2
    rw [h, List.drop_succ_cons, List.drop_zero] at hf
    have hfp : f ∈ p.2 := by rw [h]; simp [hf]
    refine ⟨((bucket_mem m hp).mp hfp).1, ?_⟩
    rw [bucket_head m hp h hfp]
    have := bucket_nodup m hk hp
    rw [h, List.nodup_cons] at this
    exact fun e => this.1 (e ▸ hf)
  · rintro ⟨hf, hr⟩
    obtain ⟨p, hp, e⟩ := (buckets_spec m).2 f hf
    have hfp : f ∈ p.2 := (bucket_mem m hp).mpr ⟨hf, e.symm⟩
    obtain ⟨f0, rest, h⟩ := List.exists_cons_of_ne_nil ((buckets_spec m).1 p hp).2
    refine ⟨p, hp, ?_⟩
    rw [h, List.drop_succ_cons, List.drop_zero]
    have h0 := bucket_head m hp h hfp
    rw [h] at hfp
    rcases List.mem_cons.mp hfp with e | hfp
    · exact absurd (h0.trans e.symm) hr
    · exact hfp

/-! ## The loop on the sets -/

theorem sessionAdd_mem (k : Int) (vs : List Int) (x : Int) : ∀ (S : List (Int × List Int)), ∀ s ∈ sessionAdd k vs S,
    s ∈ S ∨ (s.1 = k ∧ (s.2 = vs ∨ ∃ t ∈ S, t.1 = k ∧ s.2 = t.2 ++ vs)) := by
  intro S
  induction S with
  | nil =>
    intro s hs
    simp only [sessionAdd, List.mem_singleton] at hs
    subst hs
    exact Or.inr ⟨rfl, Or.inl rfl⟩
  | cons t S ih =>
    intro s hs
    unfold sessionAdd at hs
    split at hs
    · rename_i e
      rcases List.mem_cons.mp hs with rfl | hs
      · exact Or.inr ⟨rfl, Or.inr ⟨t, by simp, e, rfl⟩⟩
      · exact Or.inl (by simp [hs])
    · split at hs
      · rcases List.mem_cons.mp hs with rfl | hs
        · exact Or.inr ⟨rfl, Or.inl rfl⟩
        · exact Or.inl hs
      · rcases List.mem_cons.mp hs with rfl | hs
        · exact Or.inl (by simp)
        · rcases ih s hs with h | ⟨h, h' | ⟨u, hu, h'⟩⟩
          · exact Or.inl (by simp [h])
          · exact Or.inr ⟨h, Or.inl h'⟩
          · exact Or.inr ⟨h, Or.inr ⟨u, by simp [hu], h'⟩⟩

theorem sessionAdd_keys (k : Int) (vs : List Int) (x : Int) : ∀ (S : List (Int × List Int)),
    x ∈ (sessionAdd k vs S).map (·.1) ↔ x = k ∨ x ∈ S.map (·.1) := by
  intro S
  induction S with
  | nil => simp [sessionAdd]
  | cons t S ih =>
    unfold sessionAdd
    split
    · rename_i h; simp [h]
    · split
      · simp
      · rw [List.map_cons, List.mem_cons, ih, List.map_cons, List.mem_cons]
        tauto

/-- A substitution replaces exactly the ids of the families whose remaining family has the id it puts. -/
def SessOK (m : FamMesh) (s : Int × List Int) : Prop :=
  ∀ x, x ∈ s.2 ↔ ∃ f, mget f m.families = some x ∧ mget (zipRep m f) m.families = some s.1

theorem sessions_ok (m : FamMesh) (id0 : Int) (ids : List Int) (hs : SessOK m (id0, ids)) : ∀ (ks : List Name) (S : List (Int × List Int)),
    (∀ s ∈ S, SessOK m s) → (∀ s ∈ ks.foldl (fun S _ => sessionAdd id0 ids S) S, SessOK m s) ∧
    (∀ x ∈ S.map (·.1), x ∈ (ks.foldl (fun S _ => sessionAdd id0 ids S) S).map (·.1)) ∧
    (ks ≠ [] → id0 ∈ (ks.foldl (fun S _ => sessionAdd id0 ids S) S).map (·.1)) := by
  intro ks
  induction ks with
  | nil => intro S h; exact ⟨h, fun _ h => h, fun h => absurd rfl h⟩
  | cons k ks ih =>
    intro S h
    obtain ⟨h1, h2, h3⟩ := ih (sessionAdd id0 ids S) (by
      intro s hs'
      rcases sessionAdd_mem id0 ids 0 S s hs' with hs' | ⟨e, e' | ⟨t, ht, e1, e2⟩⟩
      · exact h s hs'
      · have : s = (id0, ids) := Prod.ext e e'
        rw [this]; exact hs
      · intro x
        rw [e2, List.mem_append, h t ht x, e1, e]
        have := hs x
        simp only at this
        rw [this]
        simp)
    refine ⟨h1, fun x hx => h2 x ((sessionAdd_keys _ _ _ _).mpr (Or.inr hx)), fun _ => h2 _ ((sessionAdd_keys _ _ _ _).mpr (Or.inl rfl))⟩

theorem erases (rest : List Name) : ∀ (fs : List (Name × Int)), KeysInc fs → KeysInc (rest.foldl (fun fs f => merase f fs) fs) ∧
    ∀ f, mget f (rest.foldl (fun fs f => merase f fs) fs) = if f ∈ rest then none else mget f fs := by
  induction rest with
  | nil => intro fs h; exact ⟨h, by simp⟩
  | cons x rest ih =>
    intro fs h
    obtain ⟨h1, h2⟩ := ih (merase x fs) (keysInc_merase h)
    refine ⟨h1, fun f => ?_⟩
    rw [List.foldl_cons, h2, mget_merase]
    by_cases e : f = x
    · simp [e]
    · simp [e]

theorem setGroups (news : Name → List Name) (ks : List Name) : ∀ (gr : List (Name × List Name)), KeysInc gr →
    KeysInc (ks.foldl (fun gr g => mset g (news g) gr) gr) ∧
    ∀ g, mget g (ks.foldl (fun gr g => mset g (news g) gr) gr) = if g ∈ ks then some (news g) else mget g gr := by
  induction ks with
  | nil => intro gr h; exact ⟨h, by simp⟩
  | cons x ks ih =>
    intro gr h
    obtain ⟨h1, h2⟩ := ih (mset x (news x) gr) (keysInc_mset h)
    refine ⟨h1, fun g => ?_⟩
    rw [List.foldl_cons, h2, mget_mset]
    by_cases e : g = x
    · subst e; simp
    · simp [e]

/-- State after the sets `done`. -/
structure ZipInv (m : FamMesh) (kill : List Name) (done : List (List Name × List Name))
    (st : List (Name × List Name) × List (Name × Int) × List (Int × List Int)) : Prop where
  kg : KeysInc st.1
  kf : KeysInc st.2.1
  gn : ∀ g, mget g st.1 = none ↔ mget g m.groups = none
  gr : ∀ g L', mget g st.1 = some L' → ∃ L, mget g m.groups = some L ∧
    ((L' = L ∧ ∀ p ∈ done, g ∈ p.1 → p.2.drop 1 = []) ∨ ∀ f, f ∈ L' ↔ f ∈ L ∧ f ∉ kill)
  fs : ∀ f, mget f st.2.1 = if (∃ p ∈ done, f ∈ p.2.drop 1) then none else mget f m.families
  ses : ∀ s ∈ st.2.2, SessOK m s
  sall : ∀ p ∈ done, p.1 ≠ [] → ∀ f0 rest i, p.2 = f0 :: rest → rest ≠ [] → mget f0 m.families = some i → i ∈ st.2.2.map (·.1)

theorem zipLoop (m : FamMesh) (hw : FamOK m) : ∀ (todo done : List (List Name × List Name))
    (st : List (Name × List Name) × List (Name × Int) × List (Int × List Int)), (∀ p ∈ todo, p ∈ zipBuckets m) →
    ZipInv m (zipKill (zipBuckets m)) done st →
    ∃ st', todo.foldlM (zipOne m (zipKill (zipBuckets m))) st = .ok st' ∧ ZipInv m (zipKill (zipBuckets m)) (done ++ todo) st' := by
  intro todo
  induction todo with
  | nil => intro done st _ h; exact ⟨st, rfl, by simpa using h⟩
  | cons p todo ih =>
    intro done st hb h
    have hp := hb p (by simp)
    obtain ⟨f0, rest, hpe⟩ := List.exists_cons_of_ne_nil ((buckets_spec m).1 p hp).2
    rw [List.foldlM_cons]
    have key : ∃ st1, zipOne m (zipKill (zipBuckets m)) st p = .ok st1 ∧ ZipInv m (zipKill (zipBuckets m)) (done ++ [p]) st1 := by
      by_cases hrest : rest = []
      · subst hrest
        refine ⟨st, ?_, h.kg, h.kf, h.gn, ?_, ?_, h.ses, ?_⟩
        · unfold zipOne; rw [hpe]
        · intro g L' hL'
          obtain ⟨L, hL, h1 | h1⟩ := h.gr g L' hL'
          · refine ⟨L, hL, Or.inl ⟨h1.1, fun q hq hg => ?_⟩⟩
            rcases List.mem_append.mp hq with hq | hq
            · exact h1.2 q hq hg
            · rw [List.mem_singleton] at hq; subst hq; rw [hpe]; rfl
          · exact ⟨L, hL, Or.inr h1⟩
        · intro f
          rw [h.fs f]
          congr 1
          apply propext
          constructor
          · rintro ⟨q, hq, hf⟩; exact ⟨q, by simp [hq], hf⟩
          · rintro ⟨q, hq, hf⟩
            rcases List.mem_append.mp hq with hq | hq
            · exact ⟨q, hq, hf⟩
            · rw [List.mem_singleton] at hq; subst hq; rw [hpe] at hf; simp at hf
        · intro q hq hq1 f0' rest' i e e' hi
          rcases List.mem_append.mp hq with hq | hq
          · exact h.sall q hq hq1 f0' rest' i e e' hi
          · rw [List.mem_singleton] at hq; subst hq
            rw [hpe] at e
            exact absurd (List.cons.inj e).2.symm e'
      · obtain ⟨f1, rest', rfl⟩ := List.exists_cons_of_ne_nil hrest
        have hin : ∀ f ∈ f0 :: f1 :: rest', ∃ i, mget f m.families = some i := by
          intro f hf
          have := ((bucket_mem m hp).mp (by rw [hpe]; exact hf)).1
          by_contra hn
          push Not at hn
          exact (mget_none.mp (Option.eq_none_iff_forall_ne_some.mpr hn)) this
        obtain ⟨ids, i1, i2⟩ := getFamiliesIds_ok m (f0 :: f1 :: rest') hin
        obtain ⟨id0, hid0⟩ := hin f0 (by simp)
        have hso : SessOK m (id0, ids) := by
          intro x
          simp only
          rw [i2]
          constructor
          · rintro ⟨f, hf, hx⟩
            refine ⟨f, hx, ?_⟩
            rw [bucket_head m hp hpe (by rw [hpe]; exact hf)]
            exact hid0
          · rintro ⟨f, hx, hr⟩
            refine ⟨f, ?_, hx⟩
            have e := hw.inj _ _ _ hr hid0
            have hfm : f ∈ m.families.map (·.1) := List.mem_map.mpr ⟨_, mget_mem hx, rfl⟩
            have h0 : f0 ∈ p.2 := by rw [hpe]; simp
            rw [← hpe]
            refine (bucket_mem m hp).mpr ⟨hfm, ?_⟩
            rw [← (zipRep_spec m hfm).2.1, e]
            exact ((bucket_mem m hp).mp h0).2
        obtain ⟨g1, g2⟩ := setGroups (fun g => f0 :: ((mget g m.groups).getD []).filter fun f => decide (f ∉ zipKill (zipBuckets m))) p.1 st.1 h.kg
        obtain ⟨e1, e2⟩ := erases (f1 :: rest') st.2.1 h.kf
        obtain ⟨s1, s2, s3⟩ := sessions_ok m id0 ids hso p.1 st.2.2 h.ses
        have h0 : f0 ∈ p.2 := by rw [hpe]; simp
        have hk0 : f0 ∉ zipKill (zipBuckets m) := by
          rw [mem_zipKill m hw.kf]
          rintro ⟨_, hc⟩
          exact hc (bucket_head m hp hpe h0)
        have hgk : ∀ g ∈ p.1, ∃ L, mget g m.groups = some L ∧ f0 ∈ L := by
          intro g hg
          rw [← ((bucket_mem m hp).mp h0).2] at hg
          exact (mem_groupSet hw.kg f0 g).mp hg
        refine ⟨(p.1.foldl (fun gr g => mset g (f0 :: ((mget g m.groups).getD []).filter fun f => decide (f ∉ zipKill (zipBuckets m))) gr) st.1,
          (f1 :: rest').foldl (fun fs f => merase f fs) st.2.1, p.1.foldl (fun s _ => sessionAdd id0 ids s) st.2.2), ?_, ⟨g1, e1, ?_, ?_, ?_, s1, ?_⟩⟩
        · unfold zipOne
          rw [hpe]
          simp only
          rw [i1, ok_bind, hid0]
          rfl
        · intro g
          rw [g2]
          split
          · rename_i hg
            obtain ⟨L, hL, _⟩ := hgk g hg
            simp [hL]
          · exact h.gn g
        · intro g L' hL'
          rw [g2] at hL'
          split at hL'
          · rename_i hg
            obtain ⟨L, hL, hf0⟩ := hgk g hg
            refine ⟨L, hL, Or.inr fun f => ?_⟩
            rw [hL] at hL'
            simp only [Option.getD_some, Option.some.injEq] at hL'
            subst hL'
            rw [List.mem_cons, List.mem_filter, decide_eq_true_eq]
            constructor
            · rintro (rfl | h1)
              · exact ⟨hf0, hk0⟩
              · exact h1
            · exact fun h1 => Or.inr h1
          · rename_i hg
            obtain ⟨L, hL, h1 | h1⟩ := h.gr g L' hL'
            · refine ⟨L, hL, Or.inl ⟨h1.1, fun q hq hgq => ?_⟩⟩
              rcases List.mem_append.mp hq with hq | hq
              · exact h1.2 q hq hgq
              · rw [List.mem_singleton] at hq; subst hq; exact absurd hgq hg
            · exact ⟨L, hL, Or.inr h1⟩
        · intro f
          rw [e2, h.fs f]
          by_cases hf : f ∈ f1 :: rest'
          · rw [if_pos hf, if_pos]
            exact ⟨p, by simp, by rw [hpe]; exact hf⟩
          · rw [if_neg hf]
            congr 1
            apply propext
            constructor
            · rintro ⟨q, hq, hfq⟩; exact ⟨q, by simp [hq], hfq⟩
            · rintro ⟨q, hq, hfq⟩
              rcases List.mem_append.mp hq with hq | hq
              · exact ⟨q, hq, hfq⟩
              · rw [List.mem_singleton] at hq; subst hq; rw [hpe] at hfq; exact absurd hfq hf
        · intro q hq hq1 f0' r' i e e' hi
          rcases List.mem_append.mp hq with hq | hq
          · exact s2 i (h.sall q hq hq1 f0' r' i e e' hi)
          · rw [List.mem_singleton] at hq; subst hq
            rw [hpe] at e
            have := (List.cons.inj e).1
            subst this
            rw [hid0] at hi
            cases hi
            exact s3 hq1
    obtain ⟨st1, hk1, hk2⟩ := key
    rw [hk1, ok_bind]
    obtain ⟨st', h1, h2⟩ := ih (done ++ [p]) st1 (fun q hq => hb q (by simp [hq])) hk2
    exact ⟨st', h1, by simpa using h2⟩

/-! ## The substitutions -/

/-- The new id of the entities of id `x`. -/
def zipId (m : FamMesh) (x : Int) : Int :=
  match m.families.find? fun p => decide (p.2 = x) with
  | some p => (mget (zipRep m p.1) m.families).getD x
  | none => x

theorem zipId_some (m : FamMesh) (hw : FamOK m) {f : Name} {x : Int} (hx : mget f m.families = some x) : mget (zipRep m f) m.families = some (zipId m x) := by
  have hf : f ∈ m.families.map (·.1) := List.mem_map.mpr ⟨_, mget_mem hx, rfl⟩
  obtain ⟨i, hi⟩ : ∃ i, mget (zipRep m f) m.families = some i := by
    by_contra hn
    push Not at hn
    exact (mget_none.mp (Option.eq_none_iff_forall_ne_some.mpr hn)) (zipRep_spec m hf).1
  unfold zipId
  cases hc : m.families.find? fun p => decide (p.2 = x) with
  | none =>
    rw [List.find?_eq_none] at hc
    simpa using hc _ (mget_mem hx)
  | some p =>
    have h1 : p.2 = x := by simpa using List.find?_some hc
    have h2 := mem_mget hw.kf (k := p.1) (v := p.2) (List.mem_of_find?_eq_some hc)
    rw [h1] at h2
    have := hw.inj _ _ _ h2 hx
    simp only
    rw [this, hi]
    rfl

theorem zipId_none (m : FamMesh) {x : Int} (hx : ∀ f, mget f m.families ≠ some x) (hk : KeysInc m.families) : zipId m x = x := by
  unfold zipId
  cases hc : m.families.find? fun p => decide (p.2 = x) with
  | none => rfl
  | some p =>
    have h1 : p.2 = x := by simpa using List.find?_some hc
    have h2 := mem_mget hk (k := p.1) (v := p.2) (List.mem_of_find?_eq_some hc)
    rw [h1] at h2
    exact absurd h2 (hx _)

theorem sess_put (m : FamMesh) (hw : FamOK m) {s : Int × List Int} (hs : SessOK m s) (x : Int) : (x ∈ s.2 → s.1 = zipId m x) ∧
    (zipId m x ∈ s.2 → s.1 = zipId m x) := by
  constructor
  · intro h
    obtain ⟨f, h1, h2⟩ := (hs x).mp h
    rw [zipId_some m hw h1] at h2
    exact (Option.some.inj h2).symm
  · intro h
    obtain ⟨f, h1, h2⟩ := (hs _).mp h
    by_cases hx : ∃ f', mget f' m.families = some x
    · obtain ⟨f', hf'⟩ := hx
      have h3 := zipId_some m hw hf'
      have e := hw.inj _ _ _ h1 h3
      have hf'm : f' ∈ m.families.map (·.1) := List.mem_map.mpr ⟨_, mget_mem hf', rfl⟩
      rw [e, (zipRep_spec m hf'm).2.2, h3] at h2
      exact (Option.some.inj h2).symm
    · push Not at hx
      rw [zipId_none m hx hw.kf] at h1 h ⊢
      exact absurd h1 (hx f)

theorem zipLev_aux (m : FamMesh) (hw : FamOK m) (a : List Int) : ∀ (S : List (Int × List Int)) (c : List Int), (∀ s ∈ S, SessOK m s) →
    c.length = a.length → (∀ (k : Nat) (x : Int), a[k]? = some x → c[k]? = some x ∨ c[k]? = some (zipId m x)) →
    ∃ r, S.foldlM (fun c s => setPartSimple c s.1 (findIdsEqualList c s.2)) c = .ok r ∧ r.length = a.length ∧
      ∀ (k : Nat) (x : Int), a[k]? = some x → r[k]? = some (zipId m x) ∨ (r[k]? = some x ∧ c[k]? = some x ∧ ∀ s ∈ S, x ∉ s.2) := by
  intro S
  induction S with
  | nil =>
    intro c _ hl h
    refine ⟨c, rfl, hl, fun k x hx => ?_⟩
    rcases h k x hx with h | h
    · exact Or.inr ⟨h, h, by simp⟩
    · exact Or.inl h
  | cons s S ih =>
    intro c hS hl h
    rw [List.foldlM_cons]
    obtain ⟨q1, q2⟩ := findIdsEqualList_spec c s.2
    obtain ⟨c1, p1, p2, p3⟩ := setPartSimple_ok (findIdsEqualList c s.2) c s.1 (by
      intro i hi
      obtain ⟨k, rfl, x, hx, _⟩ := (q2 i).mp hi
      have := (List.getElem?_eq_some_iff.mp hx).1
      omega)
    rw [p1, ok_bind]
    have hs := hS s (by simp)
    have step : ∀ (k : Nat) (x y : Int), a[k]? = some x → c[k]? = some y → (y = x ∨ y = zipId m x) →
        (c1[k]? = some (zipId m x)) ∨ (c1[k]? = some x ∧ c[k]? = some x ∧ x ∉ s.2) := by
      intro k x y hx hy hyx
      rw [p3 k y hy]
      have hiff : (k : Int) ∈ findIdsEqualList c s.2 ↔ y ∈ s.2 := by
        rw [q2]
        constructor
        · rintro ⟨k', e, z, hz, hzs⟩
          have : k = k' := by omega
          subst this
          rw [hy] at hz
          cases hz
          exact hzs
        · exact fun h => ⟨k, rfl, y, hy, h⟩
      by_cases hys : y ∈ s.2
      · rw [if_pos (hiff.mpr hys)]
        left
        rcases hyx with rfl | rfl
        · rw [(sess_put m hw hs y).1 hys]
        · rw [(sess_put m hw hs x).2 hys]
      · rw [if_neg (fun hc => hys (hiff.mp hc))]
        rcases hyx with rfl | rfl
        · exact Or.inr ⟨rfl, hy, hys⟩
        · exact Or.inl rfl
    have step' : ∀ (k : Nat) (x : Int), a[k]? = some x → (c1[k]? = some (zipId m x)) ∨ (c1[k]? = some x ∧ c[k]? = some x ∧ x ∉ s.2) := by
      intro k x hx
      rcases h k x hx with h1 | h1
      · exact step k x x hx h1 (Or.inl rfl)
      · exact step k x _ hx h1 (Or.inr rfl)
    obtain ⟨r, r1, r2, r3⟩ := ih c1 (fun s hs => hS s (by simp [hs])) (by rw [p2, hl]) (by
      intro k x hx
      rcases step' k x hx with h1 | ⟨h1, _⟩
      · exact Or.inr h1
      · exact Or.inl h1)
    refine ⟨r, r1, r2, fun k x hx => ?_⟩
    rcases r3 k x hx with h1 | ⟨h1, h2, h3⟩
    · exact Or.inl h1
    · rcases step' k x hx with h4 | ⟨_, h5, h6⟩
      · rw [h2] at h4
        left
        rw [h1]
        exact h4
      · right
        refine ⟨h1, h5, fun t ht => ?_⟩
        rcases List.mem_cons.mp ht with rfl | ht
        · exact h6
        · exact h3 t ht

theorem zipLev_ok (m : FamMesh) (hw : FamOK m) (S : List (Int × List Int)) (hS : ∀ s ∈ S, SessOK m s)
    (hall : ∀ f x, mget f m.families = some x → zipId m x ≠ x → zipId m x ∈ S.map (·.1)) (l : FamLev) :
    zipLev S l = .ok { l with fam := l.fam.map (List.map (zipId m)) } := by
  unfold zipLev
  cases hl : l.fam with
  | none => cases l; simp_all
  | some a =>
    simp only [Option.map_some]
    obtain ⟨r, r1, r2, r3⟩ := zipLev_aux m hw a S a hS rfl (fun k x hx => Or.inl hx)
    rw [r1, ok_bind]
    congr 3
    apply List.ext_getElem?
    intro k
    rw [List.getElem?_map]
    cases hk : a[k]? with
    | none =>
      rw [List.getElem?_eq_none_iff] at hk
      simp [r2, hk]
    | some x =>
      rw [Option.map_some]
      rcases r3 k x hk with h | ⟨h1, _, h2⟩
      · exact h
      · rw [h1]
        congr 1
        by_contra hne
        by_cases hx : ∃ f, mget f m.families = some x
        · obtain ⟨f, hf⟩ := hx
          obtain ⟨s, hs, e⟩ := List.mem_map.mp (hall f x hf (Ne.symm hne))
          refine h2 s hs ((hS s hs x).mpr ⟨f, hf, ?_⟩)
          rw [e]
          exact zipId_some m hw hf
        · push Not at hx
          exact hne (zipId_none m hx hw.kf).symm

/-- **C94.** `zipFamilies` is refused exactly when a group lies on "FAMILLE_ZERO".  Otherwise all groups keep their entities at all levels, two different
families left never lie on the same groups, and the families left are families of the mesh with their ids. -/
theorem C94_zip (m : FamMesh) (hw : FamOK m) :
    (FamRef m dftFamName → zipFamilies m = .error .exn) ∧
    (¬ FamRef m dftFamName → ∃ m', zipFamilies m = .ok m' ∧ FamOK m' ∧
      (∀ g, mget g m'.groups = none ↔ mget g m.groups = none) ∧
      (∀ g, mget g m.groups ≠ none → ∀ rel, getGroupArr m' rel g = getGroupArr m rel g) ∧
      (∀ f f', mget f m'.families ≠ none → mget f' m'.families ≠ none → getGroupsOnFamily m' f = getGroupsOnFamily m' f' → f = f') ∧
      (∀ f i, mget f m'.families = some i → mget f m.families = some i ∧ (f = dftFamName ∨ FamRef m f))) := by
  obtain ⟨u1, u2, u3, u4, u5⟩ := C94_remove_unreferred m hw
  have hchk : (m.groups.any fun p => decide (dftFamName ∈ p.2)) = true ↔ FamRef m dftFamName := by
    rw [List.any_eq_true]
    constructor
    · rintro ⟨p, hp, h⟩
      exact ⟨p.1, p.2, mem_mget hw.kg hp, by simpa using h⟩
    · rintro ⟨g, L, hL, h⟩
      exact ⟨_, mget_mem hL, by simpa using h⟩
  unfold zipFamilies checkOrphanFamilyZero
  constructor
  · intro h
    rw [if_pos (hchk.mpr h)]; rfl
  · intro h
    rw [if_neg (fun hc => h (hchk.mp hc)), ok_bind]
    simp only
    set m1 := removeFamiliesReferedByNoGroups m with hm1
    obtain ⟨st, z1, z2⟩ := zipLoop m1 u1 (zipBuckets m1) [] (m1.groups, m1.families, []) (fun _ h => h)
      ⟨u1.kg, u1.kf, fun _ => Iff.rfl, fun g L hL => ⟨L, hL, Or.inl ⟨rfl, by simp⟩⟩, by simp, by simp, by simp⟩
    rw [z1, ok_bind]
    rw [List.nil_append] at z2
    have hfs : ∀ f i, mget f st.2.1 = some i ↔ mget f m1.families = some i ∧ zipRep m1 f = f := by
      intro f i
      rw [z2.fs f]
      have e : (∃ p ∈ zipBuckets m1, f ∈ p.2.drop 1) ↔ f ∈ zipKill (zipBuckets m1) := by
        unfold zipKill; rw [List.mem_flatMap]
      rw [mem_zipKill m1 u1.kf] at e
      constructor
      · intro h1
        split at h1
        · cases h1
        · rename_i hc
          refine ⟨h1, ?_⟩
          by_contra hr
          exact hc (e.mpr ⟨List.mem_map.mpr ⟨_, mget_mem h1, rfl⟩, hr⟩)
      · rintro ⟨h1, h2⟩
        rw [if_neg (fun hc => (e.mp hc).2 h2)]
        exact h1
    have hgr : ∀ g L', mget g st.1 = some L' → ∃ L, mget g m1.groups = some L ∧ ∀ f, f ∈ L' ↔ f ∈ L ∧ zipRep m1 f = f := by
      intro g L' hL'
      obtain ⟨L, hL, h1 | h1⟩ := z2.gr g L' hL'
      · refine ⟨L, hL, fun f => ?_⟩
        rw [h1.1]
        refine ⟨fun hf => ⟨hf, ?_⟩, fun hf => hf.1⟩
        by_contra hr
        obtain ⟨i, hi⟩ := u1.ok g L hL f hf
        have hfm : f ∈ m1.families.map (·.1) := List.mem_map.mpr ⟨_, mget_mem hi, rfl⟩
        obtain ⟨p, hp, e⟩ := (buckets_spec m1).2 f hfm
        have hk : f ∈ p.2 := (bucket_mem m1 hp).mpr ⟨hfm, e.symm⟩
        have := h1.2 p hp (by rw [e]; exact (mem_groupSet u1.kg f g).mpr ⟨L, hL, hf⟩)
        obtain ⟨f0, rest, hpe⟩ := List.exists_cons_of_ne_nil ((buckets_spec m1).1 p hp).2
        have h0 := bucket_head m1 hp hpe hk
        rw [hpe, List.drop_succ_cons, List.drop_zero] at this
        rw [hpe, this, List.mem_singleton] at hk
        exact hr (h0.trans hk.symm)
      · refine ⟨L, hL, fun f => ?_⟩
        rw [h1, mem_zipKill m1 u1.kf]
        constructor
        · rintro ⟨hf, hn⟩
          refine ⟨hf, ?_⟩
          by_contra hr
          obtain ⟨i, hi⟩ := u1.ok g L hL f hf
          exact hn ⟨List.mem_map.mpr ⟨_, mget_mem hi, rfl⟩, hr⟩
        · rintro ⟨hf, hr⟩
          exact ⟨hf, fun hn => hn.2 hr⟩
    have hall : ∀ f x, mget f m1.families = some x → zipId m1 x ≠ x → zipId m1 x ∈ st.2.2.map (·.1) := by
      intro f x hx hne
      have hrep := zipId_some m1 u1 hx
      have hfm : f ∈ m1.families.map (·.1) := List.mem_map.mpr ⟨_, mget_mem hx, rfl⟩
      have hrf : zipRep m1 f ≠ f := by
        intro e
        rw [e, hx] at hrep
        exact hne (Option.some.inj hrep).symm
      obtain ⟨p, hp, e⟩ := (buckets_spec m1).2 f hfm
      have hk : f ∈ p.2 := (bucket_mem m1 hp).mpr ⟨hfm, e.symm⟩
      obtain ⟨f0, rest, hpe⟩ := List.exists_cons_of_ne_nil ((buckets_spec m1).1 p hp).2
      have h0 := bucket_head m1 hp hpe hk
      refine z2.sall p hp ?_ f0 rest _ hpe ?_ (h0 ▸ hrep)
      · intro hp1
        have hno : ∀ f', f' ∈ m1.families.map (·.1) → groupSet m1 f' = [] → f' = dftFamName := by
          intro f' hf' he
          obtain ⟨⟨n, i⟩, hn, rfl⟩ := List.mem_map.mp hf'
          rcases ((u4 n i).mp (mem_mget u1.kf hn)).2 with h1 | ⟨g, L, hL, hfL⟩
          · exact h1
          · have := (mem_groupSet u1.kg n g).mpr ⟨L, by rw [u3]; exact hL, hfL⟩
            simp only at he
            rw [he] at this
            simp at this
        have hr := zipRep_spec m1 hfm
        have h1 := hno f hfm (by rw [← e, hp1])
        have h2 := hno _ hr.1 (by rw [hr.2.1, ← e, hp1])
        exact hrf (h2.trans h1.symm)
      · intro hr
        rw [hpe, hr, List.mem_singleton] at hk
        exact hrf (h0.trans hk.symm)
    have hlevs : m1.levs.mapM (zipLev st.2.2) = .ok (relabel (zipId m1) m1.levs) :=
      dec_mapM_ok fun l _ => zipLev_ok m1 u1 st.2.2 z2.ses hall l
    rw [hlevs, ok_bind]
    have hgn : ∀ g, mget g st.1 = none ↔ mget g m.groups = none := fun g => by rw [z2.gn, u3]
    have hok : GroupsOK ⟨relabel (zipId m1) m1.levs, st.2.1, st.1⟩ := by
      intro g L' hL' f hf
      obtain ⟨L, hL, h1⟩ := hgr g L' hL'
      obtain ⟨h2, h3⟩ := (h1 f).mp hf
      obtain ⟨i, hi⟩ := u1.ok g L hL f h2
      exact ⟨i, (hfs f i).mpr ⟨hi, h3⟩⟩
    have hmem : ∀ g f, (∃ L', mget g st.1 = some L' ∧ f ∈ L') ↔ (∃ L, mget g m1.groups = some L ∧ f ∈ L) ∧ zipRep m1 f = f := by
      intro g f
      constructor
      · rintro ⟨L', hL', hf⟩
        obtain ⟨L, hL, h1⟩ := hgr g L' hL'
        exact ⟨⟨L, hL, ((h1 f).mp hf).1⟩, ((h1 f).mp hf).2⟩
      · rintro ⟨⟨L, hL, hf⟩, hr⟩
        have hne : mget g st.1 ≠ none := by
          intro hc
          rw [(z2.gn g).mp hc] at hL
          cases hL
        obtain ⟨L', hL'⟩ := Option.ne_none_iff_exists'.mp hne
        obtain ⟨L2, hL2, h1⟩ := hgr g L' hL'
        rw [hL] at hL2
        cases hL2
        exact ⟨L', hL', (h1 f).mpr ⟨hf, hr⟩⟩
    refine ⟨_, rfl, ⟨z2.kf, z2.kg, hok, ?_, ?_⟩, hgn, ?_, ?_, ?_⟩
    · intro f f' i h1 h2
      exact u1.inj f f' i ((hfs f i).mp h1).1 ((hfs f' i).mp h2).1
    · simp only [relabel, List.map_map]; exact u1.levs
    · intro g hg rel
      rw [← u5 g hg rel]
      refine same_group (zipId m1) rfl u1.ok hok (by rw [u3]; exact hg) (fun hc => hg ((hgn g).mp hc)) ?_ rel
      intro l hl a hla x hx
      constructor
      · rintro ⟨L', hL', f, hf, h1⟩
        obtain ⟨⟨L, hL, hfL⟩, hr⟩ := (hmem g f).mp ⟨L', hL', hf⟩
        have h1 := ((hfs f _).mp h1).1
        by_cases hxf : ∃ f1, mget f1 m1.families = some x
        · obtain ⟨f1, hf1⟩ := hxf
          have e := u1.inj _ _ _ h1 (zipId_some m1 u1 hf1)
          have hf1m : f1 ∈ m1.families.map (·.1) := List.mem_map.mpr ⟨_, mget_mem hf1, rfl⟩
          have hg1 : g ∈ groupSet m1 f1 := by
            rw [← (zipRep_spec m1 hf1m).2.1, ← e]
            exact (mem_groupSet u1.kg f g).mpr ⟨L, hL, hfL⟩
          obtain ⟨L1, hL1, hfL1⟩ := (mem_groupSet u1.kg f1 g).mp hg1
          exact ⟨L1, hL1, f1, hfL1, hf1⟩
        · push Not at hxf
          rw [zipId_none m1 hxf u1.kf] at h1
          exact absurd h1 (hxf f)
      · rintro ⟨L, hL, f1, hf1, hx1⟩
        have hf1m : f1 ∈ m1.families.map (·.1) := List.mem_map.mpr ⟨_, mget_mem hx1, rfl⟩
        obtain ⟨s1, s2, s3⟩ := zipRep_spec m1 hf1m
        have hg1 : g ∈ groupSet m1 (zipRep m1 f1) := by
          rw [s2]; exact (mem_groupSet u1.kg f1 g).mpr ⟨L, hL, hf1⟩
        obtain ⟨L', hL', hfL'⟩ := (hmem g (zipRep m1 f1)).mpr ⟨(mem_groupSet u1.kg _ g).mp hg1, s3⟩
        exact ⟨L', hL', zipRep m1 f1, hfL', (hfs _ _).mpr ⟨zipId_some m1 u1 hx1, s3⟩⟩
    · intro f f' hf hf' he
      obtain ⟨i, hi⟩ := Option.ne_none_iff_exists'.mp hf
      obtain ⟨i', hi'⟩ := Option.ne_none_iff_exists'.mp hf'
      obtain ⟨hi, hr⟩ := (hfs f i).mp hi
      obtain ⟨hi', hr'⟩ := (hfs f' i').mp hi'
      have hfm : f ∈ m1.families.map (·.1) := List.mem_map.mpr ⟨_, mget_mem hi, rfl⟩
      rw [← hr, ← hr']
      apply zipRep_congr m1 hfm
      apply groupSet_ext u1.kg
      have hon : ∀ f g, g ∈ getGroupsOnFamily ⟨relabel (zipId m1) m1.levs, st.2.1, st.1⟩ f ↔ ∃ L', mget g st.1 = some L' ∧ f ∈ L' := by
        intro f g
        rw [(C92_groups_on_family _ f z2.kg).2]
        unfold getFamiliesOnGroup
        simp only
        cases mget g st.1 <;> simp [throwX]
      intro g
      have h1 := hmem g f
      have h2 := hmem g f'
      rw [← hon, and_iff_left hr] at h1
      rw [← hon, and_iff_left hr'] at h2
      rw [← h1, ← h2, he]
    · intro f i hf
      exact (u4 f i).mp ((hfs f i).mp hf).1

/-- Two families with the groups a and b, one with a only, one with none. -/
def famZipSample : FamMesh :=
  ⟨[⟨0, 5, some [-1, -2, -3, -2, -7]⟩, ⟨1, 2, some [3, -1]⟩],
   [(['n'], -7), (['x'], -1), (['y'], -2), (['z'], -3), (['z', 'n'], 3)],
   [(['a'], [['x'], ['y'], ['z']]), (['b'], [['x'], ['y'], ['z', 'n']])]⟩

example : (do
    let m ← zipFamilies famZipSample
    [0, 1].mapM fun (rel : Int) => [['a'], ['b']].mapM (getGroupArr m rel)) = .ok [[[0, 1, 2, 3], [0, 1, 3]], [[1], [0, 1]]] ∧
    (do let m ← zipFamilies famZipSample; (.ok (m.families, m.levs.map FamLev.fam) : M _)) =
      .ok ([(['x'], -1), (['z'], -3), (['z', 'n'], 3)], [some [-1, -1, -3, -1, -7], some [3, -1]]) := by
  decide +kernel

/-- **C94.** Finding: `zipFamilies` leaves the name of the family it keeps twice in its groups; `changeFamilyName` then renames only one and the
group cannot be read any more. -/
theorem C94_finding_zip_twice :
    (do let m ← zipFamilies famZipSample; (.ok (mget ['a'] m.groups) : M _)) = .ok (some [['x'], ['x'], ['z']]) ∧
    (do
      let m ← zipFamilies famZipSample
      let m ← changeFamilyName m ['x'] ['w']
      getGroupArr m 0 ['a']) = .error .exn := by decide +kernel

end MC
