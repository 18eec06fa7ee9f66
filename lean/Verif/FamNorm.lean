import Verif.FamKeep

/-!
# Families and groups of a MED file mesh: normalisation of the ids (C95)
-/

namespace MC

theorem famIdsToRenum_nil (m : FamMesh) : famIdsToRenum m = [] := by
  unfold famIdsToRenum
  suffices h : ∀ ls : List FamLev, ls.foldl (fun ren l => match l.fam with
      | none => ren
      | some a =>
        let r2 := (getDifferentValues a).filter fun x => decide (x ∈ ([] : List Int))
        if r2 = [] then ren else ren ++ [(l.rel, r2)]) ([] : List (Int × List Int)) = [] from h _
  intro ls
  induction ls with
  | nil => rfl
  | cons l ls ih =>
    rw [List.foldl_cons]
    have : (match l.fam with
      | none => ([] : List (Int × List Int))
      | some a =>
        let r2 := (getDifferentValues a).filter fun x => decide (x ∈ ([] : List Int))
        if r2 = [] then [] else [] ++ [(l.rel, r2)]) = [] := by
      cases l.fam <;> simp
    rw [this]
    exact ih

theorem ensureDifferent_ok (m : FamMesh) : ensureDifferentFamIdsPerLevel m = if m.families = [] then .error .exn else .ok true := by
  unfold ensureDifferentFamIdsPerLevel getMaxFamilyId
  split
  · rfl
  · rw [ok_bind, if_pos (famIdsToRenum_nil m)]

/-- **C95.** Finding: `ensureDifferentFamIdsPerLevel` announces, for any mesh that has families, that no id had to be changed, also when
one is used at several levels: the ids of the levels seen are never remembered. -/
theorem C95_finding_ensure_different (m : FamMesh) (h : m.families ≠ []) : ensureDifferentFamIdsPerLevel m = .ok true := by
  rw [ensureDifferent_ok, if_neg h]

example : ensureDifferentFamIdsPerLevel ⟨[⟨1, 2, some [-1, -1]⟩, ⟨0, 2, some [-1, -1]⟩], [(['x'], -1)], []⟩ = .ok true := by decide +kernel

/-- The array of a level. -/
def FieldAt (m : FamMesh) (rel : Int) (a : List Int) : Prop := getFamilyFieldAtLevel m rel = .ok (some a)

/-- What holds after the levels `done`, the value `x` of the level `rel` having been replaced by `N rel x`. -/
structure Normed (m : FamMesh) (kind : Int → NormKind) (done : List Int) (st : NormSt) (N : Int → Int → Int) : Prop where
  pos : 1 ≤ st.pos
  neg : st.neg ≤ -1
  rels : st.levs.map (·.rel) = m.levs.map (·.rel)
  field : ∀ rel, getFamilyFieldAtLevel { m with levs := st.levs } rel =
    if rel ∈ done then (getFamilyFieldAtLevel m rel).map (Option.map (List.map (N rel))) else getFamilyFieldAtLevel m rel
  up : ∀ rel ∈ done, ∀ a, FieldAt m rel a → ∀ x ∈ a, kind rel = .up → 1 ≤ N rel x ∧ N rel x < st.pos
  down : ∀ rel ∈ done, ∀ a, FieldAt m rel a → ∀ x ∈ a, kind rel = .down → st.neg < N rel x ∧ N rel x ≤ -1
  zero : ∀ rel ∈ done, ∀ a, FieldAt m rel a → ∀ x ∈ a, kind rel = .zero → N rel x = 0
  inj : ∀ rel ∈ done, ∀ rel' ∈ done, ∀ a a' x x', FieldAt m rel a → FieldAt m rel' a' → x ∈ a → x' ∈ a' → kind rel ≠ .zero → kind rel' ≠ .zero →
    N rel x = N rel' x' → rel = rel' ∧ x = x'
  kf : KeysInc st.fams
  sound : ∀ f v, mget f st.fams = some v → ∃ rel ∈ done, ∃ a x, FieldAt m rel a ∧ x ∈ a ∧ mget f m.families = some x ∧ v = N rel x
  total : ∀ rel ∈ done, ∀ a x f, FieldAt m rel a → x ∈ a → mget f m.families = some x → mget f st.fams ≠ none

theorem existsFamilyId_iff {m : FamMesh} (h : KeysInc m.families) (x : Int) : existsFamilyId m x = true ↔ ∃ f, mget f m.families = some x := by
  unfold existsFamilyId
  rw [List.any_eq_true]
  constructor
  · rintro ⟨p, hp, e⟩
    exact ⟨p.1, mem_mget h (by rw [← show p.2 = x by simpa using e]; exact hp)⟩
  · rintro ⟨f, hf⟩
    exact ⟨(f, x), mget_mem hf, by simp⟩

theorem normFams_ok {m : FamMesh} (hw : FamOK m) (ren : Int → Int) (tmp : List Int) : ∀ (fams : List (Name × Int)), KeysInc fams →
    ∃ fams', normFams m ren tmp fams = .ok fams' ∧ KeysInc fams' ∧
      (∀ f v, mget f fams' = some v → mget f fams = some v ∨ ∃ x ∈ tmp, mget f m.families = some x ∧ v = ren x) ∧
      (∀ f x, x ∈ tmp → mget f m.families = some x → mget f fams' ≠ none) ∧ ∀ f, mget f fams ≠ none → mget f fams' ≠ none := by
  induction tmp with
  | nil => intro fams h; exact ⟨fams, rfl, h, fun _ _ h => Or.inl h, by simp, fun _ h => h⟩
  | cons x tmp ih =>
    intro fams h
    unfold normFams
    rw [List.foldlM_cons]
    by_cases he : existsFamilyId m x = true
    · obtain ⟨f, hf⟩ := (existsFamilyId_iff hw.kf x).mp he
      obtain ⟨fams', r1, k1, s1, t1, u1⟩ := ih (mset f (ren x) fams) (keysInc_mset h)
      refine ⟨fams', ?_, k1, ?_, ?_, ?_⟩
      · rw [if_pos he, nameGivenId hw hf, ok_bind, ok_bind]
        exact r1
      · intro f' v hv
        rcases s1 f' v hv with h1 | ⟨y, hy, h1⟩
        · rw [mget_mset] at h1
          split at h1
          · rename_i e
            subst e
            cases h1
            exact Or.inr ⟨x, by simp, hf, rfl⟩
          · exact Or.inl h1
        · exact Or.inr ⟨y, by simp [hy], h1⟩
      · intro f' y hy hfy
        rcases List.mem_cons.mp hy with rfl | hy
        · have : f' = f := hw.inj f' f y hfy hf
          subst this
          exact u1 f' (by rw [mget_mset, if_pos rfl]; simp)
        · exact t1 f' y hy hfy
      · intro f' hf'
        apply u1
        rw [mget_mset]
        split
        · simp
        · exact hf'
    · obtain ⟨fams', r1, k1, s1, t1, u1⟩ := ih fams h
      refine ⟨fams', ?_, k1, ?_, ?_, u1⟩
      · rw [if_neg he, ok_bind]
        exact r1
      · intro f' v hv
        rcases s1 f' v hv with h1 | ⟨y, hy, h1⟩
        · exact Or.inl h1
        · exact Or.inr ⟨y, by simp [hy], h1⟩
      · intro f' y hy hfy
        rcases List.mem_cons.mp hy with rfl | hy
        · exact absurd ((existsFamilyId_iff hw.kf y).mpr ⟨f', hfy⟩) he
        · exact t1 f' y hy hfy

theorem normLev_ok {m : FamMesh} (hw : FamOK m) (kind : Int → NormKind) (done : List Int) (st : NormSt) (N : Int → Int → Int)
    (K : Normed m kind done st N) (rel : Int) (hr : rel ∉ done) (hex : ∃ o, getFamilyFieldAtLevel m rel = .ok o) :
    ∃ st' N', normLev m kind st rel = .ok st' ∧ Normed m kind (done ++ [rel]) st' N' := by
  obtain ⟨o, ho⟩ := hex
  have hf := K.field rel
  rw [if_neg hr, ho] at hf
  unfold normLev
  rw [hf, ok_bind]
  have hdone : ∀ r, r ∈ done ++ [rel] → r ∈ done ∨ r = rel := by intro r h; simpa using h
  cases o with
  | none =>
    have hno : ∀ a, ¬ FieldAt m rel a := by intro a h; unfold FieldAt at h; rw [ho] at h; cases h
    have hd : ∀ r a, r ∈ done ++ [rel] → FieldAt m r a → r ∈ done := by
      intro r a h h'
      rcases hdone r h with h | rfl
      · exact h
      · exact absurd h' (hno a)
    refine ⟨st, N, rfl, K.pos, K.neg, K.rels, ?_, ?_, ?_, ?_, ?_, K.kf, ?_, ?_⟩
    · intro r
      rw [K.field r]
      by_cases h : r ∈ done
      · rw [if_pos h, if_pos (by simp [h])]
      · rw [if_neg h]
        by_cases e : r = rel
        · subst e
          rw [if_pos (by simp), ho]; rfl
        · rw [if_neg (by simp [h, e])]
    · intro r h a ha; exact K.up r (hd r a h ha) a ha
    · intro r h a ha; exact K.down r (hd r a h ha) a ha
    · intro r h a ha; exact K.zero r (hd r a h ha) a ha
    · intro r h r' h' a a' x x' ha ha'; exact K.inj r (hd r a h ha) r' (hd r' a' h' ha') a a' x x' ha ha'
    · intro f v hv
      obtain ⟨r, h, q⟩ := K.sound f v hv
      exact ⟨r, by simp [h], q⟩
    · intro r h a x f ha; exact K.total r (hd r a h ha) a x f ha
  | some a =>
    simp only
    obtain ⟨tmp, htmp⟩ : ∃ tmp, tmp = getDifferentValues a := ⟨_, rfl⟩
    have hmem : ∀ x, x ∈ tmp ↔ x ∈ a := by intro x; rw [htmp]; exact (C14_different_values a).2 x
    obtain ⟨ren, hren⟩ : ∃ ren, ren = renum (kind rel) st.pos st.neg tmp := ⟨_, rfl⟩
    obtain ⟨fams', r1, k1, s1, t1, u1⟩ := normFams_ok hw ren tmp st.fams K.kf
    rw [← htmp, ← hren, r1, ok_bind]
    obtain ⟨N', hN'⟩ : ∃ N' : Int → Int → Int, N' = fun r x => if r = rel then ren x else N r x := ⟨_, rfl⟩
    have hNr : ∀ x, N' rel x = ren x := by intro x; rw [hN']; simp
    have hNo : ∀ r, r ∈ done → ∀ x, N' r x = N r x := by
      intro r h x
      rw [hN']
      simp only
      rw [if_neg (by rintro rfl; exact hr h)]
    have hfa : FieldAt m rel a := ho
    have hfe : ∀ b, FieldAt m rel b → b = a := by
      intro b h
      unfold FieldAt at h
      rw [ho] at h
      cases h
      rfl
    have hidx : ∀ x ∈ a, tmp.idxOf x < tmp.length := fun x hx => List.idxOf_lt_length_iff.mpr ((hmem x).mpr hx)
    have hru : ∀ x ∈ a, kind rel = .up → st.pos ≤ ren x ∧ ren x < st.pos + tmp.length := by
      intro x hx hk
      rw [hren, hk]
      have := hidx x hx
      simp only [renum]
      omega
    have hrd : ∀ x ∈ a, kind rel = .down → st.neg - tmp.length < ren x ∧ ren x ≤ st.neg := by
      intro x hx hk
      rw [hren, hk]
      have := hidx x hx
      simp only [renum]
      omega
    have hpos := K.pos
    have hneg := K.neg
    refine ⟨_, N', rfl, ?_, ?_, ?_, ?_, ?_, ?_, ?_, ?_, k1, ?_, ?_⟩
    · simp only; split <;> omega
    · simp only; split <;> omega
    · simp only
      rw [rels_putFam]
      exact K.rels
    · intro r
      simp only
      have e : ({ m with levs := (putFam { m with levs := st.levs } rel (a.map ren)).levs } : FamMesh) = putFam { m with levs := st.levs } rel (a.map ren) := rfl
      rw [e]
      by_cases h : r = rel
      · subst h
        rw [if_pos (by simp), field_putFam_self hf, ho]
        have : N' r = ren := funext hNr
        rw [this]
        rfl
      · rw [field_putFam _ _ _ _ h, K.field r]
        by_cases hd : r ∈ done
        · rw [if_pos hd, if_pos (by simp [hd])]
          have : N' r = N r := funext (hNo r hd)
          rw [this]
        · rw [if_neg hd, if_neg (by simp [hd, h])]
    · intro r h b hb x hx hk
      simp only
      rcases hdone r h with h | rfl
      · rw [hNo r h]
        have := K.up r h b hb x hx hk
        split <;> omega
      · rw [hNr, if_pos hk]
        have := hru x (hfe b hb ▸ hx) hk
        omega
    · intro r h b hb x hx hk
      simp only
      rcases hdone r h with h | rfl
      · rw [hNo r h]
        have := K.down r h b hb x hx hk
        split <;> omega
      · rw [hNr, if_pos hk]
        have := hrd x (hfe b hb ▸ hx) hk
        omega
    · intro r h b hb x hx hk
      rcases hdone r h with h | rfl
      · rw [hNo r h]
        exact K.zero r h b hb x hx hk
      · rw [hNr, hren, hk]
        rfl
    · -- the new numbers are new
      have hnew : ∀ r ∈ done, ∀ b x y, FieldAt m r b → x ∈ b → y ∈ a → kind r ≠ .zero → kind rel ≠ .zero → N r x ≠ ren y := by
        intro r h b x y hb hx hy hk hk' e
        cases hkr : kind r with
        | zero => exact hk hkr
        | up =>
          have h1 := K.up r h b hb x hx hkr
          cases hkl : kind rel with
          | zero => exact hk' hkl
          | up => have := hru y hy hkl; omega
          | down => have := hrd y hy hkl; omega
        | down =>
          have h1 := K.down r h b hb x hx hkr
          cases hkl : kind rel with
          | zero => exact hk' hkl
          | up => have := hru y hy hkl; omega
          | down => have := hrd y hy hkl; omega
      intro r h r' h' b b' x x' hb hb' hx hx' hk hk' e
      rcases hdone r h with hd | hd <;> rcases hdone r' h' with hd' | hd'
      · rw [hNo r hd, hNo r' hd'] at e
        exact K.inj r hd r' hd' b b' x x' hb hb' hx hx' hk hk' e
      · subst hd'
        rw [hNo r hd, hNr] at e
        exact absurd e (hnew r hd b x x' hb hx (hfe b' hb' ▸ hx') hk hk')
      · subst hd
        rw [hNo r' hd', hNr] at e
        exact absurd e.symm (hnew r' hd' b' x' x hb' hx' (hfe b hb ▸ hx) hk' hk)
      · subst hd'
        subst hd
        refine ⟨rfl, ?_⟩
        rw [hNr, hNr, hren] at e
        rw [hfe b hb] at hx
        rw [hfe b' hb'] at hx'
        have : tmp.idxOf x = tmp.idxOf x' := by
          cases hkr : kind r with
          | zero => exact absurd hkr hk
          | up => rw [hkr] at e; simp only [renum] at e; omega
          | down => rw [hkr] at e; simp only [renum] at e; omega
        exact (List.idxOf_inj ((hmem x).mpr hx)).mp this
    · intro f v hv
      rcases s1 f v hv with h | ⟨x, hx, h1, h2⟩
      · obtain ⟨r, hr', b, x, hb, hx, h1, h2⟩ := K.sound f v h
        exact ⟨r, by simp [hr'], b, x, hb, hx, h1, by rw [hNo r hr', h2]⟩
      · exact ⟨rel, by simp, a, x, hfa, (hmem x).mp hx, h1, by rw [hNr, h2]⟩
    · intro r h b x f hb hx hfx
      rcases hdone r h with h | rfl
      · exact u1 f (K.total r h b x f hb hx hfx)
      · exact t1 f x ((hmem x).mpr (hfe b hb ▸ hx)) hfx

theorem normLevs_ok {m : FamMesh} (hw : FamOK m) (kind : Int → NormKind) (order : List Int) : ∀ (done : List Int) (st : NormSt) (N : Int → Int → Int)
    (_ : Normed m kind done st N) (_ : (done ++ order).Nodup) (_ : ∀ r ∈ order, ∃ o, getFamilyFieldAtLevel m r = .ok o),
    ∃ st' N', order.foldlM (normLev m kind) st = .ok st' ∧ Normed m kind (done ++ order) st' N' := by
  induction order with
  | nil => intro done st N K _ _; exact ⟨st, N, rfl, by simpa using K⟩
  | cons r order ih =>
    intro done st N K hn hex
    have hr : r ∉ done := by
      intro h
      rw [List.nodup_append] at hn
      exact hn.2.2 r h r (by simp) rfl
    obtain ⟨s1, N1, r1, K1⟩ := normLev_ok hw kind done st N K r hr (hex r (by simp))
    obtain ⟨s2, N2, r2, K2⟩ := ih (done ++ [r]) s1 N1 K1 (by simpa using hn) (fun q hq => hex q (by simp [hq]))
    exact ⟨s2, N2, by rw [List.foldlM_cons, r1, ok_bind, r2], by simpa using K2⟩

theorem keepUnmet (P : List (Name × Int)) (met : List (Name × Int)) : ∀ (fs : List (Name × Int)), KeysInc fs → KeysInc P → (∀ p ∈ P, mget p.1 met = none → mget p.1 fs = none) →
    KeysInc (P.foldl (fun fs p => if mget p.1 met = none then mset p.1 p.2 fs else fs) fs) ∧
    ∀ f, mget f (P.foldl (fun fs p => if mget p.1 met = none then mset p.1 p.2 fs else fs) fs) =
      if mget f met = none ∧ mget f P ≠ none then mget f P else mget f fs := by
  induction P with
  | nil => intro fs h _ _; exact ⟨h, by simp [mget]⟩
  | cons q P ih =>
    intro fs h hP hq
    have hP' := List.Pairwise.of_cons hP
    have hlt : ∀ p ∈ P, q.1 ≠ p.1 := by
      intro p hp
      have : KeysInc (q :: P) := hP
      unfold KeysInc at this
      rw [List.map_cons, List.pairwise_cons] at this
      exact ne_of_lt (this.1 p.1 (List.mem_map.mpr ⟨p, hp, rfl⟩))
    have hnP : mget q.1 P = none := by
      rw [mget_none]
      intro hc
      obtain ⟨p, hp, e⟩ := List.mem_map.mp hc
      exact hlt p hp e.symm
    rw [List.foldl_cons]
    obtain ⟨k1, k2⟩ := ih (if mget q.1 met = none then mset q.1 q.2 fs else fs) (by split; exacts [keysInc_mset h, h]) hP' (by
      intro p hp hn
      split
      · rw [mget_mset, if_neg (fun e => hlt p hp e.symm)]
        exact hq p (by simp [hp]) hn
      · exact hq p (by simp [hp]) hn)
    refine ⟨k1, fun f => ?_⟩
    rw [k2]
    by_cases e : f = q.1
    · subst e
      rw [hnP]
      simp only [ne_eq, not_true_eq_false, and_false, if_false]
      by_cases hm : mget q.1 met = none
      · rw [if_pos hm, mget_mset, if_pos rfl, if_pos ⟨hm, by simp [mget]⟩]
        simp [mget]
      · rw [if_neg hm, if_neg (fun hc => hm hc.1)]
    · have : mget f (q :: P) = mget f P := by
        rw [mget, if_neg (fun h => e h.symm)]
      rw [this]
      congr 1
      split
      · rw [mget_mset, if_neg e]
      · rfl

/-- The two normalisations: the groups keep their entities at all levels that are numbered upwards or downwards. -/
theorem normalize_ok (m : FamMesh) (hw : FamOK m) (kind : Int → NormKind) (order : List Int) (hne : m.families ≠ []) (hnod : order.Nodup)
    (hord : ∀ r, r ∈ order ↔ ∃ l ∈ m.levs, l.rel = r)
    (hone : ∀ g x, GrpHas m g x → ∃ rel, (∃ a, FieldAt m rel a ∧ x ∈ a) ∧ ∀ rel', (∃ a, FieldAt m rel' a ∧ x ∈ a) → rel' = rel) :
    ∃ (m' : FamMesh) (N : Int → Int → Int), normalize m kind order = .ok m' ∧ m'.groups = m.groups ∧ KeysInc m'.families ∧ GroupsOK m' ∧
      (∀ f, mget f m'.families ≠ none ↔ mget f m.families ≠ none) ∧
      (∀ rel g, mget g m.groups ≠ none → kind rel ≠ .zero → getGroupArr m' rel g = getGroupArr m rel g) ∧
      (∀ rel, getFamilyFieldAtLevel m' rel = (getFamilyFieldAtLevel m rel).map (Option.map (List.map (N rel)))) ∧
      (∀ rel a, FieldAt m rel a → ∀ x ∈ a, (kind rel = .up → 1 ≤ N rel x) ∧ (kind rel = .down → N rel x ≤ -1) ∧ (kind rel = .zero → N rel x = 0)) ∧
      (∀ rel rel' a a' x x', FieldAt m rel a → FieldAt m rel' a' → x ∈ a → x' ∈ a' → kind rel ≠ .zero → kind rel' ≠ .zero →
        N rel x = N rel' x' → rel = rel' ∧ x = x') := by
  have hex : ∀ r ∈ order, ∃ o, getFamilyFieldAtLevel m r = .ok o := by
    intro r hr
    obtain ⟨l, hl, rfl⟩ := (hord r).mp hr
    exact ⟨_, field_eq (mem_famLev hw.levs hl)⟩
  have hin : ∀ rel a, FieldAt m rel a → rel ∈ order := by
    intro rel a ha
    obtain ⟨l, hl, _⟩ := field_some ha
    obtain ⟨h1, h2⟩ := famLev_mem hl
    exact (hord rel).mpr ⟨l, h1, h2⟩
  obtain ⟨st, N, r1, K⟩ := normLevs_ok hw kind order [] ⟨m.levs, 1, -1, []⟩ (fun _ x => x) (by
    refine ⟨le_refl _, le_refl _, rfl, by simp, by simp, by simp, by simp, by simp, by simp [KeysInc], by simp [mget], by simp⟩) (by simpa using hnod) hex
  rw [List.nil_append] at K
  obtain ⟨k1, k2⟩ := keepUnmet m.families st.fams st.fams K.kf hw.kf (fun _ _ h => h)
  obtain ⟨m', hm'⟩ : ∃ m', m' = ({ m with levs := st.levs, families := m.families.foldl (fun fs p => if mget p.1 st.fams = none then mset p.1 p.2 fs else fs) st.fams } : FamMesh) := ⟨_, rfl⟩
  have hfams : ∀ f, mget f m'.families = if mget f st.fams = none ∧ mget f m.families ≠ none then mget f m.families else mget f st.fams := by
    intro f
    rw [hm']
    exact k2 f
  have hgr : m'.groups = m.groups := by rw [hm']
  have hfield : ∀ rel, getFamilyFieldAtLevel m' rel = (getFamilyFieldAtLevel m rel).map (Option.map (List.map (N rel))) := by
    intro rel
    have h := K.field rel
    have e : getFamilyFieldAtLevel m' rel = getFamilyFieldAtLevel { m with levs := st.levs } rel := by rw [hm']; rfl
    rw [e, h]
    split
    · rfl
    · rename_i hn
      cases ha : getFamilyFieldAtLevel m rel with
      | error e => rfl
      | ok o =>
        cases o with
        | none => rfl
        | some a => exact absurd (hin rel a ha) hn
  have hnn : ∀ f, mget f m'.families ≠ none ↔ mget f m.families ≠ none := by
    intro f
    rw [hfams]
    by_cases h : mget f st.fams = none
    · by_cases h2 : mget f m.families = none
      · rw [if_neg (by simp [h2]), h, h2]
      · rw [if_pos ⟨h, h2⟩]
    · rw [if_neg (fun hc => h hc.1)]
      obtain ⟨v, hv⟩ := Option.ne_none_iff_exists'.mp h
      obtain ⟨_, _, _, x, _, _, hx, _⟩ := K.sound f v hv
      rw [hv, hx]
      simp
  have hok : GroupsOK m' := by
    intro g fams hg f hf
    rw [hgr] at hg
    obtain ⟨i, hi⟩ := hw.ok g fams hg f hf
    exact Option.ne_none_iff_exists'.mp ((hnn f).mpr (by rw [hi]; simp))
  refine ⟨m', N, ?_, hgr, by rw [hm']; exact k1, hok, hnn, ?_, hfield, ?_, ?_⟩
  · unfold normalize
    rw [ensureDifferent_ok, if_neg hne, ok_bind, r1, ok_bind, hm']
  · intro rel g hg hk
    refine same_group_at (N rel) (hfield rel) hw.ok hok hg (by rw [hgr]; exact hg) ?_
    intro a ha y hy
    have hr := hin rel a ha
    constructor
    · rintro ⟨fams, hgf, f, hf, h⟩
      rw [hgr] at hgf
      obtain ⟨x, hx⟩ := hw.ok g fams hgf f hf
      obtain ⟨rel', ⟨b, hb, hxb⟩, _⟩ := hone g x ⟨fams, hgf, f, hf, hx⟩
      have hnz := K.total rel' (hin rel' b hb) b x f hb hxb hx
      rw [hfams, if_neg (fun hc => hnz hc.1)] at h
      obtain ⟨q, hq, c, z, hc, hz, hfz, e⟩ := K.sound f _ h
      rw [hx] at hfz
      cases hfz
      have hkq : kind q ≠ .zero := by
        intro hz0
        rw [K.zero q hq c hc x hz hz0] at e
        cases hkr : kind rel with
        | zero => exact hk hkr
        | up => have := K.up rel hr a ha y hy hkr; omega
        | down => have := K.down rel hr a ha y hy hkr; omega
      obtain ⟨_, rfl⟩ := K.inj rel hr q hq a c y x ha hc hy hz hk hkq e
      exact ⟨fams, hgf, f, hf, hx⟩
    · intro hgx
      obtain ⟨rel', _, huni⟩ := hone g y hgx
      obtain ⟨fams, hgf, f, hf, hx⟩ := hgx
      have hnz := K.total rel hr a y f ha hy hx
      obtain ⟨v, hv⟩ := Option.ne_none_iff_exists'.mp hnz
      obtain ⟨q, hq, c, z, hc, hz, hfz, e⟩ := K.sound f v hv
      rw [hx] at hfz
      cases hfz
      have e1 := huni rel ⟨a, ha, hy⟩
      have e2 := huni q ⟨c, hc, hz⟩
      refine ⟨fams, by rw [hgr]; exact hgf, f, hf, ?_⟩
      rw [hfams, if_neg (fun hc => hnz hc.1), hv, e, e1, e2]
  · intro rel a ha x hx
    have hr := hin rel a ha
    exact ⟨fun h => (K.up rel hr a ha x hx h).1, fun h => (K.down rel hr a ha x hx h).2, fun h => K.zero rel hr a ha x hx h⟩
  · intro rel rel' a a' x x' ha ha'
    exact K.inj rel (hin rel a ha) rel' (hin rel' a' ha') a a' x x' ha ha'

theorem levSet_mem (m : FamMesh) (r : Int) : r ∈ levSet m ↔ ∃ l ∈ m.levs, l.rel = r := by
  unfold levSet
  rw [mem_setInsertAll]
  simp

theorem levSet_nodup (m : FamMesh) : (levSet m).Nodup := StrictSorted.nodup (sorted_setInsertAll (by simp [StrictSorted]))

/-- **C95.** `normalizeFamIdsMEDFile`, when every family of a group is used at exactly one level: the groups keep their entities at all
levels, the families their names; the ids of the nodes are positive, those of the cells are negative; two entities have the same id
afterwards exactly when they are at the same level and had the same id. -/
theorem C95_normalize_med_file (m : FamMesh) (hw : FamOK m) (hne : m.families ≠ [])
    (hone : ∀ g x, GrpHas m g x → ∃ rel, (∃ a, getFamilyFieldAtLevel m rel = .ok (some a) ∧ x ∈ a) ∧
      ∀ rel', (∃ a, getFamilyFieldAtLevel m rel' = .ok (some a) ∧ x ∈ a) → rel' = rel) :
    ∃ m', normalizeFamIdsMEDFile m = .ok m' ∧ m'.groups = m.groups ∧ GroupsOK m' ∧
      (∀ f, mget f m'.families ≠ none ↔ mget f m.families ≠ none) ∧
      (∀ rel g, mget g m.groups ≠ none → getGroupArr m' rel g = getGroupArr m rel g) ∧
      (∀ rel a, getFamilyFieldAtLevel m rel = .ok (some a) → ∃ a', getFamilyFieldAtLevel m' rel = .ok (some a') ∧ a'.length = a.length ∧
        (rel = 1 → ∀ y ∈ a', 1 ≤ y) ∧ (rel ≠ 1 → ∀ y ∈ a', y ≤ -1)) ∧
      (∀ rel rel' a b a' b' (i j : Nat), getFamilyFieldAtLevel m rel = .ok (some a) → getFamilyFieldAtLevel m rel' = .ok (some b) →
        getFamilyFieldAtLevel m' rel = .ok (some a') → getFamilyFieldAtLevel m' rel' = .ok (some b') → i < a.length → j < b.length →
        (a'[i]? = b'[j]? ↔ rel = rel' ∧ a[i]? = b[j]?)) := by
  obtain ⟨m', N, r, hg, _, hok, hf, hgr, hfield, hsign, hinj⟩ := normalize_ok m hw (fun rel => if rel = 1 then .up else .down)
    (((levSet m).filter fun r => decide (r = 1)) ++ ((levSet m).filter fun r => decide (r ≠ 1)).reverse) hne (by
      rw [List.nodup_append]
      refine ⟨(levSet_nodup m).filter _, List.nodup_reverse.mpr ((levSet_nodup m).filter _), ?_⟩
      intro a ha b hb
      simp only [List.mem_filter, List.mem_reverse, decide_eq_true_eq] at ha hb
      intro e
      exact hb.2 (e ▸ ha.2)) (by
      intro r
      rw [← levSet_mem, List.mem_append, List.mem_reverse, List.mem_filter, List.mem_filter]
      simp only [decide_eq_true_eq]
      tauto) hone
  have hkz : ∀ rel : Int, (if rel = 1 then NormKind.up else .down) ≠ .zero := by intro rel; split <;> simp
  refine ⟨m', r, hg, hok, hf, fun rel g h => hgr rel g h (hkz rel), ?_, ?_⟩
  · intro rel a ha
    refine ⟨a.map (N rel), by rw [hfield, ha]; rfl, by simp, ?_, ?_⟩
    · rintro h y hy
      obtain ⟨x, hx, rfl⟩ := List.mem_map.mp hy
      exact (hsign rel a ha x hx).1 (by rw [if_pos h])
    · rintro h y hy
      obtain ⟨x, hx, rfl⟩ := List.mem_map.mp hy
      exact (hsign rel a ha x hx).2.1 (by rw [if_neg h])
  · intro rel rel' a b a' b' i j ha hb ha' hb' hi hj
    rw [hfield, ha] at ha'
    rw [hfield, hb] at hb'
    cases ha'
    cases hb'
    rw [List.getElem?_map, List.getElem?_map, List.getElem?_eq_getElem hi, List.getElem?_eq_getElem hj]
    simp only [Option.map_some, Option.some.injEq]
    constructor
    · intro e
      exact hinj rel rel' a b _ _ ha hb (List.getElem_mem hi) (List.getElem_mem hj) (hkz _) (hkz _) e
    · rintro ⟨rfl, e⟩
      rw [e]

example : (do
      let m' ← normalizeFamIdsMEDFile famWFSample
      let r ← [['a'], ['b']].mapM (getGroupArr m' 0)
      let s ← [['a'], ['b']].mapM (getGroupArr m' 1)
      (.ok (m'.levs.map FamLev.fam, r, s) : M _)) =
    .ok ([some [1, 2, 2, 1], some [-3, -4, -2, -3, -1], none], [[0, 2, 3], [2]], [[], [1, 2]]) := by
  decide +kernel

/-- **C95.** `normalizeFamIdsTrio`, when every family of a group is used at exactly one level: the groups keep their entities at the levels
0 and -1, where the ids are positive, respectively negative; all ids of the other levels become 0. -/
theorem C95_normalize_trio (m : FamMesh) (hw : FamOK m) (hne : m.families ≠ [])
    (hone : ∀ g x, GrpHas m g x → ∃ rel, (∃ a, getFamilyFieldAtLevel m rel = .ok (some a) ∧ x ∈ a) ∧
      ∀ rel', (∃ a, getFamilyFieldAtLevel m rel' = .ok (some a) ∧ x ∈ a) → rel' = rel) :
    ∃ m', normalizeFamIdsTrio m = .ok m' ∧ m'.groups = m.groups ∧ GroupsOK m' ∧
      (∀ f, mget f m'.families ≠ none ↔ mget f m.families ≠ none) ∧
      (∀ rel g, (rel = 0 ∨ rel = -1) → mget g m.groups ≠ none → getGroupArr m' rel g = getGroupArr m rel g) ∧
      (∀ rel a, getFamilyFieldAtLevel m rel = .ok (some a) → ∃ a', getFamilyFieldAtLevel m' rel = .ok (some a') ∧ a'.length = a.length ∧
        (rel = 0 → ∀ y ∈ a', 1 ≤ y) ∧ (rel = -1 → ∀ y ∈ a', y ≤ -1) ∧ (rel ≠ 0 → rel ≠ -1 → ∀ y ∈ a', y = 0)) := by
  obtain ⟨m', N, r, hg, _, hok, hf, hgr, hfield, hsign, hinj⟩ := normalize_ok m hw (fun rel => if rel = 0 then .up else if rel = -1 then .down else .zero)
    (((levSet m).filter fun r => decide (r = 0)) ++ ((levSet m).filter fun r => decide (r = -1)) ++
      (levSet m).filter fun r => decide (r ≠ 0 ∧ r ≠ -1)) hne (by
      rw [List.nodup_append, List.nodup_append]
      refine ⟨⟨(levSet_nodup m).filter _, (levSet_nodup m).filter _, ?_⟩, (levSet_nodup m).filter _, ?_⟩
      · intro a ha b hb
        simp only [List.mem_filter, decide_eq_true_eq] at ha hb
        omega
      · intro a ha b hb
        simp only [List.mem_append, List.mem_filter, decide_eq_true_eq] at ha hb
        omega) (by
      intro r
      rw [← levSet_mem]
      simp only [List.mem_append, List.mem_filter, decide_eq_true_eq]
      tauto) hone
  refine ⟨m', r, hg, hok, hf, ?_, ?_⟩
  · intro rel g h hg
    apply hgr rel g hg
    rcases h with rfl | rfl <;> simp
  · intro rel a ha
    refine ⟨a.map (N rel), by rw [hfield, ha]; rfl, by simp, ?_, ?_, ?_⟩
    · rintro h y hy
      obtain ⟨x, hx, rfl⟩ := List.mem_map.mp hy
      exact (hsign rel a ha x hx).1 (by rw [if_pos h])
    · rintro h y hy
      obtain ⟨x, hx, rfl⟩ := List.mem_map.mp hy
      exact (hsign rel a ha x hx).2.1 (by rw [if_neg (by omega), if_pos h])
    · rintro h h' y hy
      obtain ⟨x, hx, rfl⟩ := List.mem_map.mp hy
      exact (hsign rel a ha x hx).2.2 (by rw [if_neg h, if_neg h'])

example : (do
      let m' ← normalizeFamIdsTrio famWFSample
      let r ← [['a'], ['b']].mapM (getGroupArr m' 0)
      (.ok (m'.levs.map FamLev.fam, r) : M _)) =
    .ok ([some [0, 0, 0, 0], some [3, 4, 2, 3, 1], none], [[0, 2, 3], [2]]) := by
  decide +kernel

/-- **C95.** The normalisations refuse a mesh without families. -/
theorem C95_normalize_refused (m : FamMesh) (h : m.families = []) :
    normalizeFamIdsMEDFile m = .error .exn ∧ normalizeFamIdsTrio m = .error .exn := by
  unfold normalizeFamIdsMEDFile normalizeFamIdsTrio normalize
  rw [ensureDifferent_ok, if_pos h]
  exact ⟨rfl, rfl⟩

example : normalizeFamIdsMEDFile ⟨[⟨0, 2, some [-1, -1]⟩], [], []⟩ = .error .exn := (C95_normalize_refused _ rfl).1

/-- **C95.** Finding: a family used at two levels, that the normalisations announce to refuse, is normalised: the group loses its nodes. -/
theorem C95_finding_shared_family :
    (do
      let m : FamMesh := ⟨[⟨1, 3, some [-1, 0, -1]⟩, ⟨0, 2, some [-1, -1]⟩], [(['x'], -1)], [(['a'], [['x']])]⟩
      let g ← getGroupArr m 1 ['a']
      let m' ← normalizeFamIdsMEDFile m
      let g' ← getGroupArr m' 1 ['a']
      (.ok (g, g') : M _)) = .ok ([0, 2], []) := by decide +kernel

/-- **C95.** Finding: a family of a group that no entity has keeps its id, that the normalisation gives to others as well: the group, that was
empty, gets entities. -/
theorem C95_finding_unused_family :
    (do
      let m : FamMesh := ⟨[⟨0, 2, some [-5, -5]⟩], [(['x'], -1), (['y'], -5)], [(['a'], [['x']]), (['b'], [['y']])]⟩
      let g ← getGroupArr m 0 ['a']
      let m' ← normalizeFamIdsMEDFile m
      let g' ← getGroupArr m' 0 ['a']
      (.ok (g, g') : M _)) = .ok ([], [0, 1]) := by decide +kernel

end MC
