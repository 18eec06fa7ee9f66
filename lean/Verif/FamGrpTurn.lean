import Verif.FamGrpStep

/-!
# Families and groups of a MED file mesh: one turn of the loop of `addGroupAt` (C93)
-/

namespace MC

theorem famSign_abs (b : Bool) (v : Int) (h : 0 ≤ v) : |famSign b v| = v := by
  unfold famSign
  cases b
  · simp [abs_of_nonneg h]
  · simp [abs_of_nonneg h]

theorem exists_name (m : FamMesh) (hk : KeysInc m.families) (x : Int) :
    (existsFamilyId m x = true ∧ ∃ n, getFamilyNameGivenId m x = .ok n ∧ mget n m.families = some x) ∨
    (existsFamilyId m x = false ∧ ∀ f, mget f m.families ≠ some x) := by
  unfold existsFamilyId getFamilyNameGivenId
  cases h : m.families.find? fun p => decide (p.2 = x) with
  | some p =>
    left
    have h1 := List.mem_of_find?_eq_some h
    have h2 := List.find?_some h
    simp only [decide_eq_true_eq] at h2
    refine ⟨List.any_eq_true.mpr ⟨p, h1, by simpa using h2⟩, p.1, rfl, ?_⟩
    rw [← h2]
    exact mem_mget hk h1
  | none =>
    right
    rw [List.find?_eq_none] at h
    constructor
    · rw [List.any_eq_false]
      exact h
    · intro f hf
      have := h _ (mget_mem hf)
      simp at this

theorem FamExt.lie {fam fam' : List (Name × Int)} {n : Name} {i : Int} (e : FamExt fam fam' n i) {grp : List (Name × List Name)} (h : LieOn fam grp) :
    LieOn fam' grp := fun g L hL f hf => by
  obtain ⟨j, hj⟩ := h g L hL f hf
  exact ⟨j, e.mono f j hj⟩

section
variable {m : FamMesh} {a ids : List Int} {others : List (List Int)} {base : Int} {P : List Int} {st : AddGrpSt} {gid rid : Int → Int}

theorem AddInv.noHas (h : AddInv m a ids others base P st gid rid) {x : Int} (hxP : x ∉ P) (hxb : |x| < base) (hn : ∀ f, mget f m.families ≠ some x)
    (g : Name) : ¬ HasIn st.families st.groups g x := by
  intro hc
  obtain ⟨_, _, f, _, hf⟩ := (h.oldIff g x hxb fun hc => absurd hc hxP).mp hc
  exact hn f hf

/-- The family goes into the group as it is. -/
theorem turn_keep (h : AddInv m a ids others base P st gid rid) {x : Int} (hxo : ∀ b ∈ others, x ∉ b) (hx0 : x ≠ 0)
    (hcov : ∀ k : Nat, a[k]? = some x → (k : Int) ∈ ids) :
    ∃ r : Name × List (Name × Int), findOrCreateFamily st.families x = .ok r ∧
      AddTurn a ids others x x x st { st with families := r.2, fams := st.fams ++ [r.1], sets := st.sets ++ [(x, [])] } := by
  obtain ⟨n, fam', h1, e⟩ := findOrCreate_ext st.families h.kf h.inj x
  refine ⟨(n, fam'), h1, ?_⟩
  have hm := hasIn_mono h.lie e.mono
  refine ⟨e.keys, rfl, e.mono, ?_, e.inj, le_refl _, Or.inl rfl, e.lie h.lie, ?_, ?_, ?_, Or.inl ⟨rfl, rfl, hxo, hx0⟩, Or.inl ⟨rfl, hcov⟩,
    ⟨n, rfl, e.got⟩, [(x, [])], rfl, ?_⟩
  · intro f j hf
    rcases e.back f j hf with h2 | ⟨_, h2⟩
    · exact Or.inl h2
    · exact Or.inr (Or.inl h2)
  · intro g y hy
    simp only
    rw [hm]
    constructor
    · exact Or.inl
    · rintro (h2 | ⟨_, h2 | h2⟩)
      · exact h2
      · exact absurd h2 hy
      · exact absurd h2 hy
  · intro g; exact (hm g x).mp
  · intro _ g; exact (hm g x).mpr
  · intro c hc hcx
    refine ⟨c, by rfl, hc, fun k y z hk hz => ?_⟩
    by_cases e : y = x
    · subst e
      rw [hcx k hk] at hz
      cases hz
      simp [hcx k hk]
    · rw [if_neg e, hz]

/-- A new family is created for the group; the family stays for other levels. -/
theorem turn_new (h : AddInv m a ids others base P st gid rid) (hkm : KeysInc m.families) (hb : 1 ≤ base) (isNode : Bool) {x : Int} (hxP : x ∉ P)
    (hxb : |x| < base) (hcov : ∀ k : Nat, a[k]? = some x → (k : Int) ∈ ids) (hr : ∀ i ∈ ids, 0 ≤ i ∧ i < a.length)
    {ids2 : List Int} (h2 : ∀ i, i ∈ ids2 ↔ i ∈ ids ∧ ∃ k : Nat, i = k ∧ a[k]? = some x) :
    ∃ r : Name × List (Name × Int), findOrCreateFamily st.families (famSign isNode st.maxVal) = .ok r ∧
      ∃ gr, changeIfExists m x st.groups (fun n => [n, r.1]) = .ok gr ∧
      AddTurn a ids others x (famSign isNode st.maxVal) x st
        { maxVal := st.maxVal + 1, families := r.2, groups := gr, fams := st.fams ++ [r.1],
          sets := st.sets ++ [(famSign isNode st.maxVal, ids2)] } := by
  have hbm := h.hbase
  obtain ⟨n, fam', h1, e⟩ := findOrCreate_ext st.families h.kf h.inj (famSign isNode st.maxVal)
  have hq : |famSign isNode st.maxVal| = st.maxVal := famSign_abs isNode _ (by omega)
  have hm := hasIn_mono h.lie e.mono
  have hback : ∀ f j, mget f fam' = some j → mget f st.families = some j ∨ j = famSign isNode st.maxVal ∨ j = x := by
    intro f j hf
    rcases e.back f j hf with h2 | ⟨_, h2⟩
    · exact Or.inl h2
    · exact Or.inr (Or.inl h2)
  have hsets : ∃ s, st.sets ++ [(famSign isNode st.maxVal, ids2)] = st.sets ++ s ∧ ∀ c : List Int, c.length = a.length →
      (∀ k : Nat, a[k]? = some x → c[k]? = some x) →
      ∃ c', s.foldlM (fun a p => setPartSimple a p.1 p.2) c = .ok c' ∧ c'.length = a.length ∧
      ∀ (k : Nat) (y z : Int), a[k]? = some y → c[k]? = some z →
        c'[k]? = some (if y = x then (if (k : Int) ∈ ids then famSign isNode st.maxVal else x) else z) := by
    refine ⟨_, rfl, fun c hc hcx => ?_⟩
    obtain ⟨c', h3, h4, h5⟩ := setPartSimple_ok ids2 c (famSign isNode st.maxVal) (by
      intro i hi
      rw [hc]
      exact hr i ((h2 i).mp hi).1)
    refine ⟨c', ?_, h4.trans hc, fun k y z hk hz => ?_⟩
    · rw [List.foldlM_cons, h3, ok_bind]; rfl
    · rw [h5 k z hz]
      by_cases ey : y = x
      · subst ey
        have := hcov k hk
        rw [if_pos ((h2 _).mpr ⟨this, k, rfl, hk⟩), if_pos rfl, if_pos this]
      · have hn : (k : Int) ∉ ids2 := by
          intro hc
          obtain ⟨_, k', e1, hk'⟩ := (h2 _).mp hc
          have : k = k' := by omega
          subst this
          rw [hk] at hk'
          cases hk'
          exact ey rfl
        rw [if_neg hn, if_neg ey]
  refine ⟨(n, fam'), h1, ?_⟩
  rcases exists_name m hkm x with ⟨hex, n0, hn0, hg0⟩ | ⟨hex, hno⟩
  · refine ⟨changeAllGroups st.groups n0 [n0, n], by unfold changeIfExists; rw [if_pos hex, hn0, ok_bind], ?_⟩
    have hg1 : mget n0 fam' = some x := e.mono _ _ (h.mono _ _ hg0)
    refine ⟨e.keys, keys_changeAllGroups .., e.mono, hback, e.inj, by simp, Or.inr ⟨n, _, e.got, by rw [hq]; simp⟩, ?_, ?_, ?_, ?_,
      Or.inr ⟨by rw [hq], by rw [hq]; simp⟩, Or.inl ⟨rfl, hcov⟩, ⟨n, rfl, e.got⟩, hsets⟩
    · apply lieOn_change (e.lie h.lie)
      intro k hk
      simp only [List.mem_cons, List.not_mem_nil, or_false] at hk
      rcases hk with rfl | rfl
      · exact ⟨_, hg1⟩
      · exact ⟨_, e.got⟩
    · intro g y hy
      simp only
      rw [(hasIn_change e.inj hg1 [n0, n] g y).1 hy, hm, hm]
      constructor
      · rintro (h3 | ⟨h3, k, hk, hky⟩)
        · exact Or.inl h3
        · simp only [List.mem_cons, List.not_mem_nil, or_false] at hk
          rcases hk with rfl | rfl
          · rw [hg1] at hky; cases hky; exact absurd rfl hy
          · rw [e.got] at hky; cases hky; exact Or.inr ⟨h3, Or.inl rfl⟩
      · rintro (h3 | ⟨h3, h4 | h4⟩)
        · exact Or.inl h3
        · exact Or.inr ⟨h3, n, by simp, by rw [h4]; exact e.got⟩
        · exact absurd h4 hy
    · intro g hh
      exact (hm g x).mp ((hasIn_change e.inj hg1 [n0, n] g x).2.1 (Or.inl (by simp)) hh)
    · intro _ g hh
      exact (hasIn_change e.inj hg1 [n0, n] g x).2.2 (by simp) ((hm g x).mpr hh)
  · refine ⟨st.groups, by unfold changeIfExists; rw [if_neg (by simp [hex])], ?_⟩
    have hno' := h.noHas hxP hxb hno
    refine ⟨e.keys, rfl, e.mono, hback, e.inj, by simp, Or.inr ⟨n, _, e.got, by rw [hq]; simp⟩, e.lie h.lie, ?_, ?_, ?_,
      Or.inr ⟨by rw [hq], by rw [hq]; simp⟩, Or.inl ⟨rfl, hcov⟩, ⟨n, rfl, e.got⟩, hsets⟩
    · intro g y hy
      simp only
      rw [hm]
      exact ⟨Or.inl, fun h3 => h3.elim id fun h4 => absurd h4.1 (hno' g)⟩
    · intro g; exact (hm g x).mp
    · intro _ g; exact (hm g x).mpr

theorem split_sets (hr : ∀ i ∈ ids, 0 ≤ i ∧ i < a.length) (x r q : Int)
    {ids2 ret0 : List Int} (h2 : ∀ i, i ∈ ids2 ↔ i ∈ ids ∧ ∃ k : Nat, i = k ∧ a[k]? = some x)
    (h0 : ∀ i, i ∈ ret0 ↔ i ∉ ids ∧ ∃ k : Nat, i = k ∧ a[k]? = some x) (S : List (Int × List Int)) :
    ∃ s, S ++ [(r, ret0), (q, ids2)] = S ++ s ∧ ∀ c : List Int, c.length = a.length →
      (∀ k : Nat, a[k]? = some x → c[k]? = some x) →
      ∃ c', s.foldlM (fun a p => setPartSimple a p.1 p.2) c = .ok c' ∧ c'.length = a.length ∧
      ∀ (k : Nat) (y z : Int), a[k]? = some y → c[k]? = some z →
        c'[k]? = some (if y = x then (if (k : Int) ∈ ids then q else r) else z) := by
  refine ⟨_, rfl, fun c hc hcx => ?_⟩
  obtain ⟨c1, h3, h4, h5⟩ := setPartSimple_ok ret0 c r (by
    intro i hi
    obtain ⟨_, k, rfl, hk⟩ := (h0 i).mp hi
    have := (List.getElem?_eq_some_iff.mp hk).1
    omega)
  obtain ⟨c2, h6, h7, h8⟩ := setPartSimple_ok ids2 c1 q (by
    intro i hi
    rw [h4, hc]
    exact hr i ((h2 i).mp hi).1)
  refine ⟨c2, ?_, by omega, fun k y z hk hz => ?_⟩
  · rw [List.foldlM_cons, h3, ok_bind, List.foldlM_cons, h6, ok_bind]; rfl
  · rw [h8 k _ (h5 k z hz)]
    by_cases ey : y = x
    · subst ey
      by_cases hi : (k : Int) ∈ ids
      · rw [if_pos ((h2 _).mpr ⟨hi, k, rfl, hk⟩), if_pos rfl, if_pos hi]
      · rw [if_neg (fun hc => hi ((h2 _).mp hc).1), if_pos ((h0 _).mpr ⟨hi, k, rfl, hk⟩), if_pos rfl, if_neg hi]
    · have key : ∀ {Q : Prop}, (Q ∧ ∃ k' : Nat, (k : Int) = k' ∧ a[k']? = some x) → False := by
        rintro Q ⟨_, k', e1, hk'⟩
        have : k = k' := by omega
        subst this
        rw [hk] at hk'
        cases hk'
        exact ey rfl
      rw [if_neg (fun hc => key ((h2 _).mp hc)), if_neg (fun hc => key ((h0 _).mp hc)), if_neg ey]

/-- The family is cut in two. -/
theorem turn_split (h : AddInv m a ids others base P st gid rid) (hkm : KeysInc m.families) (hb : 1 ≤ base) (isNode : Bool) {x : Int} (hxP : x ∉ P)
    (hxb : |x| < base) (hr : ∀ i ∈ ids, 0 ≤ i ∧ i < a.length)
    {ids2 ret0 : List Int} (h2 : ∀ i, i ∈ ids2 ↔ i ∈ ids ∧ ∃ k : Nat, i = k ∧ a[k]? = some x)
    (h0 : ∀ i, i ∈ ret0 ↔ i ∉ ids ∧ ∃ k : Nat, i = k ∧ a[k]? = some x) (hne : ret0 ≠ []) :
    ∃ st', addSplit m isNode ret0 ids2 x st = .ok st' ∧
      AddTurn a ids others x (famSign isNode (st.maxVal + 1)) (famSign isNode st.maxVal) st st' := by
  have hbm := h.hbase
  obtain ⟨n2, fam2, h1, e2⟩ := findOrCreate_ext st.families h.kf h.inj (famSign isNode (st.maxVal + 1))
  have hq : |famSign isNode (st.maxVal + 1)| = st.maxVal + 1 := famSign_abs isNode _ (by omega)
  have hq' : |famSign isNode st.maxVal| = st.maxVal := famSign_abs isNode _ (by omega)
  have hrq : famSign isNode st.maxVal ≠ famSign isNode (st.maxVal + 1) := by
    intro e; rw [e, hq] at hq'; omega
  have hrx : famSign isNode st.maxVal ≠ x := by
    intro e; rw [e] at hq'; omega
  have hqx : famSign isNode (st.maxVal + 1) ≠ x := by
    intro e; rw [e] at hq; omega
  have hsets := split_sets hr x (famSign isNode st.maxVal) (famSign isNode (st.maxVal + 1)) h2 h0 st.sets
  have hout : ∃ k : Nat, a[k]? = some x ∧ (k : Int) ∉ ids := by
    obtain ⟨i, hi⟩ := List.exists_mem_of_ne_nil _ hne
    obtain ⟨h3, k, rfl, hk⟩ := (h0 i).mp hi
    exact ⟨k, hk, h3⟩
  unfold addSplit
  rw [h1, ok_bind]
  rcases exists_name m hkm x with ⟨hex, n0, hn0, hg0⟩ | ⟨hex, hno⟩
  · obtain ⟨n1, fam1, h3, e1⟩ := findOrCreate_ext fam2 e2.keys e2.inj (famSign isNode st.maxVal)
    rw [if_pos hex]
    simp only
    rw [h3, ok_bind]
    unfold changeIfExists
    rw [if_pos hex, hn0, ok_bind, ok_bind]
    refine ⟨_, rfl, ?_⟩
    have hmono : ∀ f j, mget f st.families = some j → mget f fam1 = some j := fun f j hf => e1.mono f j (e2.mono f j hf)
    have hm := hasIn_mono h.lie hmono
    have hg1 : mget n0 fam1 = some x := hmono _ _ (h.mono _ _ hg0)
    have hg2 : mget n2 fam1 = some (famSign isNode (st.maxVal + 1)) := e1.mono _ _ e2.got
    refine ⟨e1.keys, keys_changeAllGroups .., hmono, ?_, e1.inj, by simp, Or.inr ⟨n2, _, hg2, by rw [hq]; simp; omega⟩, ?_, ?_, ?_, ?_,
      Or.inr ⟨by rw [hq]; omega, by rw [hq]; simp⟩, Or.inr ⟨by rw [hq'], by rw [hq']; simp, hrq, hout⟩, ⟨n2, rfl, hg2⟩, hsets⟩
    · intro f j hf
      rcases e1.back f j hf with h4 | ⟨_, h4⟩
      · rcases e2.back f j h4 with h5 | ⟨_, h5⟩
        · exact Or.inl h5
        · exact Or.inr (Or.inl h5)
      · exact Or.inr (Or.inr h4)
    · apply lieOn_change (e1.lie (e2.lie h.lie))
      intro k hk
      simp only [List.mem_cons, List.not_mem_nil, or_false] at hk
      rcases hk with rfl | rfl
      · exact ⟨_, e1.got⟩
      · exact ⟨_, hg2⟩
    · intro g y hy
      simp only
      rw [(hasIn_change e1.inj hg1 [n1, n2] g y).1 hy, hm, hm]
      constructor
      · rintro (h4 | ⟨h4, k, hk, hky⟩)
        · exact Or.inl h4
        · simp only [List.mem_cons, List.not_mem_nil, or_false] at hk
          rcases hk with rfl | rfl
          · rw [e1.got] at hky; cases hky; exact Or.inr ⟨h4, Or.inr rfl⟩
          · rw [hg2] at hky; cases hky; exact Or.inr ⟨h4, Or.inl rfl⟩
      · rintro (h4 | ⟨h4, h5 | h5⟩)
        · exact Or.inl h4
        · exact Or.inr ⟨h4, n2, by simp, by rw [h5]; exact hg2⟩
        · exact Or.inr ⟨h4, n1, by simp, by rw [h5]; exact e1.got⟩
    · intro g hh
      refine (hm g x).mp ((hasIn_change e1.inj hg1 [n1, n2] g x).2.1 (Or.inr ?_) hh)
      intro k hk
      simp only [List.mem_cons, List.not_mem_nil, or_false] at hk
      rcases hk with rfl | rfl
      · rw [e1.got]; intro hc; cases hc; exact hrx rfl
      · rw [hg2]; intro hc; cases hc; exact hqx rfl
    · intro e; exact absurd e hrx
  · rw [if_neg (by simp [hex])]
    have hno' := h.noHas hxP hxb hno
    have hm := hasIn_mono h.lie e2.mono
    refine ⟨_, rfl, e2.keys, rfl, e2.mono, ?_, e2.inj, by simp, Or.inr ⟨n2, _, e2.got, by rw [hq]; simp; omega⟩, e2.lie h.lie, ?_, ?_, ?_,
      Or.inr ⟨by rw [hq]; omega, by rw [hq]; simp⟩, Or.inr ⟨by rw [hq'], by rw [hq']; simp, hrq, hout⟩, ⟨n2, rfl, e2.got⟩, hsets⟩
    · intro f j hf
      rcases e2.back f j hf with h5 | ⟨_, h5⟩
      · exact Or.inl h5
      · exact Or.inr (Or.inl h5)
    · intro g y hy
      simp only
      rw [hm]
      exact ⟨Or.inl, fun h3 => h3.elim id fun h4 => absurd h4.1 (hno' g)⟩
    · intro g; exact (hm g x).mp
    · intro _ g; exact (hm g x).mpr

theorem addStep_turn (h : AddInv m a ids others base P st gid rid) (hkm : KeysInc m.families) (hb : 1 ≤ base) (isNode : Bool) {x : Int} (hxP : x ∉ P)
    (hxb : |x| < base) (hs : StrictSorted ids) (hr : ∀ i ∈ ids, 0 ≤ i ∧ i < a.length) {famIds : List Int} (hf : selectSafe a ids = .ok famIds) :
    ∃ st', addStep m isNode others a ids famIds st x = .ok st' ∧ ∃ q r, AddTurn a ids others x q r st st' := by
  obtain ⟨ids2, h1, h2, h0⟩ := addStep_sets a ids famIds hs hr hf x
  unfold addStep
  rw [h1, ok_bind]
  by_cases hc : buildSubstractionOptimized (findIdsEqual a x) ids2 = []
  · simp only [hc, if_true]
    have hcov : ∀ k : Nat, a[k]? = some x → (k : Int) ∈ ids := by
      intro k hk
      by_contra hn
      have := (h0 k).mpr ⟨hn, k, rfl, hk⟩
      rw [hc] at this
      simp at this
    unfold addCovered
    by_cases hk : others.any (fun a => decide (x ∈ a)) = false ∧ x ≠ 0
    · rw [if_pos hk]
      have hxo : ∀ b ∈ others, x ∉ b := by
        intro b hb hx
        have := List.any_eq_false.mp hk.1 b hb
        simp [hx] at this
      obtain ⟨r, h3, t⟩ := turn_keep h hxo hk.2 hcov
      exact ⟨_, by rw [h3, ok_bind], _, _, t⟩
    · rw [if_neg hk]
      obtain ⟨r, h3, gr, h4, t⟩ := turn_new h hkm hb isNode hxP hxb hcov hr h2
      exact ⟨_, by rw [h3, ok_bind, h4, ok_bind], _, _, t⟩
  · simp only [hc, if_false]
    obtain ⟨st', h3, t⟩ := turn_split h hkm hb isNode hxP hxb hr h2 h0 hc
    exact ⟨st', h3, _, _, t⟩

theorem addLoop_inv (hkm : KeysInc m.families) (hb : 1 ≤ base) (isNode : Bool) (hs : StrictSorted ids) (hr : ∀ i ∈ ids, 0 ≤ i ∧ i < a.length)
    {famIds : List Int} (hf : selectSafe a ids = .ok famIds) : ∀ (D : List Int) (P : List Int) (st : AddGrpSt) (gid rid : Int → Int),
    AddInv m a ids others base P st gid rid → D.Nodup → (∀ x ∈ D, x ∉ P ∧ |x| < base) →
    ∃ st' P' gid' rid', D.foldlM (addStep m isNode others a ids famIds) st = .ok st' ∧ (∀ x, x ∈ P' ↔ x ∈ P ∨ x ∈ D) ∧
      AddInv m a ids others base P' st' gid' rid'
  | [], P, st, gid, rid, h, _, _ => ⟨st, P, gid, rid, rfl, by simp, h⟩
  | x :: D, P, st, gid, rid, h, hn, hD => by
    obtain ⟨hxP, hxb⟩ := hD x (by simp)
    obtain ⟨st1, h1, q, r, t⟩ := addStep_turn h hkm hb isNode hxP hxb hs hr hf
    obtain ⟨st2, P', g', r', h2, h3, h4⟩ := addLoop_inv hkm hb isNode hs hr hf D (x :: P) st1 _ _ (h.step hxP hxb t) (List.nodup_cons.mp hn).2 (by
      intro y hy
      obtain ⟨h3, h4⟩ := hD y (by simp [hy])
      refine ⟨?_, h4⟩
      rw [List.mem_cons]
      rintro (rfl | hc)
      · exact (List.nodup_cons.mp hn).1 hy
      · exact h3 hc)
    refine ⟨st2, P', g', r', by rw [List.foldlM_cons, h1, ok_bind]; exact h2, fun y => ?_, h4⟩
    rw [h3, List.mem_cons, List.mem_cons]
    tauto

end

end MC
