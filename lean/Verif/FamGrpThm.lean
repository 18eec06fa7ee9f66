import Verif.FamGrpTurn

/-!
# Families and groups of a MED file mesh: what `addGroupAt` does (C93)
-/

namespace MC

/-- A consistent mesh: keys of the maps in order, groups lying on families of the mesh, ids of the families all different, one level
of each relative dimension, not empty and with arrays of its size, and no id in the arrays larger than those of the families. -/
structure FamWF (m : FamMesh) : Prop where
  kf : KeysInc m.families
  kg : KeysInc m.groups
  ok : GroupsOK m
  inj : IdsInj m.families
  levs : (m.levs.map (·.rel)).Nodup
  size : ∀ l ∈ m.levs, 0 < l.size ∧ ∀ a, l.fam = some a → a.length = l.size
  bound : ∀ l ∈ m.levs, ∀ a, l.fam = some a → ∀ x ∈ a, x = 0 ∨ ∃ f i, mget f m.families = some i ∧ |x| ≤ |i|

theorem famLev_mem {m : FamMesh} {rel : Int} {l : FamLev} (h : famLev m rel = some l) : l ∈ m.levs ∧ l.rel = rel := by
  unfold famLev at h
  exact ⟨List.mem_of_find?_eq_some h, by simpa using List.find?_some h⟩

theorem mem_famLev {m : FamMesh} (hn : (m.levs.map (·.rel)).Nodup) {l : FamLev} (h : l ∈ m.levs) : famLev m l.rel = some l := by
  unfold famLev
  revert hn h
  generalize m.levs = L
  intro hn h
  induction L with
  | nil => simp at h
  | cons p L ih =>
    rw [List.map_cons, List.nodup_cons] at hn
    rw [List.find?_cons]
    rcases List.mem_cons.mp h with rfl | h
    · simp
    · have : p.rel ≠ l.rel := fun e => hn.1 (by rw [e]; exact List.mem_map.mpr ⟨l, h, rfl⟩)
      simp only [this, decide_false]
      exact ih hn.2 h

theorem famLev_putFam (m : FamMesh) (rel rel' : Int) (c : List Int) :
    famLev (putFam m rel c) rel' = if rel' = rel then (famLev m rel).map fun l => { l with fam := some c } else famLev m rel' := by
  unfold famLev putFam
  simp only
  generalize m.levs = L
  induction L with
  | nil => simp
  | cons p L ih =>
    rw [List.map_cons, List.find?_cons, ih]
    by_cases hp : p.rel = rel
    · rw [if_pos hp]
      by_cases hr : rel' = rel
      · subst hr
        simp [hp]
      · have h2 : ¬ p.rel = rel' := by rw [hp]; exact Ne.symm hr
        simp [hr, h2]
    · rw [if_neg hp]
      by_cases hr : rel' = rel
      · subst hr
        simp [hp]
      · simp [hr, List.find?_cons]

theorem field_eq {m : FamMesh} {rel : Int} {l : FamLev} (h : famLev m rel = some l) : getFamilyFieldAtLevel m rel = .ok l.fam := by
  unfold getFamilyFieldAtLevel
  rw [h]

theorem field_some {m : FamMesh} {rel : Int} {b : List Int} (h : getFamilyFieldAtLevel m rel = .ok (some b)) :
    ∃ l, famLev m rel = some l ∧ l.fam = some b := by
  unfold getFamilyFieldAtLevel at h
  cases hl : famLev m rel with
  | none =>
    rw [hl] at h
    simp only at h
    split at h <;> cases h
  | some l =>
    rw [hl] at h
    exact ⟨l, rfl, by simpa using h⟩

theorem maxInArrays_ok : ∀ (L : List FamLev) (r : Int), (∀ l ∈ L, ∀ a, l.fam = some a → a ≠ []) →
    ∃ r', L.foldlM (fun ret l => match l.fam with
      | none => (Except.ok ret : M Int)
      | some a => do
        let v ← getMaxValue a
        Except.ok (max ret |v|)) r = .ok r' ∧ r ≤ r' ∧ ((∃ l ∈ L, ∃ a, l.fam = some a) → 0 ≤ r')
  | [], r, _ => ⟨r, rfl, le_refl _, by simp⟩
  | l :: L, r, h => by
    rw [List.foldlM_cons]
    cases hl : l.fam with
    | none =>
      obtain ⟨r', h1, h2, h3⟩ := maxInArrays_ok L r (fun l hl => h l (by simp [hl]))
      refine ⟨r', by simp only [ok_bind]; exact h1, h2, ?_⟩
      rintro ⟨l', hl', a, ha⟩
      rcases List.mem_cons.mp hl' with rfl | hl'
      · rw [hl] at ha; cases ha
      · exact h3 ⟨l', hl', a, ha⟩
    | some a =>
      have hne := h l (by simp) a hl
      cases a with
      | nil => exact absurd rfl hne
      | cons v a =>
        obtain ⟨r', h1, h2, h3⟩ := maxInArrays_ok L (max r |a.foldl max v|) (fun l hl => h l (by simp [hl]))
        have h4 := le_max_left r |a.foldl max v|
        have h5 := le_max_right r |a.foldl max v|
        have h6 := abs_nonneg (a.foldl max v)
        refine ⟨r', ?_, by omega, fun _ => by omega⟩
        simp only [getMaxValue, ok_bind]
        exact h1

theorem foldl_maxabs_ge (l : List (Name × Int)) : ∀ r : Int, r ≤ l.foldl (fun r p => max |p.2| r) r ∧ ∀ p ∈ l, |p.2| ≤ l.foldl (fun r p => max |p.2| r) r := by
  induction l with
  | nil => simp
  | cons q l ih =>
    intro r
    rw [List.foldl_cons]
    obtain ⟨h1, h2⟩ := ih (max |q.2| r)
    have h3 := le_max_left |q.2| r
    have h4 := le_max_right |q.2| r
    refine ⟨by omega, fun p hp => ?_⟩
    rcases List.mem_cons.mp hp with rfl | hp
    · omega
    · exact h2 p hp

theorem theMaxAbs_ok (m : FamMesh) (hs : ∀ l ∈ m.levs, ∀ a, l.fam = some a → a ≠ []) (hex : ∃ l ∈ m.levs, ∃ a, l.fam = some a) :
    ∃ mx, getTheMaxAbsFamilyId m = .ok mx ∧ 0 ≤ mx ∧ ∀ f i, mget f m.families = some i → |i| ≤ mx := by
  obtain ⟨r, h1, _, h3⟩ := maxInArrays_ok m.levs (-mcIdMax) hs
  have h1' : getMaxAbsFamilyIdInArrays m = .ok r := h1
  refine ⟨_, by unfold getTheMaxAbsFamilyId; rw [h1', ok_bind], ?_, ?_⟩
  · have := h3 hex
    exact le_trans this (le_max_right _ _)
  · intro f i hf
    exact le_trans ((foldl_maxabs_ge m.families (-mcIdMax)).2 (f, i) (mget_mem hf)) (le_max_left _ _)

theorem addInv_init (m : FamMesh) (hw : FamWF m) (a ids : List Int) (others : List (List Int)) (base : Int)
    (hb : ∀ f i, mget f m.families = some i → |i| < base) :
    AddInv m a ids others base [] { maxVal := base, families := m.families, groups := m.groups, fams := [], sets := [] } id id := by
  refine ⟨hw.kf, rfl, fun _ _ h => h, hw.inj, hb, le_refl _, Or.inl rfl, hw.ok, fun _ _ _ _ => Iff.rfl, fun _ _ _ h => h, ?_, by simp, by simp, by simp,
    by simp, by simp, by simp, by simp, by simp, a, rfl, rfl, by simp⟩
  intro g y hy
  constructor
  · rintro ⟨_, _, f, _, hf⟩
    have := hb f y hf
    omega
  · rintro ⟨x, hx, _⟩
    simp at hx

theorem checkNoGroupClash_ok (m : FamMesh) (hw : GroupsOK m) (a : List Int) (g : Name) :
    ((∀ x ∈ a, ¬ GrpHas m g x) → checkNoGroupClash m a g = .ok ()) ∧ ((∃ x ∈ a, GrpHas m g x) → checkNoGroupClash m a g = .error .exn) := by
  unfold checkNoGroupClash
  cases hg : mget g m.groups with
  | none =>
    refine ⟨fun _ => rfl, ?_⟩
    rintro ⟨x, _, L, hL, _⟩
    rw [hg] at hL; cases hL
  | some L =>
    obtain ⟨ids, h1, h2⟩ := getFamiliesIds_ok m L (fun f hf => hw g L hg f hf)
    have h3 : getFamiliesIdsOnGroup m g = .ok ids := by
      unfold getFamiliesIdsOnGroup getFamiliesOnGroup
      rw [hg]
      simp only [ok_bind]
      exact h1
    simp only [h3, ok_bind]
    constructor
    · intro h
      rw [if_neg]
      rw [Bool.not_eq_true, List.any_eq_false]
      intro i hi
      simp only [decide_eq_true_eq]
      intro hia
      obtain ⟨f, hf, hfi⟩ := (h2 i).mp hi
      exact h i hia ⟨L, hg, f, hf, hfi⟩
    · rintro ⟨x, hx, L', hL', f, hf, hfx⟩
      rw [hg] at hL'
      cases hL'
      rw [if_pos]
      · rfl
      · rw [List.any_eq_true]
        exact ⟨x, (h2 x).mpr ⟨f, hf, hfx⟩, by simpa using hx⟩

/-- **C93.** Adding a group of cells or nodes on a consistent mesh: when the name is not empty, the ids increasing, in range, and no
entity of the level is already in a group of that name, and if no family of a group used on another level too has to be cut, the call
succeeds; afterwards the group has exactly the given ids at this level, all groups have the entities they had at all levels, the mesh is
consistent again and the family 0 has entered no group. -/
theorem C93_add_group (m : FamMesh) (hw : FamWF m) (rel : Int) (a ids : List Int) (g : Name)
    (ha : getFamilyFieldAtLevel m rel = .ok (some a)) (hg : g ≠ []) (hs : StrictSorted ids) (hr : ∀ i ∈ ids, 0 ≤ i ∧ i < a.length)
    (hclash : ∀ x ∈ a, ¬ GrpHas m g x)
    (hcut : ∀ (j k : Nat) (x : Int), a[j]? = some x → (j : Int) ∈ ids → a[k]? = some x → (k : Int) ∉ ids → (∃ g', GrpHas m g' x) →
      ∀ rel' b, rel' ≠ rel → getFamilyFieldAtLevel m rel' = .ok (some b) → x ∉ b) :
    ∃ m', addGroupAt m rel g ids = .ok m' ∧ FamWF m' ∧
      getGroupArr m' rel g = .ok ids ∧
      (∀ g', g' ≠ g → mget g' m.groups ≠ none → getGroupArr m' rel g' = getGroupArr m rel g') ∧
      (∀ rel' b g', rel' ≠ rel → getFamilyFieldAtLevel m rel' = .ok (some b) → mget g' m.groups ≠ none → getGroupArr m' rel' g' = getGroupArr m rel' g') ∧
      (∀ rel' b, rel' ≠ rel → getFamilyFieldAtLevel m rel' = .ok (some b) → mget g m.groups = none → getGroupArr m' rel' g = .ok []) ∧
      (∀ x, x ∈ m'.groups.map (·.1) ↔ x = g ∨ x ∈ m.groups.map (·.1)) ∧
      (∀ g', GrpHas m' g' 0 → GrpHas m g' 0) := by
  obtain ⟨l, hl, hla⟩ := field_some ha
  obtain ⟨hlm, hlr⟩ := famLev_mem hl
  obtain ⟨mx, hmx, hmx0, hmxf⟩ := theMaxAbs_ok m (fun l hl b hb e => by
    have := hw.size l hl
    have h2 := this.2 b hb
    rw [e] at h2
    have := this.1
    simp at h2
    omega) ⟨l, hlm, a, hla⟩
  set base := mx + 1 with hbase
  have hbf : ∀ f i, mget f m.families = some i → |i| < base := fun f i hf => by have := hmxf f i hf; omega
  have hbl : ∀ l ∈ m.levs, ∀ b, l.fam = some b → ∀ x ∈ b, |x| < base := by
    intro l hl b hb x hx
    rcases hw.bound l hl b hb x hx with rfl | ⟨f, i, hf, hi⟩
    · simp; omega
    · have := hmxf f i hf; omega
  have hba : ∀ x ∈ a, |x| < base := hbl l hlm a hla
  have hfsel : selectSafe a ids = .ok (ids.map fun i => (a[i.toNat]?).getD 0) := by
    unfold selectSafe
    apply dec_mapM_ok
    intro i hi
    rw [if_pos (hr i hi)]
    obtain ⟨k, rfl⟩ := Int.eq_ofNat_of_zero_le (hr i hi).1
    have hk : k < a.length := by have := (hr _ hi).2; omega
    rw [rd_natCast hk]
    simp [hk]
  set famIds := ids.map fun i => (a[i.toNat]?).getD 0 with hfamIds
  have hmemf : ∀ x, x ∈ famIds ↔ ∃ k : Nat, (k : Int) ∈ ids ∧ a[k]? = some x := by
    intro x
    rw [hfamIds, List.mem_map]
    constructor
    · rintro ⟨i, hi, rfl⟩
      obtain ⟨k, rfl⟩ := Int.eq_ofNat_of_zero_le (hr i hi).1
      have hk : k < a.length := by have := (hr _ hi).2; omega
      exact ⟨k, hi, by simp [hk]⟩
    · rintro ⟨k, hk, hx⟩
      exact ⟨k, hk, by simp [hx]⟩
  obtain ⟨hd1, hd2⟩ := C14_different_values famIds
  set others := (m.levs.filter fun l => decide (l.rel ≠ rel)).filterMap (·.fam) with hothers
  have hoth : ∀ b, b ∈ others ↔ ∃ l ∈ m.levs, l.rel ≠ rel ∧ l.fam = some b := by
    intro b
    rw [hothers, List.mem_filterMap]
    simp only [List.mem_filter, decide_eq_true_eq]
    constructor
    · rintro ⟨l, ⟨h1, h2⟩, h3⟩; exact ⟨l, h1, h2, h3⟩
    · rintro ⟨l, h1, h2, h3⟩; exact ⟨l, ⟨h1, h2⟩, h3⟩
  obtain ⟨st, P, gid, rid, hfold, hP, inv⟩ := addLoop_inv (others := others) hw.kf (by omega) (decide (rel = 1)) hs hr hfsel
    (getDifferentValues famIds) [] _ _ _ (addInv_init m hw a ids others base hbf) hd1.nodup (by
      intro x hx
      refine ⟨by simp, hba x ?_⟩
      obtain ⟨k, _, hk⟩ := (hmemf x).mp ((hd2 x).mp hx)
      exact List.mem_of_getElem? hk)
  have hPm : ∀ x, x ∈ P ↔ ∃ k : Nat, (k : Int) ∈ ids ∧ a[k]? = some x := by
    intro x
    rw [hP, hd2, hmemf]; simp
  obtain ⟨c, hc1, hc2, hc3⟩ := inv.arr
  set newL := (match mget g st.groups with | some l => l ++ st.fams | none => st.fams) with hnewL
  refine ⟨{ putFam m rel c with families := st.families, groups := mset g newL st.groups }, ?_, ?_⟩
  · unfold addGroupAt
    rw [hl]
    simp only [hla]
    unfold addGroupUnderground
    have hmon : isStrictlyMonotonic true ids = true := (C32_monotonic ids).2.2.1.mpr hs
    rw [if_neg hg, if_neg (by simp [hmon])]
    unfold addGroupCore
    rw [(checkNoGroupClash_ok m hw.ok a g).1 hclash, ok_bind, hfsel, ok_bind, hmx, ok_bind]
    simp only
    rw [hfold, ok_bind, hc1, ok_bind]
    rfl
  set m' : FamMesh := { putFam m rel c with families := st.families, groups := mset g newL st.groups } with hm'
  have hkst : KeysInc st.groups := by unfold KeysInc; rw [inv.kg]; exact hw.kg
  have hgst : ∀ x, mget x st.groups = none ↔ mget x m.groups = none := by
    intro x; rw [mget_none, mget_none, inv.kg]
  -- membership in the new groups
  have hasOther : ∀ g' y, g' ≠ g → (GrpHas m' g' y ↔ HasIn st.families st.groups g' y) := by
    intro g' y hne
    unfold GrpHas HasIn
    simp only [hm', mget_mset, if_neg hne]
  have hasG : ∀ y, GrpHas m' g y ↔ HasIn st.families st.groups g y ∨ ∃ x ∈ P, y = gid x := by
    intro y
    have hfm : (∃ f ∈ st.fams, mget f st.families = some y) ↔ ∃ x ∈ P, y = gid x := by
      constructor
      · rintro ⟨f, hf, hfy⟩
        obtain ⟨x, hx, h1⟩ := inv.famsOK f hf
        rw [hfy] at h1
        cases h1
        exact ⟨x, hx, rfl⟩
      · rintro ⟨x, hx, rfl⟩
        exact inv.famsAll x hx
    rw [← hfm]
    unfold GrpHas HasIn
    simp only [hm', mget_mset, if_true, Option.some.injEq, exists_eq_left']
    rw [hnewL]
    cases hL : mget g st.groups with
    | none => simp
    | some L => simp [or_and_right, exists_or]
  have hGOK : GroupsOK m' := by
    intro g' L hL f hf
    simp only [hm', mget_mset] at hL
    split at hL
    · cases hL
      rw [hnewL] at hf
      cases hL : mget g st.groups with
      | none =>
        rw [hL] at hf
        obtain ⟨x, _, h1⟩ := inv.famsOK f hf
        exact ⟨_, h1⟩
      | some L =>
        rw [hL] at hf
        rcases List.mem_append.mp hf with hf | hf
        · exact inv.lie g L hL f hf
        · obtain ⟨x, _, h1⟩ := inv.famsOK f hf
          exact ⟨_, h1⟩
    · exact inv.lie g' L hL f hf
  have hlev' : ∀ rel', famLev m' rel' = if rel' = rel then some { l with fam := some c } else famLev m rel' := by
    intro rel'
    have : famLev m' rel' = famLev (putFam m rel c) rel' := rfl
    rw [this, famLev_putFam, hl]; rfl
  have hfield : getFamilyFieldAtLevel m' rel = .ok (some c) := by
    rw [field_eq (by rw [hlev', if_pos rfl])]
  have hfield' : ∀ rel' b, rel' ≠ rel → getFamilyFieldAtLevel m rel' = .ok (some b) → getFamilyFieldAtLevel m' rel' = .ok (some b) := by
    intro rel' b hne hb
    obtain ⟨l', hl', e⟩ := field_some hb
    rw [field_eq (l := l') (by rw [hlev', if_neg hne, hl']), e]
  -- the entities of the level
  have keyA : ∀ (k : Nat) (x z : Int), a[k]? = some x → c[k]? = some z → ∀ g', HasIn st.families st.groups g' z ↔ GrpHas m g' x := by
    intro k x z hx hz g'
    rw [hc3 k x hx] at hz
    simp only [Option.some.injEq] at hz
    have hxb := hba x (List.mem_of_getElem? hx)
    by_cases hxP : x ∈ P
    · rw [if_pos hxP] at hz
      by_cases hk : (k : Int) ∈ ids
      · rw [if_pos hk] at hz
        subst hz
        rcases inv.gidr x hxP with ⟨e1, e2, _⟩ | ⟨h1, _⟩
        · rw [e1]
          exact inv.oldIff g' x hxb fun _ => e2
        · rw [inv.fresh g' _ h1]
          constructor
          · rintro ⟨y, hy, h2, h3 | h3⟩
            · rw [inv.gi x hxP y hy h3]; exact h2
            · exact absurd h3.symm (inv.gr y hy x hxP (by rw [← h3]; exact h1))
          · intro h2
            exact ⟨x, hxP, h2, Or.inl rfl⟩
      · rw [if_neg hk] at hz
        subst hz
        rcases inv.ridr x hxP with ⟨_, h1⟩ | ⟨h1, _⟩
        · exact absurd (h1 k hx) hk
        · rw [inv.fresh g' _ h1]
          constructor
          · rintro ⟨y, hy, h2, h3 | h3⟩
            · exact absurd h3 (inv.gr x hxP y hy h1)
            · rw [inv.rr x hxP y hy h1 h3]; exact h2
          · intro h2
            exact ⟨x, hxP, h2, Or.inr rfl⟩
    · rw [if_neg hxP] at hz
      subst hz
      exact inv.oldIff g' x hxb fun hc => absurd hc hxP
  have keyB : ∀ (k : Nat) (x z : Int), a[k]? = some x → c[k]? = some z → ((∃ y ∈ P, z = gid y) ↔ (k : Int) ∈ ids) := by
    intro k x z hx hz
    rw [hc3 k x hx] at hz
    simp only [Option.some.injEq] at hz
    have hxb := hba x (List.mem_of_getElem? hx)
    by_cases hk : (k : Int) ∈ ids
    · have hxP : x ∈ P := (hPm x).mpr ⟨k, hk, hx⟩
      rw [if_pos hxP, if_pos hk] at hz
      simp only [hk, iff_true]
      exact ⟨x, hxP, hz.symm⟩
    · simp only [hk, iff_false]
      rintro ⟨y, hy, e⟩
      by_cases hxP : x ∈ P
      · rw [if_pos hxP, if_neg hk] at hz
        rcases inv.ridr x hxP with ⟨_, h1⟩ | ⟨h1, _⟩
        · exact absurd (h1 k hx) hk
        · exact inv.gr x hxP y hy h1 (hz.trans e)
      · rw [if_neg hxP] at hz
        rcases inv.gidr y hy with ⟨e1, _⟩ | ⟨h1, _⟩
        · rw [hz, e, e1] at hxP; exact hxP hy
        · rw [← e, ← hz] at h1; omega
  have keyO : ∀ l' ∈ m.levs, l'.rel ≠ rel → ∀ b, l'.fam = some b → ∀ x ∈ b,
      (∀ g', HasIn st.families st.groups g' x ↔ GrpHas m g' x) ∧ ¬ ∃ y ∈ P, x = gid y := by
    intro l' hl' hne b hb x hx
    have hxb := hbl l' hl' b hb x hx
    constructor
    · intro g'
      by_cases hcase : x ∈ P → rid x = x
      · exact inv.oldIff g' x hxb hcase
      · push Not at hcase
        obtain ⟨hxP, hrx⟩ := hcase
        rcases inv.ridr x hxP with ⟨h1, _⟩ | ⟨_, _, k, hk, hki⟩
        · exact absurd h1 hrx
        · obtain ⟨j, hj, hjx⟩ := (hPm x).mp hxP
          have hno : ¬ ∃ g', GrpHas m g' x := by
            intro hex
            refine hcut j k x hjx hj hk hki hex l'.rel b hne ?_ hx
            rw [field_eq (mem_famLev hw.levs hl'), hb]
          constructor
          · intro h; exact absurd ⟨g', inv.oldSub g' x hxb h⟩ hno
          · intro h; exact absurd ⟨g', h⟩ hno
    · rintro ⟨y, hy, e⟩
      rcases inv.gidr y hy with ⟨e1, _, h1, _⟩ | ⟨h1, _⟩
      · exact h1 b ((hoth b).mpr ⟨l', hl', hne, hb⟩) (by rw [← e1, ← e]; exact hx)
      · rw [← e] at h1; omega
  have ca : ∀ k : Nat, (∃ x, a[k]? = some x) → ∃ z, c[k]? = some z := fun k ⟨x, hx⟩ => ⟨_, hc3 k x hx⟩
  have ac : ∀ k : Nat, (∃ z, c[k]? = some z) → ∃ x, a[k]? = some x := by
    rintro k ⟨z, hz⟩
    have := (List.getElem?_eq_some_iff.mp hz).1
    exact ⟨a[k]'(by omega), by simp⟩
  have hnone : mget g m'.groups ≠ none := by simp [hm', mget_mset]
  have readM : ∀ (n : FamMesh) (r : Int) (b : List Int) (g' : Name), GroupsOK n → getFamilyFieldAtLevel n r = .ok (some b) → mget g' n.groups ≠ none →
      ∃ R, getGroupArr n r g' = .ok R ∧ StrictSorted R ∧ ∀ i, i ∈ R ↔ ∃ k : Nat, i = (k : Int) ∧ ∃ x, b[k]? = some x ∧ GrpHas n g' x := by
    intro n r b g' h1 h2 h3
    obtain ⟨R, h4, h5, h6⟩ := C92_groups_arr n r b [g'] h1 h2 (by
      simp only [List.mem_singleton, forall_eq]
      exact Option.ne_none_iff_exists'.mp h3)
    exact ⟨R, h4, h5, fun i => by rw [h6]; simp⟩
  refine ⟨⟨inv.kf, keysInc_mset hkst, hGOK, inv.inj, ?_, ?_, ?_⟩, ?_, ?_, ?_, ?_, ?_, ?_⟩
  · have : m'.levs.map (·.rel) = m.levs.map (·.rel) := by
      simp only [hm', putFam, List.map_map]
      apply List.map_congr_left
      intro l _
      simp only [Function.comp]
      split <;> rfl
    rw [this]
    exact hw.levs
  · intro l' hl'
    simp only [hm', putFam, List.mem_map] at hl'
    obtain ⟨l0, hl0, rfl⟩ := hl'
    by_cases e : l0.rel = rel
    · rw [if_pos e]
      refine ⟨(hw.size l0 hl0).1, ?_⟩
      intro b hb
      simp only [Option.some.injEq] at hb
      subst hb
      have h1 := mem_famLev hw.levs hl0
      rw [e, hl] at h1
      cases h1
      simp only
      rw [hc2]
      exact (hw.size l hl0).2 a hla
    · rw [if_neg e]
      exact hw.size l0 hl0
  · intro l' hl' b hb x hx
    simp only [hm', putFam, List.mem_map] at hl'
    obtain ⟨l0, hl0, rfl⟩ := hl'
    have hold : ∀ l ∈ m.levs, ∀ b, l.fam = some b → ∀ x ∈ b, x = 0 ∨ ∃ f i, mget f m'.families = some i ∧ |x| ≤ |i| := by
      intro l hl b hb x hx
      rcases hw.bound l hl b hb x hx with h1 | ⟨f, i, h1, h2⟩
      · exact Or.inl h1
      · exact Or.inr ⟨f, i, inv.mono f i h1, h2⟩
    by_cases e : l0.rel = rel
    · rw [if_pos e] at hb
      simp only [Option.some.injEq] at hb
      subst hb
      obtain ⟨k, hk⟩ := List.mem_iff_getElem?.mp hx
      obtain ⟨y, hy⟩ := ac k ⟨x, hk⟩
      rw [hc3 k y hy] at hk
      simp only [Option.some.injEq] at hk
      have hbig : base ≤ |x| → |x| < st.maxVal → ∃ f i, mget f m'.families = some i ∧ |x| ≤ |i| := by
        intro h1 h2
        rcases inv.top with h3 | ⟨f, i, hf, hi⟩
        · omega
        · exact ⟨f, i, hf, by omega⟩
      have hym := hold l hlm a hla y (List.mem_of_getElem? hy)
      by_cases hyP : y ∈ P
      · rw [if_pos hyP] at hk
        by_cases hki : (k : Int) ∈ ids
        · rw [if_pos hki] at hk
          rcases inv.gidr y hyP with ⟨e1, _⟩ | ⟨h1, h2⟩
          · rw [← hk, e1]; exact hym
          · rw [hk] at h1 h2; exact Or.inr (hbig h1 h2)
        · rw [if_neg hki] at hk
          rcases inv.ridr y hyP with ⟨e1, _⟩ | ⟨h1, h2, _⟩
          · rw [← hk, e1]; exact hym
          · rw [hk] at h1 h2; exact Or.inr (hbig h1 h2)
      · rw [if_neg hyP] at hk
        rw [← hk]; exact hym
    · rw [if_neg e] at hb
      exact hold l0 hl0 b hb x hx
  · obtain ⟨R, h1, h2, h3⟩ := readM m' rel c g hGOK hfield hnone
    rw [h1]
    congr 1
    apply StrictSorted.ext h2 hs
    intro i
    rw [h3]
    constructor
    · rintro ⟨k, rfl, z, hz, hgz⟩
      obtain ⟨x, hx⟩ := ac k ⟨z, hz⟩
      rcases (hasG z).mp hgz with h4 | h4
      · exact absurd ((keyA k x z hx hz g).mp h4) (hclash x (List.mem_of_getElem? hx))
      · exact (keyB k x z hx hz).mp h4
    · intro hi
      obtain ⟨k, rfl⟩ := Int.eq_ofNat_of_zero_le (hr i hi).1
      have hk : k < a.length := by have := (hr _ hi).2; omega
      obtain ⟨z, hz⟩ := ca k ⟨a[k], by simp⟩
      exact ⟨k, rfl, z, hz, (hasG z).mpr (Or.inr ((keyB k a[k] z (by simp) hz).mpr hi))⟩
  · intro g' hne hgm
    have hgm' : mget g' m'.groups ≠ none := by
      simp only [hm', mget_mset, if_neg hne]
      rw [Ne, hgst]; exact hgm
    obtain ⟨R, h1, h2, h3⟩ := readM m' rel c g' hGOK hfield hgm'
    obtain ⟨R', h1', h2', h3'⟩ := readM m rel a g' hw.ok ha hgm
    rw [h1, h1']
    congr 1
    apply StrictSorted.ext h2 h2'
    intro i
    rw [h3, h3']
    constructor
    · rintro ⟨k, rfl, z, hz, hgz⟩
      obtain ⟨x, hx⟩ := ac k ⟨z, hz⟩
      exact ⟨k, rfl, x, hx, (keyA k x z hx hz g').mp ((hasOther g' z hne).mp hgz)⟩
    · rintro ⟨k, rfl, x, hx, hgx⟩
      obtain ⟨z, hz⟩ := ca k ⟨x, hx⟩
      exact ⟨k, rfl, z, hz, (hasOther g' z hne).mpr ((keyA k x z hx hz g').mpr hgx)⟩
  · intro rel' b g' hne hb hgm
    obtain ⟨l', hl', hbl'⟩ := field_some hb
    obtain ⟨hlm', hlr'⟩ := famLev_mem hl'
    have hgm' : mget g' m'.groups ≠ none := by
      by_cases e : g' = g
      · rw [e]; exact hnone
      · simp only [hm', mget_mset, if_neg e]
        rw [Ne, hgst]; exact hgm
    obtain ⟨R, h1, h2, h3⟩ := readM m' rel' b g' hGOK (hfield' rel' b hne hb) hgm'
    obtain ⟨R', h1', h2', h3'⟩ := readM m rel' b g' hw.ok hb hgm
    rw [h1, h1']
    congr 1
    apply StrictSorted.ext h2 h2'
    intro i
    rw [h3, h3']
    have : ∀ x ∈ b, GrpHas m' g' x ↔ GrpHas m g' x := by
      intro x hx
      obtain ⟨k1, k2⟩ := keyO l' hlm' (by rw [hlr']; exact hne) b hbl' x hx
      by_cases e : g' = g
      · subst e
        rw [hasG, k1]
        constructor
        · rintro (h4 | h4)
          · exact h4
          · exact absurd h4 k2
        · exact Or.inl
      · rw [hasOther g' x e, k1]
    constructor
    · rintro ⟨k, rfl, x, hx, hgx⟩
      exact ⟨k, rfl, x, hx, (this x (List.mem_of_getElem? hx)).mp hgx⟩
    · rintro ⟨k, rfl, x, hx, hgx⟩
      exact ⟨k, rfl, x, hx, (this x (List.mem_of_getElem? hx)).mpr hgx⟩
  · intro rel' b hne hb hgm
    obtain ⟨l', hl', hbl'⟩ := field_some hb
    obtain ⟨hlm', hlr'⟩ := famLev_mem hl'
    obtain ⟨R, h1, h2, h3⟩ := readM m' rel' b g hGOK (hfield' rel' b hne hb) hnone
    rw [h1]
    congr 1
    rw [List.eq_nil_iff_forall_not_mem]
    intro i hi
    obtain ⟨k, rfl, x, hx, hgx⟩ := (h3 i).mp hi
    obtain ⟨k1, k2⟩ := keyO l' hlm' (by rw [hlr']; exact hne) b hbl' x (List.mem_of_getElem? hx)
    rcases (hasG x).mp hgx with h4 | h4
    · obtain ⟨L, hL, _⟩ := (k1 g).mp h4
      rw [hgm] at hL; cases hL
    · exact k2 h4
  · intro x
    simp only [hm']
    rw [mset_keys, inv.kg]
  · intro g' h0
    have hb0 : |(0 : Int)| < base := by simp; omega
    by_cases e : g' = g
    · subst e
      rcases (hasG 0).mp h0 with h1 | ⟨x, hx, h1⟩
      · exact inv.oldSub _ _ hb0 h1
      · rcases inv.gidr x hx with ⟨h2, _, _, h3⟩ | ⟨h2, _⟩
        · exact absurd (h2.symm.trans h1.symm) h3
        · rw [← h1] at h2; omega
    · exact inv.oldSub _ _ hb0 ((hasOther g' 0 e).mp h0)

/-- A consistent mesh: nodes, cells and faces, where two groups share a family of cells. -/
def famWFSample : FamMesh where
  levs := [⟨1, 4, some [0, 3, 3, 0]⟩, ⟨0, 5, some [-1, 0, -2, -1, -4]⟩, ⟨-1, 2, none⟩]
  families := [(['t'], -4), (['x'], -1), (['y'], -2), (['z'], 3)]
  groups := [(['a'], [['x'], ['y']]), (['b'], [['y'], ['z']])]

example : FamWF famWFSample := by
  have hf : ∀ f i, mget f famWFSample.families = some i → (f, i) ∈ famWFSample.families := fun f i h => mget_mem h
  refine ⟨by unfold KeysInc; decide +kernel, by unfold KeysInc; decide +kernel, ?_, ?_, by decide +kernel, ?_, ?_⟩
  · intro g L hL f hf
    have := mget_mem hL
    simp only [famWFSample, List.mem_cons, Prod.mk.injEq, List.not_mem_nil, or_false] at this
    rcases this with ⟨_, rfl⟩ | ⟨_, rfl⟩ <;> simp only [List.mem_cons, List.not_mem_nil, or_false] at hf <;> rcases hf with rfl | rfl
    · exact ⟨-1, by decide +kernel⟩
    · exact ⟨-2, by decide +kernel⟩
    · exact ⟨-2, by decide +kernel⟩
    · exact ⟨3, by decide +kernel⟩
  · intro f f' i h h'
    have h1 := hf f i h
    have h2 := hf f' i h'
    simp only [famWFSample, List.mem_cons, Prod.mk.injEq, List.not_mem_nil, or_false] at h1 h2
    rcases h1 with ⟨rfl, rfl⟩ | ⟨rfl, rfl⟩ | ⟨rfl, rfl⟩ | ⟨rfl, rfl⟩ <;> exact Eq.symm (by simpa using h2)
  · decide +kernel
  · intro l hl a ha x hx
    simp only [famWFSample, List.mem_cons, List.not_mem_nil, or_false] at hl
    rcases hl with rfl | rfl | rfl <;> simp only [Option.some.injEq, reduceCtorEq] at ha
    · subst ha
      exact Or.inr ⟨['t'], -4, by decide +kernel, by revert x; decide⟩
    · subst ha
      exact Or.inr ⟨['t'], -4, by decide +kernel, by revert x; decide⟩

/-- The groups of the sample after the addition of `n` on the cells 2, 3 and 4: one family is kept, one is cut, one is shared. -/
example : (do
    let m ← addGroupAt famWFSample 0 ['n'] [2, 3, 4]
    let r ← [0, 1].mapM fun (rel : Int) => [['a'], ['b'], ['n']].mapM fun g => getGroupArr m rel g
    (.ok (r, m.levs.map FamLev.fam, m.families.map Prod.snd) : M _)) =
  .ok ([[[0, 2, 3], [2], [2, 3, 4]], [[], [1, 2], []]], [some [0, 3, 3, 0], some [-5, 0, -2, -6, -4], none], [-5, -6, -4, -1, -2, 3]) := by decide +kernel

/-- **C93.** A level without array is handled as a level with the array of 0 of its size. -/
theorem C93_absent_array (m : FamMesh) (hw : FamWF m) (rel : Int) (g : Name) (ids : List Int) (l : FamLev) (hl : famLev m rel = some l) (hn : l.fam = none) :
    addGroupAt m rel g ids = addGroupAt (putFam m rel (List.replicate l.size 0)) rel g ids ∧
      FamWF (putFam m rel (List.replicate l.size 0)) ∧
      getFamilyFieldAtLevel (putFam m rel (List.replicate l.size 0)) rel = .ok (some (List.replicate l.size 0)) := by
  have hlev : famLev (putFam m rel (List.replicate l.size 0)) rel = some { l with fam := some (List.replicate l.size 0) } := by
    rw [famLev_putFam, if_pos rfl, hl]; rfl
  obtain ⟨hlm, hlr⟩ := famLev_mem hl
  refine ⟨?_, ⟨hw.kf, hw.kg, hw.ok, hw.inj, ?_, ?_, ?_⟩, by rw [field_eq hlev]⟩
  · unfold addGroupAt
    rw [hl, hlev]
    simp only [hn]
  · have : (putFam m rel (List.replicate l.size 0)).levs.map (·.rel) = m.levs.map (·.rel) := by
      simp only [putFam, List.map_map]
      apply List.map_congr_left
      intro l _
      simp only [Function.comp]
      split <;> rfl
    rw [this]
    exact hw.levs
  · intro l' hl'
    simp only [putFam, List.mem_map] at hl'
    obtain ⟨l0, hl0, rfl⟩ := hl'
    by_cases e : l0.rel = rel
    · rw [if_pos e]
      have h1 := mem_famLev hw.levs hl0
      rw [e, hl] at h1
      cases h1
      refine ⟨(hw.size l hl0).1, ?_⟩
      intro b hb
      simp only [Option.some.injEq] at hb
      subst hb
      simp
    · rw [if_neg e]
      exact hw.size l0 hl0
  · intro l' hl' b hb x hx
    simp only [putFam, List.mem_map] at hl'
    obtain ⟨l0, hl0, rfl⟩ := hl'
    by_cases e : l0.rel = rel
    · rw [if_pos e] at hb
      simp only [Option.some.injEq] at hb
      subst hb
      exact Or.inl (List.eq_of_mem_replicate hx)
    · rw [if_neg e] at hb
      exact hw.bound l0 hl0 b hb x hx

example : (do
    let m ← addGroupAt famWFSample (-1) ['n'] [1]
    let r ← [['a'], ['b'], ['n']].mapM fun g => getGroupArr m (-1) g
    (.ok (r, m.levs.map FamLev.fam) : M _)) =
  .ok ([[], [], [1]], [some [0, 3, 3, 0], some [-1, 0, -2, -1, -4], some [-5, -6]]) := by decide +kernel

/-- **C93.** The refusals, that leave the mesh as it was (nothing is returned): no such level, no name, ids not strictly increasing,
an entity of the level already in a group of that name, an id out of the level. -/
theorem C93_add_group_refused (m : FamMesh) (hw : FamWF m) (rel : Int) (ids : List Int) (g : Name) :
    ((∀ l ∈ m.levs, l.rel ≠ rel) → addGroupAt m rel g ids = .error .exn) ∧
    (∀ a, getFamilyFieldAtLevel m rel = .ok (some a) →
      (g = [] ∨ ¬ StrictSorted ids ∨ (∃ x ∈ a, GrpHas m g x) ∨ ∃ i ∈ ids, i < 0 ∨ (a.length : Int) ≤ i) → addGroupAt m rel g ids = .error .exn) := by
  constructor
  · intro h
    have : famLev m rel = none := by
      unfold famLev
      rw [List.find?_eq_none]
      intro l hl
      simpa using h l hl
    unfold addGroupAt
    rw [this]; rfl
  · intro a ha h
    obtain ⟨l, hl, hla⟩ := field_some ha
    unfold addGroupAt
    rw [hl]
    simp only [hla]
    unfold addGroupUnderground
    by_cases hg : g = []
    · rw [if_pos hg]; rfl
    rw [if_neg hg]
    by_cases hs : StrictSorted ids
    · have hmon : isStrictlyMonotonic true ids = true := (C32_monotonic ids).2.2.1.mpr hs
      rw [if_neg (by simp [hmon])]
      unfold addGroupCore
      by_cases hc : ∃ x ∈ a, GrpHas m g x
      · rw [(checkNoGroupClash_ok m hw.ok a g).2 hc]; rfl
      · have hc' : ∀ x ∈ a, ¬ GrpHas m g x := fun x hx hgx => hc ⟨x, hx, hgx⟩
        rw [(checkNoGroupClash_ok m hw.ok a g).1 hc', ok_bind]
        have hout : ∃ i ∈ ids, i < 0 ∨ (a.length : Int) ≤ i := by
          rcases h with h | h | h | h
          · exact absurd h hg
          · exact absurd hs h
          · exact absurd h hc
          · exact h
        have hsel : selectSafe a ids = .error .exn := by
          unfold selectSafe
          obtain ⟨i, hi, hio⟩ := hout
          clear hmon hs h
          induction ids with
          | nil => simp at hi
          | cons j ids ih =>
            rw [List.mapM_cons]
            by_cases hj : 0 ≤ j ∧ j < a.length
            · rw [if_pos hj]
              obtain ⟨k, rfl⟩ := Int.eq_ofNat_of_zero_le hj.1
              have hk : k < a.length := by have := hj.2; omega
              rw [rd_natCast hk, ok_bind]
              rcases List.mem_cons.mp hi with rfl | hi
              · omega
              · rw [ih hi]; rfl
            · rw [if_neg hj]; rfl
        rw [hsel]; rfl
    · have hmon : isStrictlyMonotonic true ids = false := by
        rw [← Bool.not_eq_true]
        intro e
        exact hs ((C32_monotonic ids).2.2.1.mp e)
      rw [if_pos hmon]; rfl

example : addGroupAt famWFSample 2 ['n'] [0] = .error .exn ∧ addGroupAt famWFSample 0 ['b'] [0] = .error .exn ∧ addGroupAt famWFSample 0 ['n'] [1, 1] = .error .exn ∧
    addGroupAt famWFSample 0 ['n'] [1, 5] = .error .exn ∧ addGroupAt famWFSample 0 [] [1] = .error .exn := by decide +kernel

/-- **C93.** Finding: the new ids are chosen above the largest value of the arrays, not above the largest absolute value. On an array with
a negative id that has no family, the id chosen is already used: the group asked with the cell 1 has the cell 0 too. -/
theorem C93_finding_used_id :
    (do
      let m ← addGroupAt ⟨[⟨0, 3, some [-2, 0, 0]⟩], [], []⟩ 0 ['g'] [1]
      getGroupArr m 0 ['g']) = .ok [0, 1] := by decide +kernel

/-- **C93.** Finding: a family of a group that is used on two levels and has to be cut on one of them: the group, that was on the nodes 0 and
the cells 0 and 1, has no node any more once another group is added on the cells. -/
theorem C93_finding_cut_shared :
    (do
      let m : FamMesh := ⟨[⟨1, 2, some [-1, 0]⟩, ⟨0, 2, some [-1, -1]⟩], [(['x'], -1)], [(['a'], [['x']])]⟩
      let r ← [1, 0].mapM fun (rel : Int) => getGroupArr m rel ['a']
      let m' ← addGroupAt m 0 ['g'] [0]
      let r' ← [1, 0].mapM fun (rel : Int) => getGroupArr m' rel ['a']
      (.ok (r, r') : M _)) = .ok ([[0], [0, 1]], [[], [0, 1]]) := by decide +kernel

end MC
