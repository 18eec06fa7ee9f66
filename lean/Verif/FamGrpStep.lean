import Mathlib.Logic.Function.Basic
import Verif.FamGrpAdd

/-!
# Families and groups of a MED file mesh: the loop of `addGroupAt` (C93)
-/

namespace MC

/-- Invariant of the loop of `addGroupAt`: `P` is what has been treated, `gid x` the new id of the entities of family `x` that are in the
group, `rid x` that of the others. -/
structure AddInv (m : FamMesh) (a ids : List Int) (others : List (List Int)) (base : Int) (P : List Int) (st : AddGrpSt) (gid rid : Int → Int) : Prop where
  kf : KeysInc st.families
  kg : st.groups.map (·.1) = m.groups.map (·.1)
  mono : ∀ f i, mget f m.families = some i → mget f st.families = some i
  inj : IdsInj st.families
  bound : ∀ f i, mget f st.families = some i → |i| < st.maxVal
  hbase : base ≤ st.maxVal
  top : st.maxVal = base ∨ ∃ f i, mget f st.families = some i ∧ |i| = st.maxVal - 1
  lie : LieOn st.families st.groups
  oldIff : ∀ g x, |x| < base → (x ∈ P → rid x = x) → (HasIn st.families st.groups g x ↔ GrpHas m g x)
  oldSub : ∀ g x, |x| < base → HasIn st.families st.groups g x → GrpHas m g x
  fresh : ∀ g y, base ≤ |y| → (HasIn st.families st.groups g y ↔ ∃ x ∈ P, GrpHas m g x ∧ (y = gid x ∨ y = rid x))
  famsOK : ∀ f ∈ st.fams, ∃ x ∈ P, mget f st.families = some (gid x)
  famsAll : ∀ x ∈ P, ∃ f ∈ st.fams, mget f st.families = some (gid x)
  pb : ∀ x ∈ P, |x| < base
  gidr : ∀ x ∈ P, (gid x = x ∧ rid x = x ∧ (∀ b ∈ others, x ∉ b) ∧ x ≠ 0) ∨ (base ≤ |gid x| ∧ |gid x| < st.maxVal)
  ridr : ∀ x ∈ P, (rid x = x ∧ ∀ k : Nat, a[k]? = some x → (k : Int) ∈ ids) ∨
    (base ≤ |rid x| ∧ |rid x| < st.maxVal ∧ ∃ k : Nat, a[k]? = some x ∧ (k : Int) ∉ ids)
  gi : ∀ x ∈ P, ∀ y ∈ P, gid x = gid y → x = y
  gr : ∀ x ∈ P, ∀ y ∈ P, base ≤ |rid x| → rid x ≠ gid y
  rr : ∀ x ∈ P, ∀ y ∈ P, base ≤ |rid x| → rid x = rid y → x = y
  arr : ∃ c, st.sets.foldlM (fun a p => setPartSimple a p.1 p.2) a = .ok c ∧ c.length = a.length ∧
    ∀ (k : Nat) (x : Int), a[k]? = some x → c[k]? = some (if x ∈ P then (if (k : Int) ∈ ids then gid x else rid x) else x)

/-- What one turn of the loop does, whatever the case. -/
structure AddTurn (a ids : List Int) (others : List (List Int)) (x q r : Int) (st st' : AddGrpSt) : Prop where
  kf : KeysInc st'.families
  kg : st'.groups.map (·.1) = st.groups.map (·.1)
  mono : ∀ f i, mget f st.families = some i → mget f st'.families = some i
  back : ∀ f j, mget f st'.families = some j → mget f st.families = some j ∨ j = q ∨ j = r
  inj : IdsInj st'.families
  hmax : st.maxVal ≤ st'.maxVal
  top : st'.maxVal = st.maxVal ∨ ∃ f i, mget f st'.families = some i ∧ |i| = st'.maxVal - 1
  lie : LieOn st'.families st'.groups
  hH : ∀ g y, y ≠ x → (HasIn st'.families st'.groups g y ↔
    HasIn st.families st.groups g y ∨ (HasIn st.families st.groups g x ∧ (y = q ∨ y = r)))
  hX1 : ∀ g, HasIn st'.families st'.groups g x → HasIn st.families st.groups g x
  hX2 : r = x → ∀ g, HasIn st.families st.groups g x → HasIn st'.families st'.groups g x
  hq : (q = x ∧ r = x ∧ (∀ b ∈ others, x ∉ b) ∧ x ≠ 0) ∨ (st.maxVal ≤ |q| ∧ |q| < st'.maxVal)
  hr : (r = x ∧ ∀ k : Nat, a[k]? = some x → (k : Int) ∈ ids) ∨
    (st.maxVal ≤ |r| ∧ |r| < st'.maxVal ∧ r ≠ q ∧ ∃ k : Nat, a[k]? = some x ∧ (k : Int) ∉ ids)
  fams : ∃ n, st'.fams = st.fams ++ [n] ∧ mget n st'.families = some q
  sets : ∃ s, st'.sets = st.sets ++ s ∧ ∀ c : List Int, c.length = a.length → (∀ k : Nat, a[k]? = some x → c[k]? = some x) →
    ∃ c', s.foldlM (fun a p => setPartSimple a p.1 p.2) c = .ok c' ∧ c'.length = a.length ∧
      ∀ (k : Nat) (y z : Int), a[k]? = some y → c[k]? = some z → c'[k]? = some (if y = x then (if (k : Int) ∈ ids then q else r) else z)

theorem AddInv.step {m : FamMesh} {a ids : List Int} {others : List (List Int)} {base : Int} {P : List Int} {st st' : AddGrpSt} {gid rid : Int → Int}
    (h : AddInv m a ids others base P st gid rid) {x q r : Int} (hxP : x ∉ P) (hxb : |x| < base) (t : AddTurn a ids others x q r st st') :
    AddInv m a ids others base (x :: P) st' (Function.update gid x q) (Function.update rid x r) := by
  have hne : ∀ y ∈ P, y ≠ x := fun y hy e => hxP (e ▸ hy)
  have ug : ∀ y ∈ P, Function.update gid x q y = gid y := fun y hy => Function.update_of_ne (hne y hy) _ _
  have ur : ∀ y ∈ P, Function.update rid x r y = rid y := fun y hy => Function.update_of_ne (hne y hy) _ _
  have ugx : Function.update gid x q x = q := Function.update_self ..
  have urx : Function.update rid x r x = r := Function.update_self ..
  have hxHas : ∀ g, HasIn st.families st.groups g x ↔ GrpHas m g x := fun g => h.oldIff g x hxb fun hc => absurd hc hxP
  have hbm := h.hbase
  have hmm := t.hmax
  have hqf : base ≤ |q| → st.maxVal ≤ |q| ∧ |q| < st'.maxVal := by
    intro hb
    rcases t.hq with ⟨e, _⟩ | hq
    · rw [e] at hb; omega
    · exact hq
  have hrf : base ≤ |r| → st.maxVal ≤ |r| ∧ |r| < st'.maxVal ∧ r ≠ q := by
    intro hb
    rcases t.hr with ⟨e, _⟩ | hr
    · rw [e] at hb; omega
    · exact ⟨hr.1, hr.2.1, hr.2.2.1⟩
  have gidle : ∀ y ∈ P, |gid y| < st.maxVal := by
    intro y hy
    rcases h.gidr y hy with ⟨e, _⟩ | h1
    · rw [e]; have := h.pb y hy; omega
    · exact h1.2
  have ridle : ∀ y ∈ P, |rid y| < st.maxVal := by
    intro y hy
    rcases h.ridr y hy with ⟨e, _⟩ | h1
    · rw [e]; have := h.pb y hy; omega
    · exact h1.2.1
  refine ⟨t.kf, t.kg.trans h.kg, fun f i hf => t.mono f i (h.mono f i hf), t.inj, ?_, by omega, ?_, t.lie, ?_, ?_, ?_, ?_, ?_, ?_, ?_, ?_, ?_, ?_, ?_, ?_⟩
  · intro f i hf
    rcases t.back f i hf with h1 | rfl | rfl
    · have := h.bound f i h1; omega
    · rcases t.hq with ⟨e, _⟩ | hq
      · rw [e]; omega
      · exact hq.2
    · rcases t.hr with ⟨e, _⟩ | hr
      · rw [e]; omega
      · exact hr.2.1
  · rcases t.top with e | h1
    · rcases h.top with e1 | ⟨f, i, hf, hi⟩
      · exact Or.inl (by omega)
      · exact Or.inr ⟨f, i, t.mono f i hf, by omega⟩
    · exact Or.inr h1
  · intro g y hy hp
    by_cases e : y = x
    · subst e
      have hr : r = y := by rw [← urx]; exact hp (by simp)
      rw [← hxHas]
      exact ⟨t.hX1 g, t.hX2 hr g⟩
    · rw [t.hH g y e, h.oldIff g y hy (fun hyP => by rw [← ur y hyP]; exact hp (by simp [hyP]))]
      constructor
      · rintro (h1 | ⟨h1, h2 | h2⟩)
        · exact h1
        · rcases t.hq with ⟨e1, _⟩ | hq
          · exact absurd (h2.trans e1) e
          · rw [h2] at hy; omega
        · rcases t.hr with ⟨e1, _⟩ | hr
          · exact absurd (h2.trans e1) e
          · rw [h2] at hy; omega
      · exact Or.inl
  · intro g y hy hh
    by_cases e : y = x
    · subst e
      exact h.oldSub g y hy (t.hX1 g hh)
    · rcases (t.hH g y e).mp hh with h1 | ⟨h1, h2 | h2⟩
      · exact h.oldSub g y hy h1
      · rcases t.hq with ⟨e1, _⟩ | hq
        · exact absurd (h2.trans e1) e
        · rw [h2] at hy; omega
      · rcases t.hr with ⟨e1, _⟩ | hr
        · exact absurd (h2.trans e1) e
        · rw [h2] at hy; omega
  · intro g y hy
    have e : y ≠ x := by rintro rfl; omega
    rw [t.hH g y e, h.fresh g y hy, hxHas]
    constructor
    · rintro (⟨z, hz, h1, h2⟩ | ⟨h1, h2⟩)
      · exact ⟨z, by simp [hz], h1, by rw [ug z hz, ur z hz]; exact h2⟩
      · exact ⟨x, by simp, h1, by rw [ugx, urx]; exact h2⟩
    · rintro ⟨z, hz, h1, h2⟩
      rcases List.mem_cons.mp hz with rfl | hz
      · rw [ugx, urx] at h2
        exact Or.inr ⟨h1, h2⟩
      · rw [ug z hz, ur z hz] at h2
        exact Or.inl ⟨z, hz, h1, h2⟩
  · obtain ⟨n, hn, hq⟩ := t.fams
    intro f hf
    rw [hn] at hf
    rcases List.mem_append.mp hf with hf | hf
    · obtain ⟨z, hz, h1⟩ := h.famsOK f hf
      exact ⟨z, by simp [hz], by rw [ug z hz]; exact t.mono _ _ h1⟩
    · simp only [List.mem_singleton] at hf
      subst hf
      exact ⟨x, by simp, by rw [ugx]; exact hq⟩
  · obtain ⟨n, hn, hq⟩ := t.fams
    intro z hz
    rcases List.mem_cons.mp hz with rfl | hz
    · exact ⟨n, by simp [hn], by rw [ugx]; exact hq⟩
    · obtain ⟨f, hf, h1⟩ := h.famsAll z hz
      exact ⟨f, by simp [hn, hf], by rw [ug z hz]; exact t.mono _ _ h1⟩
  · intro z hz
    rcases List.mem_cons.mp hz with rfl | hz
    · exact hxb
    · exact h.pb z hz
  · intro z hz
    rcases List.mem_cons.mp hz with rfl | hz
    · rw [ugx, urx]
      rcases t.hq with h1 | h1
      · exact Or.inl h1
      · exact Or.inr (by omega)
    · rw [ug z hz, ur z hz]
      rcases h.gidr z hz with h1 | h1
      · exact Or.inl h1
      · exact Or.inr (by omega)
  · intro z hz
    rcases List.mem_cons.mp hz with rfl | hz
    · rw [urx]
      rcases t.hr with h1 | h1
      · exact Or.inl h1
      · exact Or.inr ⟨by omega, by omega, h1.2.2.2⟩
    · rw [ur z hz]
      rcases h.ridr z hz with h1 | h1
      · exact Or.inl h1
      · exact Or.inr ⟨by omega, by omega, h1.2.2⟩
  · intro y hy z hz he
    rcases List.mem_cons.mp hy with e1 | hy <;> rcases List.mem_cons.mp hz with e2 | hz
    · rw [e1, e2]
    · rw [e1, ugx, ug z hz] at he
      exfalso
      rcases t.hq with ⟨h1, h2, h3⟩ | h1
      · rcases h.gidr z hz with ⟨h4, _⟩ | h4
        · rw [h1, h4] at he; exact hne z hz he.symm
        · rw [← he, h1] at h4; omega
      · have := gidle z hz; rw [← he] at this; omega
    · rw [e2, ugx, ug y hy] at he
      exfalso
      rcases t.hq with ⟨h1, h2, h3⟩ | h1
      · rcases h.gidr y hy with ⟨h4, _⟩ | h4
        · rw [h1, h4] at he; exact hne y hy he
        · rw [he, h1] at h4; omega
      · have := gidle y hy; rw [he] at this; omega
    · rw [ug y hy, ug z hz] at he
      exact h.gi y hy z hz he
  · intro y hy z hz hb he
    rcases List.mem_cons.mp hy with e1 | hy <;> rcases List.mem_cons.mp hz with e2 | hz
    · rw [e1, urx] at hb
      rw [e1, e2, urx, ugx] at he
      exact (hrf hb).2.2 he
    · rw [e1, urx] at hb
      rw [e1, urx, ug z hz] at he
      have := gidle z hz
      rw [← he] at this
      have := hrf hb
      omega
    · rw [ur y hy] at hb
      rw [e2, ur y hy, ugx] at he
      have h1 := ridle y hy
      rw [he] at hb h1
      have := hqf hb
      omega
    · rw [ur y hy] at hb he
      rw [ug z hz] at he
      exact h.gr y hy z hz hb he
  · intro y hy z hz hb he
    rcases List.mem_cons.mp hy with e1 | hy <;> rcases List.mem_cons.mp hz with e2 | hz
    · rw [e1, e2]
    · rw [e1, urx] at hb
      rw [e1, urx, ur z hz] at he
      have := ridle z hz
      rw [← he] at this
      have := hrf hb
      omega
    · rw [ur y hy] at hb
      rw [e2, ur y hy, urx] at he
      have h1 := ridle y hy
      rw [he] at hb h1
      have := hrf hb
      omega
    · rw [ur y hy] at hb he
      rw [ur z hz] at he
      exact h.rr y hy z hz hb he
  · obtain ⟨c, h1, h2, h3⟩ := h.arr
    obtain ⟨s, h4, h5⟩ := t.sets
    obtain ⟨c', h6, h7, h8⟩ := h5 c h2 (fun k hk => by rw [h3 k x hk, if_neg hxP])
    refine ⟨c', ?_, h7, fun k y hk => ?_⟩
    · rw [h4, List.foldlM_append, h1, ok_bind]
      exact h6
    · rw [h8 k y _ hk (h3 k y hk)]
      by_cases e : y = x
      · subst e
        rw [ugx, urx]; simp
      · rw [if_neg e]
        by_cases hy : y ∈ P
        · rw [ug y hy, ur y hy]; simp [hy]
        · simp [hy, e]

end MC
