import Verif.PartDef
import Verif.ScanProps
import Verif.RenumberProps

/-!
# Part definitions (C29) – proofs
-/

namespace MC

/-- The list of ids a part definition stands for. -/
def PartDef.Denotes : PartDef → List Int → Prop
  | .ids l', l => l = l'
  | .slice b e s, l => Describes b e s l

theorem definite_map_some {α : Type} : ∀ l : List α, definite (l.map some) = .ok l
  | [] => rfl
  | x :: l => by simp only [List.map_cons, definite, definite_map_some l, ok_bind]

theorem describes_exists {b e s : Int} (h : SliceOk b e s) : ∃ l, Describes b e s l := by
  obtain ⟨m, _, hm⟩ := relCount_ok h
  obtain ⟨m, rfl⟩ := Int.eq_ofNat_of_zero_le hm.1
  refine ⟨progression b s m, h, ?_, ?_⟩ <;> simp [progression]
  exact hm

/-- **C29** `toDAI` returns the list the part definition stands for, and throws when it stands for none. -/
theorem C29_toDAI (p : PartDef) : (∀ l, p.Denotes l ↔ p.toDAI = .ok l) ∧ ((∀ l, ¬ p.Denotes l) → p.toDAI = .error .exn) := by
  cases p with
  | ids l' =>
    refine ⟨fun l => ?_, fun h => absurd rfl (h l')⟩
    simp only [PartDef.Denotes, PartDef.toDAI, Except.ok.injEq]
    exact eq_comm
  | slice b e s =>
    have fwd : ∀ l, Describes b e s l → (PartDef.slice b e s).toDAI = .ok l := by
      intro l h
      have := (C30_range b e s).1 l.length h.1 h.2.1
      simp only [PartDef.toDAI, this, ok_bind, definite_map_some]
      rw [← h.2.2]
    refine ⟨fun l => ⟨fwd l, fun h => ?_⟩, fun h => ?_⟩
    · by_cases hs : SliceOk b e s
      · obtain ⟨l', hl'⟩ := describes_exists hs
        have := fwd l' hl'
        rw [h] at this
        cases this
        exact hl'
      · rw [PartDef.toDAI, (C30_range b e s).2 hs] at h
        exact absurd h (by simp [bind, Except.bind])
    · by_cases hs : SliceOk b e s
      · obtain ⟨l', hl'⟩ := describes_exists hs
        exact absurd hl' (h l')
      · rw [PartDef.toDAI, (C30_range b e s).2 hs]; rfl

/-- **C29** `tryToSimplify` does not change the list. -/
theorem C29_simplify {p : PartDef} {l : List Int} (h : p.Denotes l) : p.tryToSimplify.Denotes l := by
  cases p with
  | slice b e s => exact h
  | ids l' =>
    simp only [PartDef.Denotes] at h
    subst h
    simp only [PartDef.tryToSimplify]
    cases hr : isRange l with
    | none => rfl
    | some r =>
      obtain ⟨a, b, c⟩ := r
      exact (C30_is_range l).1 a b c hr

/-- The element of `lo` designated by each id of `lp`. -/
def Composed (lp lo r : List Int) : Prop := List.Forall₂ (fun i v => 0 ≤ i ∧ lo[i.toNat]? = some v) lp r

theorem gather1 {lo ids : List Int} {r : List (Option Int)} (hin : AllIn lo.length ids) (h : IsGather 1 lo ids r) :
    ∃ c, definite r = .ok c ∧ Composed ids lo c := by
  have hr : r = (ids.map fun i => lo.getD i.toNat 0).map some := by
    apply List.ext_getElem?
    intro i
    by_cases hi : i < ids.length
    · have h2 := h.2 i hi
      have h1 : (tup 1 r i)[0]? = r[i]? := by simp [tup_getElem?]
      have h3 : (tup 1 lo ids[i].toNat)[0]? = lo[ids[i].toNat]? := by simp [tup_getElem?]
      have hb := hin ids[i] (List.getElem_mem _)
      rw [← h1, h2, List.getElem?_map, h3]
      have hb' : ids[i].toNat < lo.length := by omega
      simp [List.getElem?_eq_getElem hi, List.getD_eq_getElem?_getD, List.getElem?_eq_getElem hb']
    · rw [List.getElem?_eq_none (by have := h.1; omega), List.getElem?_eq_none (by simp; omega)]
  rw [hr, definite_map_some]
  refine ⟨_, rfl, ?_⟩
  rw [Composed, List.forall₂_iff_get]
  refine ⟨by simp, fun i h1 h2 => ?_⟩
  have hb := hin ids[i] (List.getElem_mem _)
  have hb' : ids[i].toNat < lo.length := by omega
  simp [List.getD_eq_getElem?_getD, List.getElem?_eq_getElem hb']
  exact hb.1

/-- **C29** `composeWith`: if `this` designates ids inside the set selected by `other`, the result designates the corresponding ids of the
father. -/
theorem C29_compose {p q : PartDef} {lp lo : List Int} (hp : p.Denotes lp) (hq : q.Denotes lo) (hin : AllIn lo.length lp) :
    ∃ r c, p.composeWith q = .ok r ∧ r.Denotes c ∧ Composed lp lo c := by
  have hsel : ∃ c, (do let a ← selectByTupleIdSafe ⟨lo.length, 1, lo, by simp⟩ lp; definite a) = (.ok c : M _) ∧ Composed lp lo c := by
    obtain ⟨r, h1, h2⟩ := (C08_selectSafe ⟨lo.length, 1, lo, by simp⟩ lp).1 hin
    obtain ⟨c, h3, h4⟩ := gather1 hin h2
    exact ⟨c, by rw [h1, ok_bind, h3], h4⟩
  have hto := ((C29_toDAI q).1 lo).mp hq
  cases p with
  | ids l =>
    simp only [PartDef.Denotes] at hp
    subst hp
    obtain ⟨c, h1, h2⟩ := hsel
    have h1' : (do let a ← selectByTupleIdSafe ⟨lo.length, 1, lo, by simp⟩ lp
                   let a ← definite a
                   (.ok (.ids a) : M PartDef)) = .ok (.ids c) := by
      rw [← bind_assoc, h1, ok_bind]
    cases q with
    | ids l' =>
      simp only [PartDef.Denotes] at hq
      subst hq
      exact ⟨.ids c, c, h1', rfl, h2⟩
    | slice b e s =>
      by_cases hs : s = 1
      · subst hs
        refine ⟨.ids (lp.map (· + b)), lp.map (· + b), by simp [PartDef.composeWith], rfl, ?_⟩
        rw [Composed, List.forall₂_iff_get]
        refine ⟨by simp, fun i h1 h2 => ?_⟩
        have hb := hin lp[i] (List.getElem_mem _)
        have hd : lo = progression b 1 lo.length := hq.2.2
        refine ⟨by simpa using hb.1, ?_⟩
        have hi' : (lp.get ⟨i, h1⟩).toNat < lo.length := by
          show lp[i].toNat < lo.length
          have h1 := hb.1
          have h2 := hb.2
          omega
        rw [hd, getElem?_progression, if_pos hi']
        simp
        have := hb.1
        omega
      · refine ⟨.ids c, c, ?_, rfl, h2⟩
        simp only [PartDef.composeWith, hs, if_false, hto, ok_bind]
        exact h1'
  | slice b e s =>
    have hd : lp = progression b s lp.length := hp.2.2
    have hin' : AllIn lo.length (progression b s lp.length) := by rw [← hd]; exact hin
    obtain ⟨r, h1, h2⟩ := C08_selectSlice ⟨lo.length, 1, lo, by simp⟩ b e s lp.length hp.1 hp.2.1 hin'
    rw [← hd] at h2
    obtain ⟨c, h3, h4⟩ := gather1 hin h2
    refine ⟨.ids c, c, ?_, rfl, h4⟩
    simp only [PartDef.composeWith, hto, ok_bind, h1, h3]

theorem incCount_ok {b e s : Int} (hs : 0 < s) (h : b ≤ e) : ∃ n, getNumberOfItemGivenBES b e s = .ok n ∧ IsTermCount b e s n := by
  rcases Int.lt_or_eq_of_le h with h | rfl
  · exact (C01_increasing_count b e s).1 ⟨h, hs⟩
  · refine ⟨0, (C01_increasing_count b b s).2.1 rfl, by omega, fun k => ?_⟩
    have : 0 ≤ (k : Int) * s := Int.mul_nonneg (by omega) (by omega)
    unfold BeforeEnd
    omega

theorem termCount_adjacent {b s e' : Int} {n m : Nat} (hs : 0 < s) (he : b + n * s ≤ e') (h2 : IsTermCount (b + n * s) e' s m) :
    IsTermCount b e' s ((n + m : Nat) : Int) := by
  refine ⟨by omega, fun k => ?_⟩
  unfold BeforeEnd
  by_cases hk : k < n
  · have h3 : (k : Int) * s < n * s := Int.mul_lt_mul_of_pos_right (by omega) hs
    constructor
    · intro _; exact Or.inl ⟨hs, by omega⟩
    · intro _; push_cast; omega
  · have h3 := h2.2 (k - n)
    have e1 : b + (n : Int) * s + ((k - n : Nat) : Int) * s = b + k * s := by
      rw [Nat.cast_sub (by omega)]; ring
    rw [e1] at h3
    unfold BeforeEnd at h3
    rw [← h3]
    omega

theorem progression_sorted {b s : Int} {n : Nat} (hs : 0 < s) : (progression b s n).Pairwise (· ≤ ·) := by
  unfold progression
  rw [List.pairwise_map]
  refine List.Pairwise.imp ?_ List.pairwise_lt_range
  intro i j hij
  have : (i : Int) * s ≤ j * s := Int.mul_le_mul_of_nonneg_right (by omega) (by omega)
  omega

theorem addSorted_spec {p q : PartDef} {lp lq : List Int} (hp : p.Denotes lp) (hq : q.Denotes lq) :
    ∃ l, p.addSorted q = .ok (.ids l) ∧ l.Perm (lp ++ lq) ∧ l.Pairwise (· ≤ ·) := by
  refine ⟨stdSort (lp ++ lq), ?_, stdSort_perm _, stdSort_sorted _⟩
  simp only [PartDef.addSorted, ((C29_toDAI p).1 lp).mp hp, ((C29_toDAI q).1 lq).mp hq, ok_bind]

/-- **C29** `operator+`: the sum stands for the ids of both operands with their multiplicities. They are sorted, except when an empty
decreasing slice is added to a decreasing slice. The sum exists as soon as the left operand is not a non-empty decreasing slice. -/
theorem C29_plus {p q : PartDef} {lp lq : List Int} (hp : p.Denotes lp) (hq : q.Denotes lq) :
    (∀ r, p.plus q = .ok r → ∃ l, r.Denotes l ∧ l.Perm (lp ++ lq) ∧ (l.Pairwise (· ≤ ·) ∨ l = lq ∧ lp = [])) ∧
    ((∀ b e s, p = .slice b e s → 0 < s ∨ lp = []) → ∃ r, p.plus q = .ok r) := by
  obtain ⟨la, a1, a2, a3⟩ := addSorted_spec hp hq
  have gen : p.plus q = p.addSorted q →
      (∀ r, p.plus q = .ok r → ∃ l, r.Denotes l ∧ l.Perm (lp ++ lq) ∧ (l.Pairwise (· ≤ ·) ∨ l = lq ∧ lp = [])) ∧
      ((∀ b e s, p = .slice b e s → 0 < s ∨ lp = []) → ∃ r, p.plus q = .ok r) := by
    intro e
    rw [e, a1]
    refine ⟨?_, fun _ => ⟨_, rfl⟩⟩
    rintro r hr
    cases hr
    exact ⟨la, rfl, a2, Or.inl a3⟩
  cases p with
  | ids l => exact gen rfl
  | slice b e s =>
    cases q with
    | ids l => exact gen rfl
    | slice b' e' s' =>
      by_cases hs : s = s'
      · subst hs
        have hp' : Describes b e s lp := hp
        have hq' : Describes b' e' s lq := hq
        by_cases hup : 0 < s
        · have hbe : b ≤ e := by
            rcases hp'.1 with h | h
            · exact h.2
            · omega
          obtain ⟨n, n1, n2⟩ := incCount_ok hup hbe
          have hn : n = lp.length := n2.unique hp'.2.1
          subst hn
          by_cases hadj : b + (lp.length : Int) * s = b'
          · have e1 : (PartDef.slice b e s).plus (.slice b' e' s) = .ok (.slice b e' s) := by
              simp only [PartDef.plus, sliceFollows, if_true, sliceEffectiveStop, n1, ok_bind, hadj, decide_true]
            rw [e1]
            refine ⟨?_, fun _ => ⟨_, rfl⟩⟩
            rintro r hr
            cases hr
            subst hadj
            have hb' : b + (lp.length : Int) * s ≤ e' := by
              rcases hq'.1 with h | h
              · exact h.2
              · omega
            have hnn : 0 ≤ (lp.length : Int) * s := Int.mul_nonneg (by omega) (by omega)
            have hl : lp ++ lq = progression b s (lp.length + lq.length) := by
              rw [← progression_append, ← hp'.2.2, ← hq'.2.2]
            refine ⟨lp ++ lq, ⟨Or.inl ⟨hup, by omega⟩, ?_, ?_⟩, List.Perm.refl _, Or.inl ?_⟩
            · rw [List.length_append]
              exact termCount_adjacent hup hb' hq'.2.1
            · rw [List.length_append]; exact hl
            · rw [hl]; exact progression_sorted hup
          · apply gen
            simp [PartDef.plus, sliceFollows, sliceEffectiveStop, n1, ok_bind, hadj]
        · have hneg : s < 0 ∧ e ≤ b := by
            rcases hp'.1 with h | h
            · omega
            · exact h
          by_cases hbe : e = b
          · subst hbe
            have hz : getNumberOfItemGivenBES e e s = .ok 0 := by simp [getNumberOfItemGivenBES]
            have hlp : lp = [] := by
              have := hp'.2.1.2 0
              unfold BeforeEnd at this
              have : ¬ 0 < lp.length := by omega
              exact List.length_eq_zero_iff.mp (by omega)
            subst hlp
            by_cases hadj : e = b'
            · subst hadj
              have e1 : (PartDef.slice e e s).plus (.slice e e' s) = .ok (.slice e e' s) := by
                simp [PartDef.plus, sliceFollows, sliceEffectiveStop, hz, ok_bind]
              rw [e1]
              refine ⟨?_, fun _ => ⟨_, rfl⟩⟩
              rintro r hr
              cases hr
              exact ⟨lq, hq', by simp, Or.inr ⟨rfl, rfl⟩⟩
            · apply gen
              simp [PartDef.plus, sliceFollows, sliceEffectiveStop, hz, ok_bind, hadj]
          · have ht : getNumberOfItemGivenBES b e s = .error .exn := by
              simp only [getNumberOfItemGivenBES]
              rw [if_pos (by omega)]
              rfl
            have e1 : (PartDef.slice b e s).plus (.slice b' e' s) = .error .exn := by
              simp only [PartDef.plus, sliceFollows, if_true, sliceEffectiveStop, ht, err_bind]
            rw [e1]
            refine ⟨fun r hr => (by cases hr), fun h => ?_⟩
            rcases h b e s rfl with h | h
            · omega
            · subst h
              have := hp'.2.1.2 0
              unfold BeforeEnd at this
              simp at this
              omega
      · apply gen
        simp [PartDef.plus, sliceFollows, hs, ok_bind]

/-- **C29** Equal part definitions stand for the same list, and what is serialized alone is read back. -/
theorem C29_equal_serialize (p q : PartDef) :
    (p.isEqual q = true ↔ p = q) ∧ partUnserialize (p.serialize [] []).1 (p.serialize [] []).2 = .ok (p, [], []) := by
  constructor
  · cases p <;> cases q <;> simp [PartDef.isEqual]
  · cases p <;> rfl

/-- **C29** `getNumberOfElems` is the length of the list for id arrays and increasing slices. -/
theorem C29_number {p : PartDef} {l : List Int} (h : p.Denotes l) (hup : ∀ b e s, p = .slice b e s → 0 < s) :
    p.getNumberOfElems = .ok l.length := by
  cases p with
  | ids l' =>
    simp only [PartDef.Denotes] at h
    subst h
    rfl
  | slice b e s =>
    have hs := hup b e s rfl
    have h' : Describes b e s l := h
    have hbe : b ≤ e := by
      rcases h'.1 with h | h
      · exact h.2
      · omega
    obtain ⟨n, n1, n2⟩ := incCount_ok hs hbe
    have hn : n = l.length := n2.unique h'.2.1
    subst hn
    exact n1

/-- **C29** refuted for decreasing lists: simplifying `[5,4,3]` gives a part definition whose `getNumberOfElems` throws, and which cannot be
added to the slice that follows it. -/
theorem C29_decreasing_slices_break :
    (PartDef.ids [5, 4, 3]).getNumberOfElems = .ok 3 ∧ (PartDef.ids [5, 4, 3]).tryToSimplify = .slice 5 2 (-1) ∧
    (PartDef.ids [5, 4, 3]).tryToSimplify.toDAI = .ok [5, 4, 3] ∧
    (PartDef.ids [5, 4, 3]).tryToSimplify.getNumberOfElems = .error .exn ∧
    (PartDef.slice 5 2 (-1)).plus (.slice 2 0 (-1)) = .error .exn := by
  refine ⟨rfl, by decide, ?_, rfl, rfl⟩
  refine ((C29_toDAI _).1 _).mp (C29_simplify (p := .ids [5, 4, 3]) ?_)
  rfl

/-- Ids outside the set selected by `other` are refused when `other` is an id array, silently accepted when it is a slice of step 1, and read
out of bounds when `this` is a slice. -/
theorem C29_compose_out_of_range :
    (PartDef.ids [5]).composeWith (.ids [7, 8]) = .error .exn ∧
    (PartDef.ids [5]).composeWith (.slice 7 9 1) = .ok (.ids [12]) ∧
    (PartDef.slice 0 3 1).composeWith (.ids [7, 8]) = .error .ub := ⟨rfl, rfl, rfl⟩

/-- Two slices serialized one after the other into the same vectors cannot be read back. -/
theorem C29_serialize_twice :
    partUnserialize ((PartDef.slice 0 4 1).serialize ((PartDef.slice 4 8 1).serialize [] []).1 []).1 [] = .error .exn := rfl

example : (PartDef.ids [2, 0, 1]).composeWith (.ids [10, 20, 30]) = .ok (.ids [30, 10, 20]) := rfl
example : (PartDef.slice 0 2 1).composeWith (.ids [10, 20, 30]) = .ok (.ids [10, 20]) := rfl
example : (PartDef.slice 0 5 2).plus (.slice 6 9 2) = .ok (.slice 0 9 2) := rfl

end MC
