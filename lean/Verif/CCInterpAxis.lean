import Verif.CCInterp
import Mathlib.Tactic.Linarith
import Mathlib.Data.List.GetD

/-!
# Interferences along one axis of two Cartesian grids
-/

set_option linter.unusedSectionVars false

namespace MC
section
variable {K : Type} [Field K] [LinearOrder K] [IsStrictOrderedRing K]

/-- Coordinates which grow by at least `eps` from each to the next: no cell is smaller than the precision. -/
def AxisOK (eps : K) (x : List K) : Prop := ∀ i, i + 1 < x.length → x.getD i 0 + eps ≤ x.getD (i + 1) 0

/-- the length common to cell `i` of the axis `s` and cell `j` of the axis `t`, negative if the cells are apart -/
def cutLen (s t : List K) (i j : Nat) : K := min (s.getD (i + 1) 0) (t.getD (j + 1) 0) - max (s.getD i 0) (t.getD j 0)

theorem AxisOK.le {eps : K} {x : List K} (he : 0 < eps) (h : AxisOK eps x) {a b : Nat} (hab : a ≤ b) (hb : b < x.length) : x.getD a 0 ≤ x.getD b 0 := by
  induction b with
  | zero => have : a = 0 := by omega
            subst this; exact le_refl _
  | succ b ih =>
    rcases Nat.lt_or_ge a (b + 1) with h1 | h1
    · have := ih (by omega) (by omega)
      have := h b hb
      linarith
    · have : a = b + 1 := by omega
      subst this; exact le_refl _

theorem rd_axis {x : List K} {i : Nat} (h : i < x.length) : rd x (i : Int) = .ok (x.getD i 0) := by
  rw [rd_natCast h, List.getD_eq_getElem _ _ h]

theorem cutLen_le (s t : List K) (i j : Nat) : cutLen s t i j ≤ s.getD (i + 1) 0 - t.getD j 0 ∧ cutLen s t i j ≤ t.getD (j + 1) 0 - s.getD i 0 := by
  constructor
  · exact sub_le_sub (min_le_left _ _) (le_max_right _ _)
  · exact sub_le_sub (min_le_right _ _) (le_max_left _ _)

/-- what is known of the interferences found from the cells `is` and `it` on -/
structure AxisFound (eps : K) (s t : List K) (is it : Nat) (l : List (Interf K)) : Prop where
  mem : ∀ e ∈ l, e.src + 1 < s.length ∧ e.tgt + 1 < t.length ∧ e.len = cutLen s t e.src e.tgt ∧ 0 < e.len
  all : ∀ i j, is ≤ i → it ≤ j → i + 1 < s.length → j + 1 < t.length → (∃ e ∈ l, e.src = i ∧ e.tgt = j) ∨ cutLen s t i j < eps

theorem ccNext_ok {eps : K} (he : 0 < eps) {s t : List K} (hs : AxisOK eps s) (ht : AxisOK eps t) (fuel : Nat) : ∀ is it, is + 1 < s.length → it + 1 < t.length →
    s.length - is + (t.length - it) ≤ fuel + 3 → s.getD is 0 < t.getD (it + 1) 0 → t.getD it 0 < s.getD (is + 1) 0 →
    ∃ l, ccNext eps s t fuel is it = .ok (some l) ∧ AxisFound eps s t is it l := by
  induction fuel with
  | zero => intro is it h1 h2 h3; omega
  | succ fuel ih =>
    intro is it h1 h2 h3 h4 h5
    rw [ccNext, rd_axis (by omega), ok_bind, rd_axis (by omega), ok_bind, rd_axis h2, ok_bind, rd_axis h1, ok_bind]
    simp only
    have hcs := hs is h1
    have hct := ht it h2
    have hpos : 0 < cutLen s t is it := by
      rw [cutLen, sub_pos, lt_min_iff, max_lt_iff, max_lt_iff]
      exact ⟨⟨by linarith, h5⟩, h4, by linarith⟩
    set x2s := s.getD (is + 1) 0 with hx2s
    set x2t := t.getD (it + 1) 0 with hx2t
    -- the pairs which are passed over
    have skipT : x2s - x2t > -eps → ∀ i, is < i → i + 1 < s.length → cutLen s t i it < eps := by
      intro hd i hi hi'
      have := (cutLen_le s t i it).2
      have := hs.le he (show is + 1 ≤ i by omega) (by omega)
      linarith
    have skipS : x2s - x2t < eps → ∀ j, it < j → j + 1 < t.length → cutLen s t is j < eps := by
      intro hd j hj hj'
      have := (cutLen_le s t is j).1
      have := ht.le he (show it + 1 ≤ j by omega) (by omega)
      linarith
    have hmem1 : ∀ l : List (Interf K), (∀ e ∈ l, e.src + 1 < s.length ∧ e.tgt + 1 < t.length ∧ e.len = cutLen s t e.src e.tgt ∧ 0 < e.len) →
        ∀ e ∈ (⟨is, it, min x2s x2t - max (s.getD is 0) (t.getD it 0)⟩ : Interf K) :: l,
          e.src + 1 < s.length ∧ e.tgt + 1 < t.length ∧ e.len = cutLen s t e.src e.tgt ∧ 0 < e.len := by
      intro l hl e hmem
      rcases List.mem_cons.mp hmem with rfl | hm
      · exact ⟨h1, h2, rfl, hpos⟩
      · exact hl e hm
    have fin : ∀ l : List (Interf K), (∀ e ∈ l, e.src + 1 < s.length ∧ e.tgt + 1 < t.length ∧ e.len = cutLen s t e.src e.tgt ∧ 0 < e.len) →
        (∀ i j, is ≤ i → it ≤ j → i + 1 < s.length → j + 1 < t.length → ¬ (i = is ∧ j = it) → (∃ e ∈ l, e.src = i ∧ e.tgt = j) ∨ cutLen s t i j < eps) →
        AxisFound eps s t is it ((⟨is, it, min x2s x2t - max (s.getD is 0) (t.getD it 0)⟩ : Interf K) :: l) := by
      intro l hl hall
      refine ⟨hmem1 l hl, fun i j hi hj hi' hj' => ?_⟩
      by_cases hij : i = is ∧ j = it
      · exact Or.inl ⟨_, List.mem_cons_self, hij.1.symm, hij.2.symm⟩
      · rcases hall i j hi hj hi' hj' hij with ⟨e, he1, he2⟩ | h
        · exact Or.inl ⟨e, List.mem_cons_of_mem _ he1, he2⟩
        · exact Or.inr h
    by_cases c1 : x2s - x2t > -eps
    · rw [if_pos c1]
      simp only
      by_cases c2 : x2s - x2t < eps
      · rw [if_pos c2]
        by_cases c3 : is + 2 < s.length ∧ it + 2 < t.length
        · have hb : (decide (((is + 1 : Nat) : Int) < axisCells s) && decide (((it + 1 : Nat) : Int) < axisCells t)) = true := by simp [axisCells]; omega
          simp only [hb, if_true, Bool.false_eq_true, if_false]
          have := hs (is + 1) (by omega)
          have := ht (it + 1) (by omega)
          obtain ⟨l, e1, e2⟩ := ih (is + 1) (it + 1) (by omega) (by omega) (by omega) (by linarith) (by linarith)
          rw [e1, ok_bind]
          refine ⟨_, rfl, fin l e2.mem fun i j hi hj hi' hj' hij => ?_⟩
          rcases Nat.lt_or_ge is i with a | a
          · rcases Nat.lt_or_ge it j with b | b
            · exact e2.all i j a b hi' hj'
            · have : j = it := by omega
              subst this; exact Or.inr (skipT c1 i a hi')
          · have : i = is := by omega
            subst this; exact Or.inr (skipS c2 j (by omega) hj')
        · have hb : (decide (((is + 1 : Nat) : Int) < axisCells s) && decide (((it + 1 : Nat) : Int) < axisCells t)) = false := by simp [axisCells]; omega
          simp only [hb, if_true, Bool.false_eq_true, if_false]
          refine ⟨_, rfl, fin [] (by simp) fun i j hi hj hi' hj' hij => Or.inr ?_⟩
          rcases Nat.lt_or_ge is i with a | a
          · rcases Nat.lt_or_ge it j with b | b
            · omega
            · have : j = it := by omega
              subst this; exact skipT c1 i a hi'
          · have : i = is := by omega
            subst this; exact skipS c2 j (by omega) hj'
      · rw [if_neg c2]
        by_cases c3 : it + 2 < t.length
        · have hb : (decide (((it + 1 : Nat) : Int) < axisCells t)) = true := by simp [axisCells]; omega
          simp only [hb, if_true, Bool.false_eq_true, if_false]
          have := ht (it + 1) (by omega)
          obtain ⟨l, e1, e2⟩ := ih is (it + 1) h1 (by omega) (by omega) (by linarith) (by push Not at c2; linarith)
          rw [e1, ok_bind]
          refine ⟨_, rfl, fin l e2.mem fun i j hi hj hi' hj' hij => ?_⟩
          rcases Nat.lt_or_ge it j with b | b
          · exact e2.all i j hi b hi' hj'
          · have : j = it := by omega
            subst this; exact Or.inr (skipT c1 i (by omega) hi')
        · have hb : (decide (((it + 1 : Nat) : Int) < axisCells t)) = false := by simp [axisCells]; omega
          simp only [hb, if_true, Bool.false_eq_true, if_false]
          refine ⟨_, rfl, fin [] (by simp) fun i j hi hj hi' hj' hij => Or.inr ?_⟩
          have : j = it := by omega
          subst this; exact skipT c1 i (by omega) hi'
    · have c2 : x2s - x2t < eps := by push Not at c1; linarith
      rw [if_neg c1, if_pos c2]
      by_cases c3 : is + 2 < s.length
      · have hb : (decide (((is + 1 : Nat) : Int) < axisCells s) && true) = true := by simp [axisCells]; omega
        simp only [hb, if_true, Bool.false_eq_true, if_false]
        have := hs (is + 1) (by omega)
        obtain ⟨l, e1, e2⟩ := ih (is + 1) it (by omega) h2 (by omega) (by push Not at c1; linarith) (by linarith)
        rw [e1, ok_bind]
        refine ⟨_, rfl, fin l e2.mem fun i j hi hj hi' hj' hij => ?_⟩
        rcases Nat.lt_or_ge is i with b | b
        · exact e2.all i j b hj hi' hj'
        · have : i = is := by omega
          subst this; exact Or.inr (skipS c2 j (by omega) hj')
      · have hb : (decide (((is + 1 : Nat) : Int) < axisCells s) && true) = false := by simp [axisCells]; omega
        simp only [hb, if_true, Bool.false_eq_true, if_false]
        refine ⟨_, rfl, fin [] (by simp) fun i j hi hj hi' hj' hij => Or.inr ?_⟩
        have : i = is := by omega
        subst this; exact skipS c2 j (by omega) hj'

theorem ccFirst_ok {eps : K} (he : 0 < eps) {s t : List K} (hs : AxisOK eps s) (ht : AxisOK eps t) (fuel : Nat) : ∀ is it,
    s.length - is + (t.length - it) ≤ fuel + 3 →
    (ccFirst eps s t fuel is it = .ok (some none) ∧ ∀ i j, is ≤ i → it ≤ j → i + 1 < s.length → j + 1 < t.length → cutLen s t i j < eps) ∨
    ∃ is' it', ccFirst eps s t fuel is it = .ok (some (some (is', it'))) ∧ is ≤ is' ∧ it ≤ it' ∧ is' + 1 < s.length ∧ it' + 1 < t.length ∧
      s.getD is' 0 < t.getD (it' + 1) 0 ∧ t.getD it' 0 < s.getD (is' + 1) 0 ∧
      ∀ i j, is ≤ i → it ≤ j → i + 1 < s.length → j + 1 < t.length → ¬ (is' ≤ i ∧ it' ≤ j) → cutLen s t i j < eps := by
  have passT : ∀ is it, t.getD (it + 1) 0 < s.getD is 0 + eps → ∀ i, is ≤ i → i + 1 < s.length → cutLen s t i it < eps := by
    intro is it h i hi hi'
    have := (cutLen_le s t i it).2
    have := hs.le he hi (by omega)
    linarith
  have passS : ∀ is it, s.getD (is + 1) 0 < t.getD it 0 + eps → ∀ j, it ≤ j → j + 1 < t.length → cutLen s t is j < eps := by
    intro is it h j hj hj'
    have := (cutLen_le s t is j).1
    have := ht.le he hj (by omega)
    linarith
  have stop : ∀ (fuel is it : Nat), ¬ ((it : Int) < axisCells t ∧ (is : Int) < axisCells s) → ccFirst eps s t fuel is it = .ok (some none) ∧
      ∀ i j, is ≤ i → it ≤ j → i + 1 < s.length → j + 1 < t.length → cutLen s t i j < eps := by
    intro fuel is it hc
    refine ⟨?_, fun i j hi hj hi' hj' => ?_⟩
    · cases fuel <;> rw [ccFirst, if_neg hc]
    · simp only [axisCells] at hc; omega
  induction fuel with
  | zero => intro is it h; exact Or.inl (stop _ _ _ (by simp only [axisCells]; omega))
  | succ fuel ih =>
    intro is it h
    by_cases hc : (it : Int) < axisCells t ∧ (is : Int) < axisCells s
    · have hc' : it + 1 < t.length ∧ is + 1 < s.length := by simp only [axisCells] at hc; omega
      rw [ccFirst, if_pos hc, rd_axis (by omega), ok_bind, rd_axis hc'.1, ok_bind]
      by_cases c1 : t.getD (it + 1) 0 < s.getD is 0 + eps
      · rw [if_pos c1]
        rcases ih is (it + 1) (by omega) with ⟨e1, e2⟩ | ⟨is', it', e1, e2, e3, e4, e5, e6, e7, e8⟩
        · refine Or.inl ⟨e1, fun i j hi hj hi' hj' => ?_⟩
          rcases Nat.lt_or_ge it j with b | b
          · exact e2 i j hi b hi' hj'
          · have : j = it := by omega
            subst this; exact passT _ _ c1 i hi hi'
        · refine Or.inr ⟨is', it', e1, e2, by omega, e4, e5, e6, e7, fun i j hi hj hi' hj' hn => ?_⟩
          rcases Nat.lt_or_ge it j with b | b
          · exact e8 i j hi b hi' hj' hn
          · have : j = it := by omega
            subst this; exact passT _ _ c1 i hi hi'
      · rw [if_neg c1, rd_axis (by omega), ok_bind, rd_axis hc'.2, ok_bind]
        by_cases c2 : s.getD (is + 1) 0 < t.getD it 0 + eps
        · rw [if_pos c2]
          rcases ih (is + 1) it (by omega) with ⟨e1, e2⟩ | ⟨is', it', e1, e2, e3, e4, e5, e6, e7, e8⟩
          · refine Or.inl ⟨e1, fun i j hi hj hi' hj' => ?_⟩
            rcases Nat.lt_or_ge is i with b | b
            · exact e2 i j b hj hi' hj'
            · have : i = is := by omega
              subst this; exact passS _ _ c2 j hj hj'
          · refine Or.inr ⟨is', it', e1, by omega, e3, e4, e5, e6, e7, fun i j hi hj hi' hj' hn => ?_⟩
            rcases Nat.lt_or_ge is i with b | b
            · exact e8 i j b hj hi' hj' hn
            · have : i = is := by omega
              subst this; exact passS _ _ c2 j hj hj'
        · rw [if_neg c2]
          refine Or.inr ⟨is, it, rfl, le_refl _, le_refl _, hc'.2, hc'.1, ?_, ?_, fun i j hi hj _ _ hn => absurd ⟨hi, hj⟩ hn⟩
          · push Not at c1; linarith
          · push Not at c2; linarith
    · exact Or.inl (stop _ _ _ hc)

/-- The interferences along an axis are the pairs of cells whose common length is at least the precision, and perhaps some whose common length
is smaller, each with its common length. -/
theorem ccAxis_ok {eps : K} (he : 0 < eps) {s t : List K} (hs : AxisOK eps s) (ht : AxisOK eps t) {fuel : Nat} (hf : s.length + t.length ≤ fuel + 3) :
    (ccAxis eps fuel s t = .ok (some none) ∧ AxisFound eps s t 0 0 []) ∨ ∃ l, ccAxis eps fuel s t = .ok (some (some l)) ∧ AxisFound eps s t 0 0 l := by
  rcases ccFirst_ok he hs ht fuel 0 0 (by omega) with ⟨e1, e2⟩ | ⟨is', it', e1, e2, e3, e4, e5, e6, e7, e8⟩
  · refine Or.inl ⟨by rw [ccAxis, e1, ok_bind], by simp, fun i j hi hj hi' hj' => Or.inr (e2 i j hi hj hi' hj')⟩
  · obtain ⟨l, l1, l2⟩ := ccNext_ok he hs ht fuel is' it' e4 e5 (by omega) e6 e7
    refine Or.inr ⟨l, by rw [ccAxis, e1, ok_bind]; simp only; rw [l1, ok_bind]; rfl, l2.mem, fun i j hi hj hi' hj' => ?_⟩
    by_cases h : is' ≤ i ∧ it' ≤ j
    · exact l2.all i j h.1 h.2 hi' hj'
    · exact Or.inr (e8 i j hi hj hi' hj' h)

end
end MC
