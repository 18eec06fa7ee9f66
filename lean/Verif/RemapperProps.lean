import Verif.RemapperThm
import Mathlib.Algebra.BigOperators.Field
import Mathlib.Tactic.FieldSimp
import Mathlib.Tactic.Ring

/-!
# What the natures of fields keep, and the calls which are refused
-/

set_option linter.unusedSectionVars false

namespace MC
section
open Finset
variable {K : Type} [Field K] [LinearOrder K] [IsStrictOrderedRing K]

theorem empty_coef {W : List (Row K)} {i : Nat} (h : W.getD i [] = []) (j : Nat) : coef W i j = 0 :=
  coef_not_in (by rw [inRow, h]; simp [mapKeys])

/-- **C81.** Intensive maximum: with coefficients which are not negative, the value on a target entity lies between the bounds of the source values,
as soon as the entity meets a source entity. -/
theorem C81_maximum {src trg : RTempl} {W : List (Row K)} {r : Rem K} (hr : RemReach src trg W r) {f g : RField K} (hf : RLiesOn f src) (hg : RLiesOn g trg)
    (hnf : f.nature = .intensiveMaximum) (hng : g.nature = .intensiveMaximum)
    {nc : Nat} {S old : List K} (hS : Holds f nc S) (hold : Receives g nc old) (dft junk : K) :
    ∃ r' T, transferUnderground r f g (some dft) junk = .ok (r', { g with arr := some (nc, T) }) ∧
      ∀ i < trg.nbTup, ∀ c < nc, (∀ j, 0 ≤ coef W i j) → (∃ j < src.nbTup, 0 < coef W i j) → ∀ lo hi,
        (∀ j < src.nbTup, 0 < coef W i j → lo ≤ rtup nc S j c ∧ rtup nc S j c ≤ hi) → lo ≤ rtup nc T i c ∧ rtup nc T i c ≤ hi := by
  obtain ⟨r', T, h1, -, -, h2⟩ := C81_transfer hr hf hg (hnf.trans hng.symm) (by rw [hnf]; simp) (Or.inl hnf) hS hold (dft := some dft) (by simp) junk
  refine ⟨r', T, h1, fun i hi c hc hpos hex lo up hb => ?_⟩
  have hne : W.getD i [] ≠ [] := by
    rintro h
    obtain ⟨j, -, hj⟩ := hex
    rw [empty_coef h] at hj
    exact lt_irrefl _ hj
  rw [h2 i hi c hc, if_neg hne, hnf]
  simp only [denomOf]
  set s := ∑ j ∈ range src.nbTup, coef W i j with hs
  have hsp : 0 < s := by
    obtain ⟨j, hj, hj'⟩ := hex
    exact sum_pos' (fun j _ => hpos j) ⟨j, mem_range.mpr hj, hj'⟩
  have he : ∀ v : K, v = ∑ j ∈ range src.nbTup, v * (coef W i j / s) := by
    intro v
    rw [← mul_sum, ← sum_div, ← hs, div_self hsp.ne', mul_one]
  have key : ∀ j ∈ range src.nbTup, lo * (coef W i j / s) ≤ rtup nc S j c * (coef W i j / s) ∧ rtup nc S j c * (coef W i j / s) ≤ up * (coef W i j / s) := by
    intro j hj
    rcases (hpos j).lt_or_eq with h | h
    · have := hb j (mem_range.mp hj) h
      have hq : 0 ≤ coef W i j / s := div_nonneg (hpos j) hsp.le
      exact ⟨mul_le_mul_of_nonneg_right this.1 hq, mul_le_mul_of_nonneg_right this.2 hq⟩
    · rw [← h]; simp
  constructor
  · conv_lhs => rw [he lo]
    exact sum_le_sum fun j hj => (key j hj).1
  · conv_rhs => rw [he up]
    exact sum_le_sum fun j hj => (key j hj).2

/-- **C81.** Intensive maximum: a uniform field stays uniform, whatever the sign of the coefficients, if their sum on the entity is not zero. -/
theorem C81_uniform {src trg : RTempl} {W : List (Row K)} {r : Rem K} (hr : RemReach src trg W r) {f g : RField K} (hf : RLiesOn f src) (hg : RLiesOn g trg)
    (hnf : f.nature = .intensiveMaximum) (hng : g.nature = .intensiveMaximum)
    {nc : Nat} {S old : List K} (hS : Holds f nc S) (hold : Receives g nc old) (dft junk : K) :
    ∃ r' T, transferUnderground r f g (some dft) junk = .ok (r', { g with arr := some (nc, T) }) ∧
      ∀ i < trg.nbTup, ∀ c < nc, (∑ j ∈ range src.nbTup, coef W i j ≠ 0) → ∀ v, (∀ j < src.nbTup, rtup nc S j c = v) → rtup nc T i c = v := by
  obtain ⟨r', T, h1, -, -, h2⟩ := C81_transfer hr hf hg (hnf.trans hng.symm) (by rw [hnf]; simp) (Or.inl hnf) hS hold (dft := some dft) (by simp) junk
  refine ⟨r', T, h1, fun i hi c hc hs v hv => ?_⟩
  have hne : W.getD i [] ≠ [] := fun h => hs (sum_eq_zero fun j _ => empty_coef h j)
  rw [h2 i hi c hc, if_neg hne, hnf]
  simp only [denomOf]
  rw [sum_congr rfl fun j hj => by rw [hv j (mem_range.mp hj)], ← mul_sum, ← sum_div, div_self hs, mul_one]

/-- **C81.** Extensive conservation: the sum of the values on the target entities which meet the source is the sum of the source values over the
source entities whose coefficients do not add up to zero. -/
theorem C81_extensive_conservation {src trg : RTempl} {W : List (Row K)} {r : Rem K} (hr : RemReach src trg W r) {f g : RField K} (hf : RLiesOn f src)
    (hg : RLiesOn g trg) (hnf : f.nature = .extensiveConservation) (hng : g.nature = .extensiveConservation)
    {nc : Nat} {S old : List K} (hS : Holds f nc S) (hold : Receives g nc old) (junk : K) :
    ∃ r' T, transferUnderground r f g (some 0) junk = .ok (r', { g with arr := some (nc, T) }) ∧ ∀ c < nc,
      ∑ i ∈ range trg.nbTup, rtup nc T i c = ∑ j ∈ range src.nbTup with (∑ i ∈ range trg.nbTup, coef W i j) ≠ 0, rtup nc S j c := by
  obtain ⟨r', T, h1, -, -, h2⟩ := C81_transfer hr hf hg (hnf.trans hng.symm) (by rw [hnf]; simp) (Or.inr (Or.inl hnf)) hS hold (dft := some 0) (by simp) junk
  refine ⟨r', T, h1, fun c hc => ?_⟩
  have : ∀ i ∈ range trg.nbTup, rtup nc T i c = ∑ j ∈ range src.nbTup, rtup nc S j c * (coef W i j / ∑ i ∈ range trg.nbTup, coef W i j) := by
    intro i hi
    rw [h2 i (mem_range.mp hi) c hc, hnf]
    by_cases he : W.getD i [] = []
    · rw [if_pos he, Option.getD_some]
      exact (sum_eq_zero fun j _ => by rw [empty_coef he, zero_div, mul_zero]).symm
    · rw [if_neg he]; rfl
  rw [sum_congr rfl this, sum_comm, sum_filter]
  refine sum_congr rfl fun j _ => ?_
  rw [← mul_sum, ← sum_div]
  by_cases hz : (∑ i ∈ range trg.nbTup, coef W i j) = 0
  · rw [if_neg (not_not.mpr hz), hz, div_zero, mul_zero]
  · rw [if_pos hz, div_self hz, mul_one]

/-- **C81.** Intensive conservation: the integral of the target field is the integral of the source field over the part of the source entities which
the target covers. -/
theorem C81_intensive_conservation {src trg : RTempl} {W : List (Row K)} {r : Rem K} (hr : RemReach src trg W r) {f g : RField K} (hf : RLiesOn f src)
    (hg : RLiesOn g trg) (hnf : f.nature = .intensiveConservation) (hng : g.nature = .intensiveConservation) (hdf : f.meshDim ≠ -1) (hdg : g.meshDim ≠ -1)
    {nc : Nat} {S old : List K} (hS : Holds f nc S) (hold : Receives g nc old) (hpos : ∀ i < trg.nbTup, g.measure.getD i 0 ≠ 0) (junk : K) :
    ∃ r' T, transferUnderground r f g (some 0) junk = .ok (r', { g with arr := some (nc, T) }) ∧ ∀ c < nc,
      ∑ i ∈ range trg.nbTup, g.measure.getD i 0 * rtup nc T i c = ∑ j ∈ range src.nbTup, (∑ i ∈ range trg.nbTup, coef W i j) * rtup nc S j c := by
  obtain ⟨r', T, h1, -, -, h2⟩ := C81_transfer hr hf hg (hnf.trans hng.symm) (by rw [hnf]; simp) (Or.inr (Or.inr ⟨hdf, hdg⟩)) hS hold (dft := some 0) (by simp) junk
  refine ⟨r', T, h1, fun c hc => ?_⟩
  have : ∀ i ∈ range trg.nbTup, g.measure.getD i 0 * rtup nc T i c = ∑ j ∈ range src.nbTup, coef W i j * rtup nc S j c := by
    intro i hi
    rw [h2 i (mem_range.mp hi) c hc, hnf]
    by_cases he : W.getD i [] = []
    · rw [if_pos he, Option.getD_some, mul_zero]
      exact (sum_eq_zero fun j _ => by rw [empty_coef he, zero_mul]).symm
    · rw [if_neg he, mul_sum]
      refine sum_congr rfl fun j _ => ?_
      have := hpos i (mem_range.mp hi)
      simp only [denomOf]
      field_simp
  rw [sum_congr rfl this, sum_comm]
  exact sum_congr rfl fun j _ => (sum_mul _ _ _).symm

/-- **C81.** Extensive maximum: a source field which is a uniform density times the measures gives this density times the measure of the source
met by every target entity. -/
theorem C81_extensive_maximum {src trg : RTempl} {W : List (Row K)} {r : Rem K} (hr : RemReach src trg W r) {f g : RField K} (hf : RLiesOn f src)
    (hg : RLiesOn g trg) (hnf : f.nature = .extensiveMaximum) (hng : g.nature = .extensiveMaximum) (hdf : f.meshDim ≠ -1) (hdg : g.meshDim ≠ -1)
    {nc : Nat} {S old : List K} (hS : Holds f nc S) (hold : Receives g nc old) (hpos : ∀ j < src.nbTup, f.measure.getD j 0 ≠ 0) (dft junk : K) :
    ∃ r' T, transferUnderground r f g (some dft) junk = .ok (r', { g with arr := some (nc, T) }) ∧ ∀ c < nc, ∀ v,
      (∀ j < src.nbTup, rtup nc S j c = v * f.measure.getD j 0) → ∀ i < trg.nbTup, W.getD i [] ≠ [] →
        rtup nc T i c = v * ∑ j ∈ range src.nbTup, coef W i j := by
  obtain ⟨r', T, h1, -, -, h2⟩ := C81_transfer hr hf hg (hnf.trans hng.symm) (by rw [hnf]; simp) (Or.inr (Or.inr ⟨hdf, hdg⟩)) hS hold (dft := some dft) (by simp) junk
  refine ⟨r', T, h1, fun c hc v hv i hi he => ?_⟩
  rw [h2 i hi c hc, hnf, if_neg he, mul_sum]
  refine sum_congr rfl fun j hj => ?_
  have := hpos j (mem_range.mp hj)
  rw [hv j (mem_range.mp hj)]
  simp only [denomOf]
  field_simp

/-- **C81.** Extensive maximum from a mesh to a single global entity (dimension -1), whose coefficients are the measures: the value is the sum of the
source values. -/
theorem C81_global_sum {src trg : RTempl} {W : List (Row K)} {r : Rem K} (hr : RemReach src trg W r) {f g : RField K} (hf : RLiesOn f src)
    (hg : RLiesOn g trg) (hnf : f.nature = .extensiveMaximum) (hng : g.nature = .extensiveMaximum) (hdf : f.meshDim ≠ -1) (hdg : g.meshDim = -1)
    (h1t : trg.nbTup = 1) {nc : Nat} {S old : List K} (hS : Holds f nc S) (hold : Receives g nc old) (hsrc : 0 < src.nbTup)
    (hW : ∀ j < src.nbTup, coef W 0 j = f.measure.getD j 0) (hpos : ∀ j < src.nbTup, f.measure.getD j 0 ≠ 0) (dft junk : K) :
    ∃ r' T, transferUnderground r f g (some dft) junk = .ok (r', { g with arr := some (nc, T) }) ∧ ∀ c < nc,
      rtup nc T 0 c = ∑ j ∈ range src.nbTup, rtup nc S j c := by
  have hm : minusOneMeasures g.meshDim f.meshDim f.measure g.measure = .ok (f.measure, g.measure.set 0 (f.measure.foldl (· + ·) 0)) := by
    rw [minusOneMeasures, if_pos hdg, show (0 : Int) = ((0 : Nat) : Int) from rfl, wr_natCast (by rw [hg.measure, h1t]; omega), ok_bind, if_neg hdf, ok_bind]
  obtain ⟨r', T, h1, -, -, h2⟩ := transfer_gen hr hf hg (hnf.trans hng.symm) (by rw [hnf]; simp) hf.measure
    (mt := g.measure.set 0 (f.measure.foldl (· + ·) 0)) (by rw [List.length_set]; exact hg.measure) (fun _ => hm) (by rw [hnf]; simp) hS hold (dft := some dft) (by simp) junk
  refine ⟨r', T, h1, fun c hc => ?_⟩
  have hne : W.getD 0 [] ≠ [] := fun h => hpos 0 hsrc (by rw [← hW 0 hsrc, empty_coef h])
  rw [h2 0 (by omega) c hc, hnf, if_neg hne]
  refine sum_congr rfl fun j hj => ?_
  have := hpos j (mem_range.mp hj)
  simp only [denomOf]
  rw [hW j (mem_range.mp hj), div_self this, mul_one]

theorem throwX_bind {α β : Type} (k : α → M β) : ((throwX : M α) >>= k) = .error .exn := rfl

/-- **C81.** The calls which are refused: each of these faults ends with an exception. -/
theorem C81_refused {r : Rem K} {f g : RField K} (dft : Option K) (junk : K)
    (h : (∀ nc S, ¬ Holds f nc S) ∨ r.ft = none ∨ (∃ s t : RTempl, r.ft = some (s, t) ∧ (s.disc ≠ f.disc ∨ t.disc ≠ g.disc ∨ s.nbTup ≠ f.nbTup)) ∨
      f.nature ≠ g.nature ∨ f.nature = .noNature ∨ (g.arr = none ∧ dft = none) ∨ (∃ k old, g.arr = some (k, old) ∧ ¬ Holds g k old) ∨
      (∃ nc S k old, f.arr = some (nc, S) ∧ g.arr = some (k, old) ∧ k ≠ nc)) :
    transferUnderground r f g dft junk = .error .exn := by
  rw [transferUnderground]
  cases hc : f.check with
  | error e =>
    have : e = .exn := by
      rw [RField.check] at hc
      split at hc
      · cases hc; rfl
      · split at hc <;> cases hc; rfl
    rw [this]; rfl
  | ok a =>
    obtain ⟨nc, S⟩ := a
    have hh : Holds f nc S := by
      rw [RField.check] at hc
      split at hc
      · cases hc
      · rename_i p hp
        split at hc
        · rename_i hl
          cases hc; exact ⟨hp, hl⟩
        · cases hc
    rw [ok_bind]
    cases hft : r.ft with
    | none => rfl
    | some ft =>
      obtain ⟨s, t⟩ := ft
      simp only
      by_cases c1 : s.disc ≠ f.disc
      · rw [if_pos c1]; rfl
      rw [if_neg c1]
      by_cases c2 : t.disc ≠ g.disc
      · rw [if_pos c2]; rfl
      rw [if_neg c2]
      by_cases c3 : f.nature ≠ g.nature
      · rw [if_pos c3]; rfl
      rw [if_neg c3]
      by_cases c4 : f.nbTup ≠ s.nbTup
      · rw [if_pos c4]; rfl
      rw [if_neg c4]
      cases hrec : receiver g nc (dft = none) junk with
      | error e =>
        have : e = .exn := by
          rw [receiver] at hrec
          split at hrec
          · rename_i p hp
            rw [RField.check, hp] at hrec
            simp only at hrec
            split at hrec
            · rw [ok_bind] at hrec
              split at hrec <;> cases hrec; rfl
            · cases hrec; rfl
          · split at hrec <;> cases hrec; rfl
        rw [this]; rfl
      | ok res =>
        rw [ok_bind]
        rcases h with h | h | ⟨s', t', h, h'⟩ | h | h | ⟨h, h'⟩ | ⟨k, old, h, h'⟩ | ⟨nc', S', k, old, h, h', h''⟩
        · exact absurd hh (h nc S)
        · rw [hft] at h; cases h
        · rw [hft] at h
          simp only [Option.some.injEq, Prod.mk.injEq] at h
          obtain ⟨rfl, rfl⟩ := h
          rcases h' with h' | h' | h'
          · exact absurd h' c1
          · exact absurd h' c2
          · exact absurd (Ne.symm h') c4
        · exact absurd h c3
        · rw [computeDeno, if_pos h, h, computeDenoFromScratch]; rfl
        · rw [receiver, h] at hrec
          rw [h'] at hrec
          cases hrec
        · rw [receiver, h] at hrec
          simp only [RField.check, h] at hrec
          rw [if_neg (fun hl => h' ⟨h, hl⟩)] at hrec
          cases hrec
        · rw [hh.1] at h
          simp only [Option.some.injEq, Prod.mk.injEq] at h
          obtain ⟨rfl, rfl⟩ := h
          rw [receiver, h'] at hrec
          simp only [RField.check, h'] at hrec
          split at hrec
          · rw [ok_bind, if_pos (Ne.symm h'')] at hrec
            cases hrec
          · cases hrec

/-- **C81.** The reverse transfers which are refused. -/
theorem C81_reverse_refused {r : Rem K} {f g : RField K} (dft junk : K)
    (h : (∀ nc T, ¬ Holds g nc T) ∨ r.ft = none ∨ (∃ s t : RTempl, r.ft = some (s, t) ∧ (s.disc ≠ f.disc ∨ t.disc ≠ g.disc ∨ t.nbTup ≠ g.nbTup)) ∨
      f.nature ≠ g.nature ∨ f.nature = .noNature ∨ (∃ k old, f.arr = some (k, old) ∧ ¬ Holds f k old) ∨
      (∃ nc T k old, g.arr = some (nc, T) ∧ f.arr = some (k, old) ∧ k ≠ nc)) :
    reverseTransfer r f g dft junk = .error .exn := by
  rw [reverseTransfer]
  cases hft : r.ft with
  | none => rfl
  | some ft =>
    obtain ⟨s, t⟩ := ft
    simp only
    cases hc : g.check with
    | error e =>
      have : e = .exn := by
        rw [RField.check] at hc
        split at hc
        · cases hc; rfl
        · split at hc <;> cases hc; rfl
      rw [this]; rfl
    | ok a =>
      obtain ⟨nc, T⟩ := a
      have hh : Holds g nc T := by
        rw [RField.check] at hc
        split at hc
        · cases hc
        · rename_i p hp
          split at hc
          · rename_i hl
            cases hc; exact ⟨hp, hl⟩
          · cases hc
      rw [ok_bind]
      by_cases c1 : s.disc ≠ f.disc
      · rw [if_pos c1]; rfl
      rw [if_neg c1]
      by_cases c2 : t.disc ≠ g.disc
      · rw [if_pos c2]; rfl
      rw [if_neg c2]
      by_cases c3 : f.nature ≠ g.nature
      · rw [if_pos c3]; rfl
      rw [if_neg c3]
      by_cases c4 : g.nbTup ≠ t.nbTup
      · rw [if_pos c4]; rfl
      rw [if_neg c4]
      cases hrec : receiver f nc false junk with
      | error e =>
        have : e = .exn := by
          rw [receiver] at hrec
          split at hrec
          · rename_i p hp
            rw [RField.check, hp] at hrec
            simp only at hrec
            split at hrec
            · rw [ok_bind] at hrec
              split at hrec <;> cases hrec; rfl
            · cases hrec; rfl
          · split at hrec <;> cases hrec; rfl
        rw [this]; rfl
      | ok res =>
        rw [ok_bind]
        rcases h with h | h | ⟨s', t', h, h'⟩ | h | h | ⟨k, old, h, h'⟩ | ⟨nc', S', k, old, h, h', h''⟩
        · exact absurd hh (h nc T)
        · rw [hft] at h; cases h
        · rw [hft] at h
          simp only [Option.some.injEq, Prod.mk.injEq] at h
          obtain ⟨rfl, rfl⟩ := h
          rcases h' with h' | h' | h'
          · exact absurd h' c1
          · exact absurd h' c2
          · exact absurd (Ne.symm h') c4
        · exact absurd h c3
        · rw [computeDeno, if_pos h, h, computeDenoFromScratch]; rfl
        · rw [receiver, h] at hrec
          simp only [RField.check, h] at hrec
          rw [if_neg (fun hl => h' ⟨h, hl⟩)] at hrec
          cases hrec
        · rw [hh.1] at h
          simp only [Option.some.injEq, Prod.mk.injEq] at h
          obtain ⟨rfl, rfl⟩ := h
          rw [receiver, h'] at hrec
          simp only [RField.check, h'] at hrec
          split at hrec
          · rw [ok_bind, if_pos (Ne.symm h'')] at hrec
            cases hrec
          · cases hrec

example : reverseTransfer exRem (exF .intensiveMaximum) (exG .noNature) 0 0 = .error .exn :=
  C81_reverse_refused 0 0 (Or.inr (Or.inr (Or.inr (Or.inl (by decide)))))
example : transferUnderground exRem (exF .noNature) (exG .noNature) (some 0) 0 = .error .exn :=
  C81_refused (some 0) 0 (Or.inr (Or.inr (Or.inr (Or.inr (Or.inl rfl)))))

/-- **C81.** `setCrudeMatrix` accepts a matrix exactly when it has one row per target entity and its columns are source entities. -/
theorem C81_accepted (r : Rem K) (clock : Nat) (src trg : RTempl) (W : List (Row K)) :
    ((W.length = trg.nbTup ∧ ∀ row ∈ W, ∀ e ∈ row, 0 ≤ e.1 ∧ e.1 < (src.nbTup : Int)) →
      ∃ r', setCrudeMatrix r clock src trg W = .ok r' ∧ r'.matrix = W ∧ r'.ft = some (src, trg)) ∧
    (¬ (W.length = trg.nbTup ∧ ∀ row ∈ W, ∀ e ∈ row, 0 ≤ e.1 ∧ e.1 < (src.nbTup : Int)) → setCrudeMatrix r clock src trg W = .error .exn) := by
  have hb : (W.any fun row => row.any fun e => decide (e.1 < 0 ∨ e.1 ≥ (src.nbTup : Int))) = true ↔
      ¬ ∀ row ∈ W, ∀ e ∈ row, 0 ≤ e.1 ∧ e.1 < (src.nbTup : Int) := by
    simp only [List.any_eq_true, decide_eq_true_eq, not_forall]
    constructor
    · rintro ⟨row, hrow, e, he, h⟩; exact ⟨row, hrow, e, he, by omega⟩
    · rintro ⟨row, hrow, e, he, h⟩; exact ⟨row, hrow, e, he, by omega⟩
  constructor
  · rintro ⟨h1, h2⟩
    refine ⟨⟨some (src, trg), W, List.replicate W.length [], List.replicate src.nbTup [], r.nature, clock⟩, ?_, rfl, rfl⟩
    rw [setCrudeMatrix, if_neg (not_not.mpr h1), if_neg (fun h => hb.mp h h2)]
  · intro h
    rw [setCrudeMatrix]
    by_cases h1 : W.length = trg.nbTup
    · rw [if_neg (not_not.mpr h1), if_pos (hb.mpr fun h2 => h ⟨h1, h2⟩)]; rfl
    · rw [if_pos h1]; rfl

/-! The hypotheses on a concrete remapper. -/

example := C81_maximum exRem_reach (exF_on _) (exG_on _) rfl rfl (exF_holds _) (exG_receives _) 9 0
example : (∀ j : Nat, j < 3 → 0 ≤ coef exW 0 j) ∧ 0 < coef exW 0 1 := by decide +kernel
example := C81_uniform exRem_reach (exF_on _) (exG_on _) rfl rfl (exF_holds _) (exG_receives _) 9 0
example := C81_extensive_conservation exRem_reach (exF_on _) (exG_on _) rfl rfl (exF_holds _) (exG_receives _) 0
example := C81_intensive_conservation exRem_reach (exF_on _) (exG_on _) rfl rfl (by decide) (by decide) (exF_holds _) (exG_receives _)
  (by decide +kernel) 0
example := C81_extensive_maximum exRem_reach (exF_on _) (exG_on _) rfl rfl (by decide) (by decide) (exF_holds _) (exG_receives _)
  (by decide +kernel) 9 0

/-- a remapper from two cells of measures 1 and 3 to the mesh of dimension -1: the coefficients are the measures -/
def exGlobal : Rem ℚ := ⟨some (⟨0, 2⟩, ⟨0, 1⟩), [[(0, 1), (1, 3)]], [[]], [[], []], .noNature, 5⟩

theorem exGlobal_reach : RemReach ⟨0, 2⟩ ⟨0, 1⟩ [[(0, 1), (1, 3)]] exGlobal :=
  .init (r0 := newRemapper 3) (clock := 5) (by decide) (by unfold StrictSorted; decide +kernel) (by decide +kernel)

/-- a field on the two cells -/
def exGF (nat : Nature) : RField ℚ := ⟨0, nat, 2, 2, [1, 3], some (1, [10, 20])⟩
/-- a field on the mesh of dimension -1, whose measure is `big` -/
def exGG (nat : Nature) (big : ℚ) : RField ℚ := ⟨0, nat, 1, -1, [big], none⟩

example (big : ℚ) := C81_global_sum exGlobal_reach (f := exGF .extensiveMaximum) (g := exGG .extensiveMaximum big) (old := [0]) (S := [10, 20]) (nc := 1)
  ⟨rfl, rfl, rfl⟩ ⟨rfl, rfl, rfl⟩ rfl rfl (by decide) rfl rfl ⟨rfl, rfl⟩ ⟨Or.inl rfl, rfl⟩ (by decide) (by decide +kernel) (by decide +kernel) 9 0

/-- **C81 (finding).** Intensive conservation towards the mesh of dimension -1: the sum of the measures is put in the array of the source mesh, and
the measure which divides is the conventional value `big` of the mesh of dimension -1.  The mean of the field, 35/2, is lost. -/
theorem C81_global_mean_lost (big : ℚ) : ∃ r' g', transferUnderground exGlobal (exGF .intensiveConservation) (exGG .intensiveConservation big) (some 0) 0 = .ok (r', g') ∧
    g'.arr = some (1, [70 / big]) := by
  have hr := exGlobal_reach
  obtain ⟨r', T, h1, -, h3, h2⟩ := transfer_gen hr (f := exGF .intensiveConservation) (g := exGG .intensiveConservation big) (ms := [big, 3]) (mt := [big])
    (nc := 1) (S := [10, 20]) (old := [0]) (dft := some 0) ⟨rfl, rfl, rfl⟩ ⟨rfl, rfl, rfl⟩ rfl (by decide) rfl rfl (by simp [exGF])
    (fun _ => by simp [minusOneMeasures, exGF, exGG, wr, ok_bind]) ⟨rfl, rfl⟩ ⟨Or.inl rfl, rfl⟩ (by simp) 0
  refine ⟨r', _, h1, ?_⟩
  have := h2 0 (by decide) 0 (by decide)
  rw [if_neg (by simp)] at this
  simp only [exGF, denomOf, sum_range_succ, range_zero, sum_empty, zero_add] at this
  have c0 : coef ([[(0, 1), (1, 3)]] : List (Row ℚ)) 0 0 = 1 := by decide +kernel
  have c1 : coef ([[(0, 1), (1, 3)]] : List (Row ℚ)) 0 1 = 3 := by decide +kernel
  rw [c0, c1] at this
  match T, h3 with
  | [x], _ =>
    simp only [rtup, Nat.zero_mul, Nat.zero_add, List.getD_cons_zero, Nat.one_mul, List.getD_cons_succ] at this
    rw [this]
    simp only [Option.some.injEq, Prod.mk.injEq, List.cons.injEq, and_true, true_and]
    ring

/-- **C81 (finding).** The number of entities of the target field is not compared with the one given when the remapper was prepared: a target field
on a smaller mesh is accepted and the transfer writes outside its array. -/
theorem C81_target_not_checked : ∃ (g : RField ℚ), g.disc = exTrg.disc ∧ g.nbTup ≠ exTrg.nbTup ∧ g.measure.length = g.nbTup ∧
    transferUnderground exRem (exF .intensiveMaximum) g (some 0) 0 = .error .ub :=
  ⟨⟨0, .intensiveMaximum, 1, 2, [3], none⟩, by decide, by decide, by decide, by decide +kernel⟩

/-- **C81 (finding).** The same for the source field of a reverse transfer. -/
theorem C81_source_not_checked : ∃ (f : RField ℚ), f.disc = exSrc.disc ∧ f.nbTup ≠ exSrc.nbTup ∧ f.measure.length = f.nbTup ∧
    reverseTransfer exRem f (exG .intensiveMaximum) 0 0 = .error .ub :=
  ⟨⟨0, .intensiveMaximum, 1, 2, [3], none⟩, by decide, by decide, by decide, by decide +kernel⟩

end
end MC
