import Verif.RemapperMaps

/-!
# Denominators of the remapper
-/

set_option linter.unusedSectionVars false

namespace MC
section
open Finset
variable {K : Type} [Field K] [LinearOrder K] [IsStrictOrderedRing K]

/-- the rows of `_deno_multiply` before a computation: empty, or with columns of the matrix only -/
def DenPre (W : List (Row K)) (n : Nat) (deno : List (Row K)) : Prop :=
  deno.length = n ∧ ∀ i < n, StrictSorted (mapKeys (deno.getD i [])) ∧ ∀ k ∈ mapKeys (deno.getD i []), k ∈ mapKeys (W.getD i [])

/-- the rows of `_deno_multiply` after a computation: exactly the columns of the matrix, with the values `g` -/
def DenOK (W : List (Row K)) (n : Nat) (g : Nat → Nat → K) (deno : List (Row K)) : Prop :=
  deno.length = n ∧ ∀ i < n, deno.getD i [] = (W.getD i []).map fun e => (e.1, g i e.1.toNat)

/-- the content of `_deno_reverse_multiply` after a computation -/
def DenROK (W : List (Row K)) (n m : Nat) (g : Nat → Nat → K) (denoR : List (Row K)) : Prop :=
  denoR.length = m ∧ ∀ i < n, ∀ j, inRow W i j → mapFind (denoR.getD j []) (i : Int) = some (g i j)

theorem DenOK.pre {W : List (Row K)} {n m : Nat} (hW : CrudeOK W n m) {g : Nat → Nat → K} {deno : List (Row K)} (h : DenOK W n g deno) : DenPre W n deno := by
  refine ⟨h.1, fun i hi => ?_⟩
  have hk : mapKeys ((W.getD i []).map fun e => (e.1, g i e.1.toNat)) = mapKeys (W.getD i []) := by simp [mapKeys, Function.comp_def]
  rw [h.2 i hi, hk]
  exact ⟨(hW.row hi).2.1, fun k hk => hk⟩

/-- `_deno_multiply` when `i` rows have been filled -/
def DenUpTo (W : List (Row K)) (n : Nat) (g : Nat → Nat → K) (i : Nat) (deno : List (Row K)) : Prop :=
  deno.length = n ∧ ∀ i' < n, if i' < i then deno.getD i' [] = (W.getD i' []).map fun e => (e.1, g i' e.1.toNat)
    else StrictSorted (mapKeys (deno.getD i' [])) ∧ ∀ k ∈ mapKeys (deno.getD i' []), k ∈ mapKeys (W.getD i' [])

/-- `_deno_reverse_multiply` when `i` rows have been filled -/
def DenRUpTo (W : List (Row K)) (m : Nat) (g : Nat → Nat → K) (i : Nat) (denoR : List (Row K)) : Prop :=
  denoR.length = m ∧ ∀ i' < i, ∀ j, inRow W i' j → mapFind (denoR.getD j []) (i' : Int) = some (g i' j)

theorem denUpTo_zero {W : List (Row K)} {n : Nat} {g : Nat → Nat → K} {deno : List (Row K)} (h : DenPre W n deno) : DenUpTo W n g 0 deno :=
  ⟨h.1, fun i' hi' => by rw [if_neg (Nat.not_lt_zero _)]; exact h.2 i' hi'⟩

theorem DenUpTo.done {W : List (Row K)} {n : Nat} {g : Nat → Nat → K} {deno : List (Row K)} (h : DenUpTo W n g n deno) : DenOK W n g deno :=
  ⟨h.1, fun i hi => by have := h.2 i hi; rwa [if_pos hi] at this⟩

theorem row_step {W : List (Row K)} {n m : Nat} (hW : CrudeOK W n m) {g : Nat → Nat → K} {i : Nat} (hi : i < n) {deno : List (Row K)}
    (h : DenUpTo W n g i deno) {f : Int → M K} (hf : ∀ e ∈ W.getD i [], f e.1 = .ok (g i e.1.toNat)) :
    ∃ d, fillRow deno i (W.getD i []) f = .ok d ∧ DenUpTo W n g (i + 1) d := by
  refine ⟨_, fillRow_ok (g := fun k => g i k.toNat) (by rw [h.1]; exact hi) hf, by rw [List.length_set]; exact h.1, fun i' hi' => ?_⟩
  have h2 := h.2 i' hi'
  by_cases he : i = i'
  · subst he
    rw [if_neg (lt_irrefl _)] at h2
    rw [if_pos (Nat.lt_succ_self _), List.getD_eq_getElem _ _ (by rw [List.length_set, h.1]; exact hi), List.getElem_set_self]
    exact setKeys_eq h2.1 (hW.row hi).2.1 h2.2 _
  · rw [List.getD_eq_getElem?_getD, List.getElem?_set_ne he, ← List.getD_eq_getElem?_getD]
    by_cases hlt : i' < i
    · rw [if_pos hlt] at h2; rw [if_pos (by omega)]; exact h2
    · rw [if_neg hlt] at h2; rw [if_neg (by omega)]; exact h2

theorem col_step {W : List (Row K)} {n m : Nat} (hW : CrudeOK W n m) {g : Nat → Nat → K} {i : Nat} (hi : i < n) {denoR : List (Row K)}
    (h : DenRUpTo W m g i denoR) {f : Int → M K} (hf : ∀ e ∈ W.getD i [], f e.1 = .ok (g i e.1.toNat)) :
    ∃ d, fillCol denoR i (W.getD i []) f = .ok d ∧ DenRUpTo W m g (i + 1) d := by
  obtain ⟨D, h1, h2, h3⟩ := fillCol_ok (denoR := denoR) (idx := i) (g := fun k => g i k.toNat) (by rw [h.1]; exact (hW.row hi).2.2) hf
  refine ⟨D, h1, h2.trans h.1, fun i' hi' j hj => ?_⟩
  rw [h3]
  by_cases he : i' = i
  · subst he; rw [if_pos ⟨rfl, hj⟩]; rfl
  · rw [if_neg (by rintro ⟨h, -⟩; exact he (by exact_mod_cast h))]
    exact h.2 i' (by omega) j hj

/-- sum of row `i` -/
def rowTotal (W : List (Row K)) (m i : Nat) : K := ∑ j ∈ range m, coef W i j

/-- sum of column `j` -/
def colTotal (W : List (Row K)) (n j : Nat) : K := ∑ i ∈ range n, coef W i j

theorem rowAndCol {W : List (Row K)} {n m : Nat} (hW : CrudeOK W n m) {deno denoR : List (Row K)} (h : DenPre W n deno) (hR : denoR.length = m) :
    ∃ d, computeRowSumAndColSum W deno denoR = .ok d ∧ DenOK W n (fun i _ => rowTotal W m i) d.1 ∧ DenROK W n m (fun _ j => colTotal W n j) d.2 := by
  have a : wp (loop W.length (deno, ([] : Row K)) fun i s => do
      let row ← rd W i
      let d ← fillRow s.1 i row fun _ => .ok (rowSumC row)
      .ok (d, addToCols s.2 row))
      (fun s => DenUpTo W n (fun i _ => rowTotal W m i) W.length s.1 ∧ ∀ k : Nat, mapAt s.2 0 (k : Int) = ∑ i ∈ range W.length, coef W i k) False := by
    refine wp_loop (fun i (s : List (Row K) × Row K) => DenUpTo W n (fun i _ => rowTotal W m i) i s.1 ∧ ∀ k : Nat, mapAt s.2 0 (k : Int) = ∑ i' ∈ range i, coef W i' k)
      ⟨denUpTo_zero h, fun k => by simp [mapAt, mapFind]⟩ ?_
    rintro i hi s ⟨h1, h2⟩
    rw [hW.len] at hi
    obtain ⟨e1, e2, e3⟩ := hW.row hi
    rw [e1, ok_bind]
    obtain ⟨d, d1, d2⟩ := row_step hW hi h1 (f := fun _ => .ok (rowSumC (W.getD i []))) (fun e _ => by rw [rowSumC_eq e2 e3]; rfl)
    rw [d1, ok_bind, wp_ok]
    refine ⟨d2, fun k => ?_⟩
    rw [mapAt_addToCols _ e2, h2, sum_range_succ]; rfl
  obtain ⟨s, s1, s2, s3⟩ := wp_exists a
  have b : wp (loop W.length denoR fun i d => do
      let row ← rd W i
      fillCol d i row fun k => .ok (mapAt s.2 0 k)) (fun d => DenRUpTo W m (fun _ j => colTotal W n j) W.length d) False := by
    refine wp_loop (fun i d => DenRUpTo W m (fun _ j => colTotal W n j) i d) ⟨hR, fun i' hi' => absurd hi' (Nat.not_lt_zero _)⟩ ?_
    intro i hi d h1
    rw [hW.len] at hi
    obtain ⟨e1, e2, e3⟩ := hW.row hi
    rw [e1, ok_bind]
    obtain ⟨d', d1, d2⟩ := col_step hW hi h1 (f := fun k => .ok (mapAt s.2 0 k)) (fun e he => by
      have : e.1 = ((e.1.toNat : Nat) : Int) := by have := e3 e he; omega
      rw [this, s3, hW.len]; rfl)
    rw [d1, wp_ok]; exact d2
  obtain ⟨dr, r1, r2⟩ := wp_exists b
  rw [hW.len] at s2 r2
  refine ⟨(s.1, dr), ?_, s2.done, r2⟩
  rw [computeRowSumAndColSum, s1, ok_bind, r1, ok_bind]

theorem colAndRow {W : List (Row K)} {n m : Nat} (hW : CrudeOK W n m) {deno denoR : List (Row K)} (h : DenPre W n deno) (hR : denoR.length = m) :
    ∃ d, computeColSumAndRowSum W deno denoR = .ok d ∧ DenOK W n (fun _ j => colTotal W n j) d.1 ∧ DenROK W n m (fun i _ => rowTotal W m i) d.2 := by
  have a : wp (loop W.length (denoR, ([] : Row K)) fun i s => do
      let row ← rd W i
      let d ← fillCol s.1 i row fun _ => .ok (rowSumC row)
      .ok (d, addToCols s.2 row))
      (fun s => DenRUpTo W m (fun i _ => rowTotal W m i) W.length s.1 ∧ ∀ k : Nat, mapAt s.2 0 (k : Int) = ∑ i ∈ range W.length, coef W i k) False := by
    refine wp_loop (fun i (s : List (Row K) × Row K) => DenRUpTo W m (fun i _ => rowTotal W m i) i s.1 ∧ ∀ k : Nat, mapAt s.2 0 (k : Int) = ∑ i' ∈ range i, coef W i' k)
      ⟨⟨hR, fun i' hi' => absurd hi' (Nat.not_lt_zero _)⟩, fun k => by simp [mapAt, mapFind]⟩ ?_
    rintro i hi s ⟨h1, h2⟩
    rw [hW.len] at hi
    obtain ⟨e1, e2, e3⟩ := hW.row hi
    rw [e1, ok_bind]
    obtain ⟨d, d1, d2⟩ := col_step hW hi h1 (f := fun _ => .ok (rowSumC (W.getD i []))) (fun e _ => by rw [rowSumC_eq e2 e3]; rfl)
    rw [d1, ok_bind, wp_ok]
    refine ⟨d2, fun k => ?_⟩
    rw [mapAt_addToCols _ e2, h2, sum_range_succ]; rfl
  obtain ⟨s, s1, s2, s3⟩ := wp_exists a
  have b : wp (loop W.length deno fun i d => do
      let row ← rd W i
      fillRow d i row fun k => .ok (mapAt s.2 0 k)) (fun d => DenUpTo W n (fun _ j => colTotal W n j) W.length d) False := by
    refine wp_loop (fun i d => DenUpTo W n (fun _ j => colTotal W n j) i d) (denUpTo_zero h) ?_
    intro i hi d h1
    rw [hW.len] at hi
    obtain ⟨e1, e2, e3⟩ := hW.row hi
    rw [e1, ok_bind]
    obtain ⟨d', d1, d2⟩ := row_step hW hi h1 (f := fun k => .ok (mapAt s.2 0 k)) (fun e he => by
      have : e.1 = ((e.1.toNat : Nat) : Int) := by have := e3 e he; omega
      rw [this, s3, hW.len]; rfl)
    rw [d1, wp_ok]; exact d2
  obtain ⟨d, r1, r2⟩ := wp_exists b
  rw [hW.len] at s2 r2
  refine ⟨(d, s.1), ?_, r2.done, s2⟩
  rw [computeColSumAndRowSum, s1, ok_bind, r1, ok_bind]

/-- the loops which put measures in the denominators -/
theorem measuresLoop {W : List (Row K)} {n m : Nat} (hW : CrudeOK W n m) {deno denoR : List (Row K)} (h : DenPre W n deno) (hR : denoR.length = m)
    {f fR : Nat → Int → M K} {g gR : Nat → Nat → K} (hf : ∀ i < n, ∀ e ∈ W.getD i [], f i e.1 = .ok (g i e.1.toNat))
    (hfR : ∀ i < n, ∀ e ∈ W.getD i [], fR i e.1 = .ok (gR i e.1.toNat)) :
    ∃ d, (loop W.length (deno, denoR) fun i d => do
      let row ← rd W i
      let a ← fillRow d.1 i row (f i)
      let b ← fillCol d.2 i row (fR i)
      .ok (a, b)) = .ok d ∧ DenOK W n g d.1 ∧ DenROK W n m gR d.2 := by
  have a : wp (loop W.length (deno, denoR) fun i d => do
      let row ← rd W i
      let a ← fillRow d.1 i row (f i)
      let b ← fillCol d.2 i row (fR i)
      .ok (a, b)) (fun d => DenUpTo W n g W.length d.1 ∧ DenRUpTo W m gR W.length d.2) False := by
    refine wp_loop (fun i (d : List (Row K) × List (Row K)) => DenUpTo W n g i d.1 ∧ DenRUpTo W m gR i d.2) ⟨denUpTo_zero h, hR, fun i' hi' => absurd hi' (Nat.not_lt_zero _)⟩ ?_
    rintro i hi d ⟨h1, h2⟩
    rw [hW.len] at hi
    rw [(hW.row hi).1, ok_bind]
    obtain ⟨a, a1, a2⟩ := row_step hW hi h1 (hf i hi)
    obtain ⟨b, b1, b2⟩ := col_step hW hi h2 (hfR i hi)
    rw [a1, ok_bind, b1, ok_bind, wp_ok]
    exact ⟨a2, b2⟩
  obtain ⟨d, d1, d2, d3⟩ := wp_exists a
  rw [hW.len] at d2 d3
  exact ⟨d, d1, d2.done, d3⟩

/-- The denominators of a transfer, from the matrix and the measures of the source and target entities. -/
def denomOf (nat : Nature) (W : List (Row K)) (n m : Nat) (srcMeas trgMeas : Nat → K) (i j : Nat) : K :=
  match nat with
  | .noNature => 0
  | .intensiveMaximum => ∑ j' ∈ range m, coef W i j'
  | .extensiveMaximum => srcMeas j
  | .extensiveConservation => ∑ i' ∈ range n, coef W i' j
  | .intensiveConservation => trgMeas i

/-- The denominators of a reverse transfer. -/
def denomRevOf (nat : Nature) (W : List (Row K)) (n m : Nat) (srcMeas trgMeas : Nat → K) (i j : Nat) : K :=
  match nat with
  | .noNature => 0
  | .intensiveMaximum => ∑ i' ∈ range n, coef W i' j
  | .extensiveMaximum => trgMeas i
  | .extensiveConservation => ∑ j' ∈ range m, coef W i j'
  | .intensiveConservation => srcMeas j

theorem minusOne_id {trgDim srcDim : Int} (ht : trgDim ≠ -1) (hs : srcDim ≠ -1) (a b : List K) : minusOneMeasures trgDim srcDim a b = .ok (a, b) := by
  rw [minusOneMeasures, if_neg ht, ok_bind, if_neg hs, ok_bind]

/-- the part of the state of a remapper which the transfers rely on -/
structure RemInv (W : List (Row K)) (n m : Nat) (r : Rem K) : Prop where
  matrix : r.matrix = W
  deno : DenPre W n r.deno
  denoR : r.denoR.length = m
  time : r.time ≠ 0

/-- The denominators with given measures. -/
theorem deno_measures {W : List (Row K)} {n m : Nat} (hW : CrudeOK W n m) {r : Rem K} (hr : RemInv W n m r) {nat : Nature} (hn : nat ≠ .noNature)
    {src trg : RField K} {ms mt : List K} (hms : ms.length = m) (hmt : mt.length = n)
    (hex : nat = .extensiveMaximum → minusOneMeasures trg.meshDim src.meshDim src.measure trg.measure = .ok (ms, mt))
    (hic : nat = .intensiveConservation → minusOneMeasures trg.meshDim src.meshDim trg.measure src.measure = .ok (mt, ms)) :
    ∃ d : List (Row K) × List (Row K), computeDeno r nat src trg = .ok { r with nature := nat, deno := d.1, denoR := d.2 } ∧
      DenOK W n (denomOf nat W n m (fun j => ms.getD j 0) (fun i => mt.getD i 0)) d.1 ∧
      DenROK W n m (denomRevOf nat W n m (fun j => ms.getD j 0) (fun i => mt.getD i 0)) d.2 := by
  have hc : computeDeno r nat src trg = computeDenoFromScratch r nat src trg := by
    rw [computeDeno, if_neg hn]
    by_cases h : nat ≠ r.nature
    · rw [if_pos h]
    · rw [if_neg h, if_pos ⟨not_not.mp h, Ne.symm hr.time⟩]
  rw [hc]
  have hms' : ∀ i < n, ∀ e ∈ W.getD i [], rd ms e.1 = .ok (ms.getD e.1.toNat 0) := by
    intro i hi e he
    have := (hW.row hi).2.2 e he
    rw [rd_ok this.1 (by omega), List.getD_eq_getElem _ _ (by omega)]
  have hmt' : ∀ i < n, rd mt (i : Int) = .ok (mt.getD i 0) := by
    intro i hi
    rw [rd_natCast (by omega), List.getD_eq_getElem _ _ (by omega)]
  cases nat with
  | noNature => exact absurd rfl hn
  | intensiveMaximum =>
    obtain ⟨d, d1, d2, d3⟩ := rowAndCol hW hr.deno hr.denoR
    refine ⟨d, ?_, d2, d3⟩
    rw [computeDenoFromScratch]
    rw [hr.matrix, d1, ok_bind]
  | extensiveMaximum =>
    obtain ⟨d, d1, d2, d3⟩ := measuresLoop hW hr.deno hr.denoR (f := fun _ k => rd ms k) (fR := fun i _ => rd mt i)
      (g := fun _ j => ms.getD j 0) (gR := fun i _ => mt.getD i 0) hms' (fun i hi e _ => hmt' i hi)
    refine ⟨d, ?_, d2, d3⟩
    rw [computeDenoFromScratch]
    rw [hex rfl, ok_bind, hr.matrix, d1, ok_bind]
  | extensiveConservation =>
    obtain ⟨d, d1, d2, d3⟩ := colAndRow hW hr.deno hr.denoR
    refine ⟨d, ?_, d2, d3⟩
    rw [computeDenoFromScratch]
    rw [hr.matrix, d1, ok_bind]
  | intensiveConservation =>
    obtain ⟨d, d1, d2, d3⟩ := measuresLoop hW hr.deno hr.denoR (f := fun i _ => rd mt i) (fR := fun _ k => rd ms k)
      (g := fun i _ => mt.getD i 0) (gR := fun _ j => ms.getD j 0) (fun i hi e _ => hmt' i hi) hms'
    refine ⟨d, ?_, d2, d3⟩
    rw [computeDenoFromScratch]
    rw [hic rfl, ok_bind, hr.matrix, d1, ok_bind]

end
end MC
