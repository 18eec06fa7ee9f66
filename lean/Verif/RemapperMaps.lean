import Verif.Remapper
import Mathlib.Algebra.BigOperators.Group.Finset.Basic
import Mathlib.Algebra.BigOperators.Ring.Finset
import Mathlib.Algebra.BigOperators.Group.Finset.Piecewise
import Mathlib.Data.List.GetD

/-!
# Maps, rows and sums used for the remapper
-/

set_option linter.unusedSectionVars false

namespace MC
section
open Finset
variable {K : Type} [Field K] [LinearOrder K] [IsStrictOrderedRing K]

/-- two sorted maps with the same content are equal -/
theorem map_ext {β : Type} {m m' : List (Int × β)} (h : StrictSorted (mapKeys m)) (h' : StrictSorted (mapKeys m'))
    (hf : ∀ k, mapFind m k = mapFind m' k) : m = m' := by
  have hk : mapKeys m = mapKeys m' := StrictSorted.ext h h' fun x => by
    rw [← mapFind_isSome, ← mapFind_isSome]; simp only [hf]
  refine List.ext_getElem (by simpa [mapKeys] using congrArg List.length hk) fun i h1 h2 => ?_
  have e1 : mapFind m m[i].1 = some m[i].2 := mapFind_of_mem h (List.getElem_mem h1)
  have e2 : mapFind m' m'[i].1 = some m'[i].2 := mapFind_of_mem h' (List.getElem_mem h2)
  have e3 : m[i].1 = m'[i].1 := by
    have : (mapKeys m)[i]'(by simpa using h1) = (mapKeys m')[i]'(by simpa using h2) := by simp only [hk]
    simpa [mapKeys] using this
  rw [hf, e3, e2] at e1
  exact Prod.ext e3 (Option.some.inj e1).symm

/-- `m[k] = g(k)` for all the keys of a row -/
def setKeys (m row : Row K) (g : Int → K) : Row K := row.foldl (fun m e => mapSet m e.1 (g e.1)) m

theorem mapFind_setKeys (m row : Row K) (g : Int → K) (k : Int) :
    mapFind (setKeys m row g) k = if k ∈ mapKeys row then some (g k) else mapFind m k := by
  induction row generalizing m with
  | nil => simp [setKeys]
  | cons e row ih =>
    have : setKeys m (e :: row) g = setKeys (mapSet m e.1 (g e.1)) row g := rfl
    rw [this, ih, mapFind_set]
    by_cases h1 : k ∈ mapKeys row
    · rw [if_pos h1, if_pos (by simpa [mapKeys] using Or.inr (by simpa [mapKeys] using h1))]
    · rw [if_neg h1]
      by_cases h2 : k = e.1
      · subst h2; rw [if_pos rfl, if_pos (by simp [mapKeys])]
      · rw [if_neg h2, if_neg]
        simp only [mapKeys, List.map_cons, List.mem_cons, not_or]
        exact ⟨h2, h1⟩

theorem sorted_setKeys {m : Row K} (h : StrictSorted (mapKeys m)) (row : Row K) (g : Int → K) : StrictSorted (mapKeys (setKeys m row g)) := by
  induction row generalizing m with
  | nil => exact h
  | cons e row ih => exact ih (sorted_mapSet h _ _)

theorem setKeys_eq {m row : Row K} (hm : StrictSorted (mapKeys m)) (hr : StrictSorted (mapKeys row)) (hs : ∀ k ∈ mapKeys m, k ∈ mapKeys row)
    (g : Int → K) : setKeys m row g = row.map fun e => (e.1, g e.1) := by
  have hk : mapKeys (row.map fun e => (e.1, g e.1)) = mapKeys row := by simp [mapKeys, Function.comp_def]
  refine map_ext (sorted_setKeys hm _ _) (by rw [hk]; exact hr) fun k => ?_
  rw [mapFind_setKeys]
  by_cases h : k ∈ mapKeys row
  · rw [if_pos h]
    obtain ⟨e, he, rfl⟩ := List.mem_map.mp h
    exact (mapFind_of_mem (m := row.map fun e => (e.1, g e.1)) (by rw [hk]; exact hr) (List.mem_map.mpr ⟨e, he, rfl⟩)).symm
  · rw [if_neg h, mapFind_eq_none.mpr (fun h' => h (hs k h')), eq_comm, mapFind_eq_none, hk]
    exact h

/-- the coefficient of column `j` in a row -/
def rowAt (row : Row K) (j : Nat) : K := mapAt row 0 (j : Int)

/-- the coefficient (`i`, `j`) of the crude matrix -/
def coef (W : List (Row K)) (i j : Nat) : K := rowAt (W.getD i []) j

/-- the sum over the elements of a row is a sum over the columns -/
theorem row_sum {row : Row K} {m : Nat} (hs : StrictSorted (mapKeys row)) (hr : ∀ e ∈ row, 0 ≤ e.1 ∧ e.1 < (m : Int)) (F : Nat → K → K)
    (hF : ∀ j, F j 0 = 0) : (row.map fun e => F e.1.toNat e.2).sum = ∑ j ∈ range m, F j (rowAt row j) := by
  induction row with
  | nil => simp [rowAt, mapAt, mapFind, hF]
  | cons e row ih =>
    obtain ⟨k, w⟩ := e
    simp only [mapKeys, List.map_cons, StrictSorted, List.pairwise_cons] at hs
    rw [List.map_cons, List.sum_cons, ih hs.2 (fun e he => hr e (List.mem_cons_of_mem _ he))]
    have hk := hr (k, w) (by simp)
    have hz : ∀ j : Nat, (j : Int) = k → rowAt row j = 0 := by
      intro j hj
      rw [rowAt, mapAt, mapFind_eq_none.mpr]; rfl
      intro hmem
      have := hs.1 _ hmem
      omega
    have : ∀ j ∈ range m, F j (rowAt ((k, w) :: row) j) = (if k.toNat = j then F k.toNat w else 0) + F j (rowAt row j) := by
      intro j _
      by_cases h : k.toNat = j
      · have hj : (j : Int) = k := by have := hk.1; simp only at this; omega
        rw [if_pos h, hz j hj, hF, add_zero, rowAt, mapAt, mapFind, if_pos hj, ← h]; rfl
      · rw [if_neg h, zero_add, rowAt, mapAt, mapFind, if_neg (by omega)]; rfl
    rw [sum_congr rfl this, sum_add_distrib, sum_ite_eq, if_pos (by rw [mem_range]; have := hk.1; have := hk.2; simp only at *; omega)]

theorem foldl_add_sum (row : Row K) (s : K) : row.foldl (fun s e => s + e.2) s = s + (row.map fun e => e.2).sum := by
  induction row generalizing s with
  | nil => simp
  | cons e row ih => rw [List.foldl_cons, ih, List.map_cons, List.sum_cons, add_assoc]

theorem rowSumC_eq {row : Row K} {m : Nat} (hs : StrictSorted (mapKeys row)) (hr : ∀ e ∈ row, 0 ≤ e.1 ∧ e.1 < (m : Int)) :
    rowSumC row = ∑ j ∈ range m, rowAt row j := by
  rw [rowSumC, foldl_add_sum, zero_add]
  exact row_sum hs hr (fun _ w => w) fun _ => rfl

theorem mapAt_addToCols (values : Row K) {row : Row K} (hs : StrictSorted (mapKeys row)) (k : Int) :
    mapAt (addToCols values row) 0 k = mapAt values 0 k + mapAt row 0 k := by
  induction row generalizing values with
  | nil => simp [addToCols, mapAt, mapFind]
  | cons e row ih =>
    obtain ⟨a, w⟩ := e
    simp only [mapKeys, List.map_cons, StrictSorted, List.pairwise_cons] at hs
    have : addToCols values ((a, w) :: row) = addToCols (mapSet values a (mapAt values 0 a + w)) row := rfl
    rw [this, ih _ hs.2]
    by_cases h : k = a
    · subst h
      have hz : mapFind row k = none := mapFind_eq_none.mpr fun hm => lt_irrefl _ (hs.1 _ hm)
      simp [mapAt, mapFind_set, mapFind, hz]
    · simp [mapAt, mapFind_set, mapFind, h]

/-- A crude matrix with `n` rows and `m` columns: the rows are maps, the columns are in range. -/
structure CrudeOK (W : List (Row K)) (n m : Nat) : Prop where
  len : W.length = n
  sorted : ∀ row ∈ W, StrictSorted (mapKeys row)
  cols : ∀ row ∈ W, ∀ e ∈ row, 0 ≤ e.1 ∧ e.1 < (m : Int)

/-- column `j` is present in row `i` -/
def inRow (W : List (Row K)) (i j : Nat) : Prop := (j : Int) ∈ mapKeys (W.getD i [])

theorem coef_not_in {W : List (Row K)} {i j : Nat} (h : ¬ inRow W i j) : coef W i j = 0 := by
  rw [coef, rowAt, mapAt, mapFind_eq_none.mpr h]; rfl

theorem CrudeOK.row {W : List (Row K)} {n m : Nat} (h : CrudeOK W n m) {i : Nat} (hi : i < n) :
    rd W (i : Int) = .ok (W.getD i []) ∧ StrictSorted (mapKeys (W.getD i [])) ∧ ∀ e ∈ W.getD i [], 0 ≤ e.1 ∧ e.1 < (m : Int) := by
  have hi' : i < W.length := by rw [h.len]; exact hi
  have hg : W.getD i [] = W[i] := List.getD_eq_getElem _ _ hi'
  rw [rd_natCast hi', hg]
  exact ⟨rfl, h.sorted _ (List.getElem_mem hi'), h.cols _ (List.getElem_mem hi')⟩

/-! ## Filling the denominators -/

theorem fillRow_ok {deno : List (Row K)} {idx : Nat} {row : Row K} {f : Int → M K} {g : Int → K} (hi : idx < deno.length)
    (hf : ∀ e ∈ row, f e.1 = .ok (g e.1)) : fillRow deno idx row f = .ok (deno.set idx (setKeys (deno.getD idx []) row g)) := by
  induction row generalizing deno with
  | nil =>
    simp only [fillRow, List.foldlM_nil, setKeys, List.foldl_nil]
    rw [List.getD_eq_getElem _ _ hi, List.set_getElem_self]; rfl
  | cons e row ih =>
    have hstep : (do let v ← f e.1; let r ← rd deno (idx : Int); wr deno (idx : Int) (mapSet r e.1 v) : M (List (Row K))) =
        .ok (deno.set idx (mapSet (deno.getD idx []) e.1 (g e.1))) := by
      rw [hf e (by simp), ok_bind, rd_natCast hi, ok_bind, wr_natCast hi, List.getD_eq_getElem _ _ hi]
    have : fillRow deno idx (e :: row) f = (do
        let d ← (do let v ← f e.1; let r ← rd deno (idx : Int); wr deno (idx : Int) (mapSet r e.1 v) : M (List (Row K)))
        fillRow d idx row f) := rfl
    rw [this, hstep, ok_bind, ih (by rw [List.length_set]; exact hi) (fun e' he' => hf e' (List.mem_cons_of_mem _ he'))]
    congr 1
    rw [List.set_set, List.getD_eq_getElem _ _ (by rw [List.length_set]; exact hi), List.getElem_set_self]
    rfl

theorem fillCol_ok {denoR : List (Row K)} {idx : Nat} {row : Row K} {f : Int → M K} {g : Int → K}
    (hr : ∀ e ∈ row, 0 ≤ e.1 ∧ e.1 < (denoR.length : Int)) (hf : ∀ e ∈ row, f e.1 = .ok (g e.1)) :
    ∃ D, fillCol denoR idx row f = .ok D ∧ D.length = denoR.length ∧
      ∀ (j : Nat) (k : Int), mapFind (D.getD j []) k = if k = idx ∧ (j : Int) ∈ mapKeys row then some (g j) else mapFind (denoR.getD j []) k := by
  induction row generalizing denoR with
  | nil => exact ⟨denoR, rfl, rfl, fun j k => by simp⟩
  | cons e row ih =>
    have he := hr e (by simp)
    have hl : e.1.toNat < denoR.length := by omega
    have hcast : ((e.1.toNat : Nat) : Int) = e.1 := by omega
    have hstep : (do let v ← f e.1; let r ← rd denoR e.1; wr denoR e.1 (mapSet r (idx : Int) v) : M (List (Row K))) =
        .ok (denoR.set e.1.toNat (mapSet (denoR.getD e.1.toNat []) (idx : Int) (g e.1))) := by
      rw [hf e (by simp), ok_bind, rd_ok he.1 hl, ok_bind, wr_ok he.1 hl, List.getD_eq_getElem _ _ hl]
    have : fillCol denoR idx (e :: row) f = (do
        let d ← (do let v ← f e.1; let r ← rd denoR e.1; wr denoR e.1 (mapSet r (idx : Int) v) : M (List (Row K)))
        fillCol d idx row f) := rfl
    rw [this, hstep, ok_bind]
    obtain ⟨D, h1, h2, h3⟩ := ih (denoR := denoR.set e.1.toNat (mapSet (denoR.getD e.1.toNat []) (idx : Int) (g e.1)))
      (fun e' he' => by rw [List.length_set]; exact hr e' (List.mem_cons_of_mem _ he')) (fun e' he' => hf e' (List.mem_cons_of_mem _ he'))
    refine ⟨D, h1, by rw [h2, List.length_set], fun j k => ?_⟩
    rw [h3]
    by_cases hk : k = idx
    · by_cases hj : (j : Int) ∈ mapKeys row
      · rw [if_pos ⟨hk, hj⟩, if_pos ⟨hk, List.mem_cons_of_mem _ hj⟩]
      · rw [if_neg (fun h => hj h.2)]
        by_cases hje : (j : Int) = e.1
        · have hje' : e.1.toNat = j := by omega
          rw [if_pos ⟨hk, by simp [mapKeys, hje]⟩, hje', List.getD_eq_getElem _ _ (by rw [List.length_set]; omega), List.getElem_set_self,
            mapFind_set, if_pos hk, hje]
        · rw [if_neg (by rintro ⟨-, h⟩; simp only [mapKeys, List.map_cons, List.mem_cons] at h; exact h.elim hje hj)]
          rw [List.getD_eq_getElem?_getD, List.getElem?_set_ne (by omega), ← List.getD_eq_getElem?_getD]
    · rw [if_neg (fun h => hk h.1), if_neg (fun h => hk h.1)]
      by_cases hje : e.1.toNat = j
      · rw [hje, List.getD_eq_getElem _ _ (by rw [List.length_set]; omega), List.getElem_set_self, mapFind_set, if_neg hk]
      · rw [List.getD_eq_getElem?_getD, List.getElem?_set_ne hje, ← List.getD_eq_getElem?_getD]

end
end MC
