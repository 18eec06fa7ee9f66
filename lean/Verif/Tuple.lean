import Verif.Base
import Mathlib.Tactic.Ring
import Mathlib.Tactic.Linarith
import Mathlib.Data.List.Perm.Subperm
import Mathlib.Data.List.Nodup

/-!
# Tuples inside a flat (full interlace) buffer

A data array with `nt` tuples of `nc` components is a flat list of length `nt * nc`; component `c` of tuple
`t` is at index `t * nc + c` (full interlace mode, as everywhere in MEDCoupling).
-/

namespace MC
section
variable {α β : Type}

/-- A data array: `nt` tuples of `nc` components (`DataArrayTemplate<T>`: `_mem` and `_info_on_compo.size()`). -/
structure DArr (α : Type) where
  nt : Nat
  nc : Nat
  data : List α
  wf : data.length = nt * nc

/-- Tuple number `k` of a flat buffer. -/
def tup (nc : Nat) (l : List α) (k : Nat) : List α := (l.drop (k * nc)).take nc

/-- `std::copy(src + nc*i, src + nc*(i+1), dst + nc*j)` -/
def copyTuple (nc : Nat) (src : List α) (i : Int) (dst : List (Option α)) (j : Int) : M (List (Option α)) :=
  copyRange src (nc * i) (nc * (i + 1)) dst (nc * j)

theorem tup_getElem? (nc : Nat) (l : List α) (k c : Nat) :
    (tup nc l k)[c]? = if c < nc then l[k * nc + c]? else none := by
  unfold tup
  by_cases h : c < nc
  · rw [if_pos h, List.getElem?_take_of_lt h, List.getElem?_drop]
  · rw [if_neg h, List.getElem?_eq_none]
    simp only [List.length_take]; omega

theorem tup_length {nc n : Nat} {l : List α} (hl : l.length = n * nc) {k : Nat} (hk : k < n) :
    (tup nc l k).length = nc := by
  unfold tup
  simp only [List.length_take, List.length_drop, hl]
  have : (k + 1) * nc ≤ n * nc := Nat.mul_le_mul_right nc hk
  rw [Nat.succ_mul] at this
  omega

theorem tup_map (f : α → β) (nc : Nat) (l : List α) (k : Nat) : tup nc (l.map f) k = (tup nc l k).map f := by
  simp [tup, List.map_take, List.map_drop]

/-- Two buffers with the same tuples are equal. -/
theorem ext_tup {nc n : Nat} {l l' : List α} (hl : l.length = n * nc) (hl' : l'.length = n * nc)
    (h : ∀ k, k < n → tup nc l k = tup nc l' k) : l = l' := by
  apply List.ext_getElem?
  intro i
  by_cases hi : i < n * nc
  · have hnc : 0 < nc := by
      rcases Nat.eq_zero_or_pos nc with h0 | h0
      · subst h0; simp at hi
      · exact h0
    have hk : i / nc < n := by
      rw [Nat.div_lt_iff_lt_mul hnc]; exact hi
    have h1 := congrArg (fun t => t[i % nc]?) (h (i / nc) hk)
    simp only [tup_getElem?, Nat.mod_lt i hnc, if_true] at h1
    rwa [show i / nc * nc + i % nc = i by rw [Nat.mul_comm]; exact Nat.div_add_mod i nc] at h1
  · rw [List.getElem?_eq_none (by omega), List.getElem?_eq_none (by omega)]

/-- Copy of one tuple: the target tuple is replaced, all the others are untouched. -/
theorem copyTuple_spec {nc n m : Nat} {src : List α} {dst : List (Option α)}
    (hs : src.length = n * nc) (hd : dst.length = m * nc) {i j : Int}
    (hi0 : 0 ≤ i) (hi : i < n) (hj0 : 0 ≤ j) (hj : j < m) :
    ∃ r, copyTuple nc src i dst j = .ok r ∧ r.length = m * nc ∧
      ∀ k, k < m → tup nc r k = if (k : Int) = j then (tup nc src i.toNat).map some else tup nc dst k := by
  obtain ⟨i, rfl⟩ := Int.eq_ofNat_of_zero_le hi0
  obtain ⟨j, rfl⟩ := Int.eq_ofNat_of_zero_le hj0
  have hi' : i + 1 ≤ n := by omega
  have hj' : j + 1 ≤ m := by omega
  have e1 : (i + 1) * nc ≤ n * nc := Nat.mul_le_mul_right nc hi'
  have e2 : (j + 1) * nc ≤ m * nc := Nat.mul_le_mul_right nc hj'
  have c1 : (nc : Int) * (i + 1) - nc * i = nc := by ring
  have c2 : (nc : Int) * (i : Int) = ((i * nc : Nat) : Int) := by push_cast; ring
  have c3 : (nc : Int) * ((i : Int) + 1) = (((i + 1) * nc : Nat) : Int) := by push_cast; ring
  have c4 : (nc : Int) * (j : Int) = ((j * nc : Nat) : Int) := by push_cast; ring
  have e2' : j * nc + nc ≤ m * nc := by rw [← Nat.succ_mul]; exact e2
  obtain ⟨r, hr, hrl, hrk⟩ := copyRange_spec (src := src) (a := nc * (i : Int)) (b := nc * ((i : Int) + 1))
    (c := nc * (j : Int)) (dst := dst) (by rw [c2]; omega) (by rw [c2, c3]; have := Nat.mul_le_mul_right nc (Nat.le_succ i); omega)
    (by rw [c3, hs]; omega) (by rw [c4]; omega) (by rw [c1, c4, hd]; omega)
  refine ⟨r, hr, by rw [hrl, hd], fun k hk => ?_⟩
  apply List.ext_getElem?
  intro c
  rw [tup_getElem?]
  by_cases hc : c < nc
  · rw [if_pos hc, hrk, c1, c4]
    by_cases hkj : (k : Int) = j
    · have hkj' : k = j := by omega
      subst hkj'
      rw [if_pos (by omega), if_pos rfl, List.getElem?_map, tup_getElem?, if_pos hc]
      congr 2
      rw [c2]
      simp only [Int.toNat_natCast]
      omega
    · rw [if_neg hkj, if_neg, tup_getElem?, if_pos hc]
      rintro ⟨h1, h2⟩
      have hne : k ≠ j := by omega
      rcases Nat.lt_or_gt_of_ne hne with h | h
      · have := Nat.mul_le_mul_right nc (show k + 1 ≤ j from h)
        rw [Nat.succ_mul] at this; omega
      · have := Nat.mul_le_mul_right nc (show j + 1 ≤ k from h)
        rw [Nat.succ_mul] at this; omega
  · rw [if_neg hc]
    split
    · rw [List.getElem?_map, tup_getElem?, if_neg hc]; rfl
    · rw [tup_getElem?, if_neg hc]

theorem wp_copyTuple {nc n m : Nat} {src : List α} {dst : List (Option α)}
    (hs : src.length = n * nc) (hd : dst.length = m * nc) {i j : Int}
    (hi0 : 0 ≤ i) (hi : i < n) (hj0 : 0 ≤ j) (hj : j < m) {Q : List (Option α) → Prop} {E : Prop}
    (h : ∀ r, r.length = m * nc →
      (∀ k, k < m → tup nc r k = if (k : Int) = j then (tup nc src i.toNat).map some else tup nc dst k) → Q r) :
    wp (copyTuple nc src i dst j) Q E := by
  obtain ⟨r, hr, h1, h2⟩ := copyTuple_spec hs hd hi0 hi hj0 hj
  rw [hr]; exact h r h1 h2

theorem tup_mallocN {nc n k : Nat} (hk : k < n) : tup nc (mallocN α (n * nc)) k = List.replicate nc none := by
  have : (k + 1) * nc ≤ n * nc := Nat.mul_le_mul_right nc hk
  rw [Nat.succ_mul] at this
  simp only [tup, mallocN, List.drop_replicate, List.take_replicate]
  congr 1; omega

/-! ## Permutations given by id arrays -/

/-- The array `p` holds each of `0..n-1` exactly once. -/
def IsPermArr (n : Nat) (p : List Int) : Prop :=
  p.length = n ∧ (∀ v ∈ p, 0 ≤ v ∧ v < n) ∧ p.Nodup

theorem IsPermArr.perm_range {n : Nat} {p : List Int} (h : IsPermArr n p) :
    p.Perm ((List.range n).map Int.ofNat) := by
  obtain ⟨hl, hv, hn⟩ := h
  have hsub : p ⊆ (List.range n).map Int.ofNat := by
    intro v hvp
    obtain ⟨h0, h1⟩ := hv v hvp
    simp only [List.mem_map, List.mem_range]
    exact ⟨v.toNat, by omega, by simp; omega⟩
  exact (List.subperm_of_subset hn hsub).perm_of_length_le (by simp [hl])

theorem IsPermArr.surj {n : Nat} {p : List Int} (h : IsPermArr n p) {j : Nat} (hj : j < n) :
    ∃ i, i < n ∧ p[i]? = some (j : Int) := by
  have : (j : Int) ∈ p := by
    rw [h.perm_range.mem_iff]
    simp only [List.mem_map, List.mem_range]
    exact ⟨j, hj, rfl⟩
  obtain ⟨i, hi, he⟩ := List.mem_iff_getElem.mp this
  refine ⟨i, by rw [← h.1]; exact hi, ?_⟩
  rw [List.getElem?_eq_getElem hi, he]

theorem IsPermArr.inj {n : Nat} {p : List Int} (h : IsPermArr n p) {i j : Nat} {v : Int}
    (hi : p[i]? = some v) (hj : p[j]? = some v) : i = j := by
  obtain ⟨hil, hie⟩ := List.getElem?_eq_some_iff.mp hi
  obtain ⟨hjl, hje⟩ := List.getElem?_eq_some_iff.mp hj
  exact (List.Nodup.getElem_inj_iff h.2.2).mp (hie.trans hje.symm)

end
end MC
