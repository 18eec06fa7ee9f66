import Mathlib.Data.List.Basic
import Mathlib.Data.Int.Order.Basic
import Mathlib.Tactic.Linarith

/-!
# Specification vocabulary: indexed ("skyline") arrays

A pair `(arr, arrI)` represents a list of groups when `arr` is their concatenation and `arrI` holds the offsets
`0, |g0|, |g0|+|g1|, ...`.
-/

namespace MC
variable {α : Type}

/-- Offsets of the groups. -/
def skyIdx (groups : List (List α)) : List Int :=
  (List.range (groups.length + 1)).map fun k => ((groups.take k).flatten.length : Int)

/-- `(arr, arrI)` represents `groups`. -/
def IsSky (arr : List α) (arrI : List Int) (groups : List (List α)) : Prop :=
  arr = groups.flatten ∧ arrI = skyIdx groups

@[simp] theorem skyIdx_length (g : List (List α)) : (skyIdx g).length = g.length + 1 := by simp [skyIdx]

theorem skyIdx_getElem? (g : List (List α)) {k : Nat} (hk : k ≤ g.length) :
    (skyIdx g)[k]? = some ((g.take k).flatten.length : Int) := by
  simp [skyIdx, List.getElem?_range (show k < g.length + 1 by omega)]

theorem flatten_take_succ (g : List (List α)) {k : Nat} (hk : k < g.length) :
    (g.take (k + 1)).flatten = (g.take k).flatten ++ g[k] := by
  rw [List.take_succ_eq_append_getElem hk, List.flatten_append, List.flatten_cons, List.flatten_nil, List.append_nil]

/-- Group `k` is the slice of `arr` between two consecutive offsets. -/
theorem flatten_slice (g : List (List α)) {k : Nat} (hk : k < g.length) :
    (g.flatten.drop (g.take k).flatten.length).take (g[k].length) = g[k] := by
  have : g.flatten = (g.take k).flatten ++ (g[k] ++ (g.drop (k+1)).flatten) := by
    conv_lhs => rw [← List.take_append_drop k g, List.flatten_append, List.drop_eq_getElem_cons hk, List.flatten_cons]
  rw [this, List.drop_left, List.take_left]

theorem skyIdx_snoc (g : List (List α)) (x : List α) :
    skyIdx (g ++ [x]) = skyIdx g ++ [((g.flatten.length + x.length : Nat) : Int)] := by
  apply List.ext_getElem?
  intro k
  by_cases hk : k ≤ g.length
  · rw [skyIdx_getElem? _ (by simp; omega), List.getElem?_append_left (by simp; omega), skyIdx_getElem? _ hk,
      List.take_append_of_le_length hk]
  · by_cases hk' : k = g.length + 1
    · subst hk'
      rw [skyIdx_getElem? _ (by simp), List.getElem?_append_right (by simp), List.take_of_length_le (by simp)]
      simp
    · rw [List.getElem?_eq_none (by simp; omega), List.getElem?_eq_none (by simp; omega)]

theorem scanl_sizes_aux (g : List (List α)) (a : Int) :
    (g.map fun x => (x.length : Int)).scanl (· + ·) a = (skyIdx g).map (a + ·) := by
  induction g generalizing a with
  | nil => simp [skyIdx]
  | cons x g ih =>
    rw [List.map_cons, List.scanl_cons, ih]
    simp only [skyIdx, List.length_cons, List.range_succ_eq_map (n := g.length + 1), List.map_cons, List.map_map]
    congr 1
    · simp
    · apply List.map_congr_left
      intro k _
      simp [Int.add_assoc]

/-- Running sums of the sizes are the offsets. -/
theorem scanl_sizes (g : List (List α)) : (g.map fun x => (x.length : Int)).scanl (· + ·) 0 = skyIdx g := by
  rw [scanl_sizes_aux]; simp

end MC
