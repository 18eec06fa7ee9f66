import Verif.CommonCells
import Verif.CellModelProps
import Verif.ScanProps
import Mathlib.Data.List.Rotate

/-!
# C57: comparison of two cells
-/

namespace MC
section

/-- Specification of the comparison policies 0 to 3 of two cells.
0: same nodes in the same order; 1: same type, same nodes up to a rotation (edges: same order);
2: same type, as many nodes, same set of nodes; 3: the same without the type. -/
def SameCell (p : Int) (c c' : Cell) : Prop :=
  (p = 0 → c.nodes = c'.nodes) ∧
  (p = 1 → c.type = c'.type ∧ if c.type ∈ [1, 2, 10, 33] then c.nodes = c'.nodes else c.nodes ~r c'.nodes) ∧
  (p = 2 → c.type = c'.type ∧ c.nodes.length = c'.nodes.length ∧ ∀ n, n ∈ c.nodes ↔ n ∈ c'.nodes) ∧
  (p = 3 → c.nodes.length = c'.nodes.length ∧ ∀ n, n ∈ c.nodes ↔ n ∈ c'.nodes)

/-- The types for which the oriented policies are implemented. -/
def FlatType (t : Int) : Prop := ∃ cm, getCellModel t = .ok cm ∧ cm.dim ≠ 3

/-- The policies 0 to 3; the oriented one refuses cells of dimension 3. -/
def PolicyOk (p : Int) (c : Cell) : Prop := (p = 0 ∨ p = 1 ∨ p = 2 ∨ p = 3) ∧ c.nodes ≠ [] ∧ (p = 1 → FlatType c.type)

theorem dim1_iff {t : Int} {cm : CellModel} (h : getCellModel t = .ok cm) : cm.dim = 1 ↔ t ∈ ([1, 2, 10, 33] : List Int) := by
  obtain ⟨h1, h2⟩ := getCellModel_mem h
  subst h2
  have : ∀ cm ∈ cellModels, (cm.dim = 1 ↔ cm.code ∈ ([1, 2, 10, 33] : List Int)) := by decide
  exact this cm h1

theorem stdSearch_ne_iff (pat l : List Int) : stdSearch pat l ≠ l.length ↔ ∃ k < l.length, pat <+: l.drop k := by
  obtain ⟨h1, h2, h3⟩ := stdSearch_spec pat l
  constructor
  · intro h; exact ⟨_, by omega, h2 (by omega)⟩
  · rintro ⟨k, hk, hp⟩ he
    exact h3 k (by omega) hp

theorem prefix_double_iff {a b : List Int} (hl : a.length = b.length) (hne : a ≠ []) :
    (∃ k < (a ++ a).length, b <+: (a ++ a).drop k) ↔ a ~r b := by
  have hpos : 0 < a.length := List.length_pos_of_ne_nil hne
  constructor
  · rintro ⟨k, hk, hp⟩
    have hle := hp.length_le
    rw [List.length_drop, List.length_append] at hle
    refine ⟨k, ?_⟩
    rw [List.rotate_eq_drop_append_take (by omega)]
    rw [List.drop_append_of_le_length (by omega)] at hp
    have hp2 : (a.drop k ++ a.take k) <+: (a.drop k ++ a) := by
      rw [List.prefix_append_right_inj]; exact List.take_prefix _ _
    have := List.prefix_or_prefix_of_prefix hp hp2
    have hl2 : (a.drop k ++ a.take k).length = b.length := by simp; omega
    rcases this with h | h
    · exact (h.eq_of_length hl2.symm).symm
    · exact h.eq_of_length hl2
  · rintro ⟨k, rfl⟩
    refine ⟨k % a.length, by have := Nat.mod_lt k hpos; simp; omega, ?_⟩
    have hlt := Nat.mod_lt k hpos
    rw [← List.rotate_mod, List.rotate_eq_drop_append_take (by omega), List.drop_append_of_le_length (by omega),
      List.prefix_append_right_inj]
    exact List.take_prefix _ _

theorem search_double {a b : List Int} (hl : a.length = b.length) (hne : a ≠ []) :
    stdSearch b (a ++ a) ≠ (a ++ a).length ↔ a ~r b := by
  rw [stdSearch_ne_iff, prefix_double_iff hl hne]

theorem search_double_reverse {a b : List Int} (hl : a.length = b.length) (hne : a ≠ []) :
    stdSearch b (a ++ a).reverse ≠ (a ++ a).length ↔ a.reverse ~r b := by
  rw [show (a ++ a).length = (a ++ a).reverse.length by simp, List.reverse_append, search_double (by simpa using hl) (by simpa using hne)]

theorem sets_eq_iff (a b : List Int) : setInsertAll [] a = setInsertAll [] b ↔ ∀ n, n ∈ a ↔ n ∈ b := by
  constructor
  · intro h n
    have := congrArg (n ∈ ·) h
    simpa [mem_setInsertAll] using this
  · intro h
    refine StrictSorted.ext (sorted_setInsertAll List.Pairwise.nil) (sorted_setInsertAll List.Pairwise.nil) ?_
    intro x
    simpa [mem_setInsertAll] using h x

/-- C57: for the policies 0 to 3 the comparison answers 1 exactly on the cells which are the same for the policy, 0 otherwise. -/
theorem C57_policies {p : Int} {c c' : Cell} (h : PolicyOk p c) [Decidable (SameCell p c c')] :
    cellsEqual p c c' = .ok (if SameCell p c c' then 1 else 0) := by
  obtain ⟨hp, hne, hf⟩ := h
  unfold cellsEqual
  have fin : ∀ {P : Prop} [Decidable P], (P ↔ SameCell p c c') → (.ok (if P then 1 else 0) : M Int) = .ok (if SameCell p c c' then 1 else 0) := by
    intro P _ h
    by_cases hP : P
    · rw [if_pos hP, if_pos (h.mp hP)]
    · rw [if_neg hP, if_neg (fun h' => hP (h.mpr h'))]
  have no : ¬ SameCell p c c' → (.ok 0 : M Int) = .ok (if SameCell p c c' then 1 else 0) := by
    intro h; rw [if_neg h]
  rcases hp with rfl | rfl | rfl | rfl
  · rw [if_pos rfl]
    unfold equalPolicy0
    split
    · exact fin ⟨fun h => ⟨fun _ => h, by omega, by omega, by omega⟩, fun h => h.1 rfl⟩
    · rename_i hl
      exact no fun h => hl (congrArg _ (h.1 rfl))
  · rw [if_neg (by omega), if_pos rfl]
    unfold equalPolicy1
    split
    · rename_i hl
      split
      · rename_i ht
        obtain ⟨cm, h1, h2⟩ := hf rfl
        rw [h1, ok_bind, if_pos h2]
        have hd := dim1_iff h1
        split
        · rename_i h3
          refine fin ?_
          rw [search_double hl hne]
          constructor
          · intro hr
            refine ⟨by omega, fun _ => ⟨ht, ?_⟩, by omega, by omega⟩
            rw [if_neg fun h => h3 (hd.mpr h)]
            exact hr
          · intro h
            have := (h.2.1 rfl).2
            rwa [if_neg fun h => h3 (hd.mpr h)] at this
        · rename_i h3
          have h3 : cm.dim = 1 := by omega
          refine fin ⟨fun he => ⟨by omega, fun _ => ⟨ht, ?_⟩, by omega, by omega⟩, fun h => ?_⟩
          · rw [if_pos (hd.mp h3)]; exact he
          · have := (h.2.1 rfl).2
            rwa [if_pos (hd.mp h3)] at this
      · rename_i ht
        exact no fun h => ht (h.2.1 rfl).1
    · rename_i hl
      refine no fun h => hl ?_
      have := (h.2.1 rfl).2
      split at this
      · exact congrArg _ this
      · exact this.perm.length_eq
  · rw [if_neg (by omega), if_neg (by omega), if_pos rfl]
    unfold equalPolicy2
    split
    · rename_i hl
      split
      · rename_i ht
        refine fin ?_
        rw [sets_eq_iff]
        exact ⟨fun h => ⟨by omega, by omega, fun _ => ⟨ht, hl, h⟩, by omega⟩, fun h => (h.2.2.1 rfl).2.2⟩
      · rename_i ht
        exact no fun h => ht (h.2.2.1 rfl).1
    · rename_i hl
      exact no fun h => hl (h.2.2.1 rfl).2.1
  · rw [if_neg (by omega), if_neg (by omega), if_neg (by omega), if_pos rfl]
    unfold equalPolicy3
    split
    · rename_i hl
      refine fin ?_
      rw [sets_eq_iff]
      exact ⟨fun h => ⟨by omega, by omega, by omega, fun _ => ⟨hl, h⟩⟩, fun h => (h.2.2.2 rfl).2⟩
    · rename_i hl
      exact no fun h => hl (h.2.2.2 rfl).1

/-- C57: each of the policies 0 to 3 is an equivalence on cells, and cells that are the same have the same nodes. -/
theorem C57_equivalence (p : Int) : Equivalence (SameCell p) := by
  refine ⟨fun c => ⟨fun _ => rfl, fun _ => ⟨rfl, ?_⟩, fun _ => ⟨rfl, rfl, fun _ => Iff.rfl⟩, fun _ => ⟨rfl, fun _ => Iff.rfl⟩⟩, ?_, ?_⟩
  · split
    · rfl
    · exact List.IsRotated.refl _
  · rintro c c' ⟨h0, h1, h2, h3⟩
    refine ⟨fun h => (h0 h).symm, fun h => ?_, fun h => ?_, fun h => ?_⟩
    · obtain ⟨a, b⟩ := h1 h
      refine ⟨a.symm, ?_⟩
      rw [← a]
      split at b
      · rw [if_pos (by assumption)]; exact b.symm
      · rw [if_neg (by assumption)]; exact b.symm
    · obtain ⟨a, b, d⟩ := h2 h; exact ⟨a.symm, b.symm, fun n => (d n).symm⟩
    · obtain ⟨b, d⟩ := h3 h; exact ⟨b.symm, fun n => (d n).symm⟩
  · rintro c c' c'' ⟨h0, h1, h2, h3⟩ ⟨g0, g1, g2, g3⟩
    refine ⟨fun h => (h0 h).trans (g0 h), fun h => ?_, fun h => ?_, fun h => ?_⟩
    · obtain ⟨a, b⟩ := h1 h
      obtain ⟨a', b'⟩ := g1 h
      refine ⟨a.trans a', ?_⟩
      rw [← a] at b'
      split at b
      · rw [if_pos (by assumption)] at b' ⊢; exact b.trans b'
      · rw [if_neg (by assumption)] at b' ⊢; exact b.trans b'
    · obtain ⟨a, b, d⟩ := h2 h
      obtain ⟨a', b', d'⟩ := g2 h
      exact ⟨a.trans a', b.trans b', fun n => (d n).trans (d' n)⟩
    · obtain ⟨b, d⟩ := h3 h
      obtain ⟨b', d'⟩ := g3 h
      exact ⟨b.trans b', fun n => (d n).trans (d' n)⟩

theorem SameCell.nodes {p : Int} {c c' : Cell} (hp : p = 0 ∨ p = 1 ∨ p = 2 ∨ p = 3) (h : SameCell p c c') (n : Int) :
    n ∈ c.nodes ↔ n ∈ c'.nodes := by
  rcases hp with rfl | rfl | rfl | rfl
  · rw [h.1 rfl]
  · have := (h.2.1 rfl).2
    split at this
    · rw [this]
    · exact this.perm.mem_iff
  · exact (h.2.2.1 rfl).2.2 n
  · exact (h.2.2.2 rfl).2 n

example : PolicyOk 1 ⟨4, [0, 1, 2, 3]⟩ ∧ SameCell 1 ⟨4, [0, 1, 2, 3]⟩ ⟨4, [2, 3, 0, 1]⟩ ∧ ¬ SameCell 1 ⟨4, [0, 1, 2, 3]⟩ ⟨4, [3, 2, 1, 0]⟩ :=
  ⟨⟨by decide, by decide, fun _ => ⟨_, rfl, by decide⟩⟩,
   ⟨by decide, fun _ => ⟨rfl, by rw [if_neg (by decide)]; exact ⟨2, rfl⟩⟩, fun h => absurd h (by decide), fun h => absurd h (by decide)⟩,
   fun h => by have := (h.2.1 rfl).2; rw [if_neg (by decide)] at this; revert this; decide⟩

/-- C57: the oriented policies refuse two cells of dimension 3 of the same type and size; unknown policies are refused. -/
theorem C57_refused {c c' : Cell} :
    (∀ p : Int, p ∉ ([0, 1, 2, 3, 7, 8, 9] : List Int) → cellsEqual p c c' = .error .exn) ∧
    (∀ cm, getCellModel c.type = .ok cm → cm.dim = 3 → c.type = c'.type → c.nodes.length = c'.nodes.length →
      cellsEqual 1 c c' = .error .exn ∧ cellsEqual 7 c c' = .error .exn) ∧
    (c.type ≠ 2 → c.type = c'.type → c.nodes.length = c'.nodes.length → cellsEqual 8 c c' = .error .exn ∧ cellsEqual 9 c c' = .error .exn) := by
  refine ⟨?_, ?_, ?_⟩
  · intro p hp
    simp only [List.mem_cons, List.not_mem_nil, or_false, not_or] at hp
    unfold cellsEqual
    simp [hp, throwX]
  · intro cm h1 h2 ht hl
    rw [show cellsEqual 1 c c' = equalPolicy1 c c' from rfl, show cellsEqual 7 c c' = equalPolicy7 c c' from rfl]
    unfold equalPolicy1 equalPolicy7
    rw [if_pos hl, if_pos ht, if_pos hl, if_pos ht, h1, ok_bind, ok_bind, if_neg (by omega), if_neg (by omega)]
    exact ⟨rfl, rfl⟩
  · intro ht h1 hl
    rw [show cellsEqual 8 c c' = equalPolicy89 false c c' from rfl, show cellsEqual 9 c c' = equalPolicy89 true c c' from rfl]
    unfold equalPolicy89
    rw [if_pos hl, if_pos h1, if_neg ht, if_pos hl, if_pos h1, if_neg ht]
    exact ⟨rfl, rfl⟩

example : ∃ cm, getCellModel 14 = .ok cm ∧ cm.dim = 3 := ⟨_, rfl, by decide⟩

/-- C57: policy 7 on faces: 1 when the nodes are the same up to a rotation, else 2 when they are once one of them is reversed. -/
theorem C57_policy7_face {c c' : Cell} {cm : CellModel} (h : getCellModel c.type = .ok cm) (hd : cm.dim ≠ 3) (hd1 : cm.dim ≠ 1)
    (hne : c.nodes ≠ []) :
    ∃ r, cellsEqual 7 c c' = .ok r ∧ (r = 0 ∨ r = 1 ∨ r = 2) ∧ (r = 1 ↔ c.type = c'.type ∧ c.nodes ~r c'.nodes) ∧
      (r = 2 ↔ c.type = c'.type ∧ ¬ c.nodes ~r c'.nodes ∧ c.nodes.reverse ~r c'.nodes) := by
  have hlen : ∀ x y : List Int, x ~r y → x.length = y.length := fun x y h => h.perm.length_eq
  show ∃ r, equalPolicy7 c c' = .ok r ∧ _
  unfold equalPolicy7
  by_cases hl : c.nodes.length = c'.nodes.length
  · rw [if_pos hl]
    by_cases ht : c.type = c'.type
    · rw [if_pos ht, h, ok_bind, if_pos hd, if_pos hd1]
      simp only [search_double hl hne, search_double_reverse hl hne]
      by_cases h1 : c.nodes ~r c'.nodes
      · rw [if_pos h1]; exact ⟨1, rfl, by simp, by simp [ht, h1], by simp [h1]⟩
      · rw [if_neg h1]
        by_cases h2 : c.nodes.reverse ~r c'.nodes
        · rw [if_pos h2]; exact ⟨2, rfl, by simp, by simp [h1], by simp [ht, h1, h2]⟩
        · rw [if_neg h2]; exact ⟨0, rfl, by simp, by simp [h1], by simp [h2]⟩
    · rw [if_neg ht]; exact ⟨0, rfl, by simp, by simp [ht], by simp [ht]⟩
  · rw [if_neg hl]
    refine ⟨0, rfl, by simp, ?_, ?_⟩
    · simp only [zero_ne_one, false_iff]
      rintro ⟨-, h⟩
      exact hl (hlen _ _ h)
    · simp only [false_iff, show ((0 : Int) = 2) = False by decide]
      rintro ⟨-, -, h⟩
      exact hl (by simpa using hlen _ _ h)

example : ∃ cm, getCellModel 3 = .ok cm ∧ cm.dim ≠ 3 ∧ cm.dim ≠ 1 ∧ cellsEqual 7 ⟨3, [5, 6, 7]⟩ ⟨3, [6, 7, 5]⟩ = .ok 1 ∧
    cellsEqual 7 ⟨3, [5, 6, 7]⟩ ⟨3, [6, 5, 7]⟩ = .ok 2 := ⟨_, rfl, by decide, by decide, by decide, by decide⟩

/-- C57: policy 7 on edges `SEG2` and `SEG3`: 1 when equal, 2 when the two ends are exchanged. -/
theorem C57_policy7_edge (a b m a' b' m' : Int) :
    cellsEqual 7 ⟨1, [a, b]⟩ ⟨1, [a', b']⟩ = .ok (if a = a' ∧ b = b' then 1 else if a = b' ∧ b = a' then 2 else 0) ∧
    cellsEqual 7 ⟨2, [a, b, m]⟩ ⟨2, [a', b', m']⟩ =
      .ok (if a = a' ∧ b = b' ∧ m = m' then 1 else if a = b' ∧ b = a' ∧ m = m' then 2 else 0) := by
  have h1 : getCellModel 1 = .ok cm_seg2 := rfl
  have h2 : getCellModel 2 = .ok cm_seg3 := rfl
  constructor
  · simp only [cellsEqual, equalPolicy7]
    norm_num [h1, ok_bind, cm_seg2]
    split
    · rfl
    · simp only [and_comm (a := b = a')]
  · simp only [cellsEqual, equalPolicy7]
    norm_num [h2, ok_bind, cm_seg3, rd]
    split
    · rfl
    · rfl

/-- C57: policies 8 and 9 on `SEG3`: the ends are compared; policy 9 wants different middles. -/
theorem C57_policy89 (a b m a' b' m' : Int) :
    cellsEqual 8 ⟨2, [a, b, m]⟩ ⟨2, [a', b', m']⟩ = .ok (if a = a' ∧ b = b' then 1 else if a = b' ∧ b = a' then 2 else 0) ∧
    cellsEqual 9 ⟨2, [a, b, m]⟩ ⟨2, [a', b', m']⟩ =
      .ok (if m = m' then 0 else if a = a' ∧ b = b' then 1 else if a = b' ∧ b = a' then 2 else 0) := by
  constructor
  · simp [cellsEqual, equalPolicy89, rd, ok_bind]
  · simp only [cellsEqual, equalPolicy89]
    norm_num [rd, ok_bind]
    by_cases h : m = m'
    · simp [h]
    · simp [h]

/-- C57, finding: policy 0 is documented as "same connectivity and types same too"; the types are not compared. -/
theorem C57_policy0_ignores_type : cellsEqual 0 ⟨4, [0, 1, 2, 3]⟩ ⟨14, [0, 1, 2, 3]⟩ = .ok 1 := by decide

/-- C57, finding: on quadratic faces the rotation mixes the corners and the middles: the same triangle listed from another corner
is not found, while a triangle whose corners are the middles of the first one is. -/
theorem C57_policy1_quadratic : cellsEqual 1 ⟨6, [0, 1, 2, 3, 4, 5]⟩ ⟨6, [1, 2, 0, 4, 5, 3]⟩ = .ok 0 ∧
    cellsEqual 1 ⟨6, [0, 1, 2, 3, 4, 5]⟩ ⟨6, [3, 4, 5, 0, 1, 2]⟩ = .ok 1 := by decide

end
end MC
