import Verif.UMeshRev
import Verif.ScanProps
import Verif.RenumberProps

/-!
# C54, C55: nodes in use, counts per cell, renumbering of the nodes in the connectivity
-/

namespace MC
section

/-- The node ids of the cells, with the separators. -/
def allNodes (cells : List Cell) : List Int := cells.flatMap Cell.nodes

/-- Node `n` belongs to a cell. -/
def UsedNode (cells : List Cell) (n : Int) : Prop := 0 ≤ n ∧ ∃ c ∈ cells, n ∈ c.nodes

theorem usedNode_iff {cells : List Cell} {n : Int} : UsedNode cells n ↔ 0 ≤ n ∧ n ∈ allNodes cells := by
  unfold UsedNode allNodes
  rw [List.mem_flatMap]

theorem forCells_nodes {σ : Type} {conn connI : List Int} {cells : List Cell} (h : IsMesh conn connI cells) (s : σ) (f : σ → Int → M σ) :
    forCells conn connI s (fun _ c s => c.nodes.foldlM f s) = (allNodes cells).foldlM f s := by
  rw [forCells_eq_foldlM h s (fun c s => c.nodes.foldlM f s), allNodes, foldlM_flatMap]

/-! ## Marking -/

theorem mark_fold {α : Type} (v : α) (f : List α → Int → M (List α))
    (hf : f = fun s n => if n ≥ 0 then (if n < s.length then wr s n v else throwX) else .ok s) (l : List Int) (s : List α) :
    ((∀ n ∈ l, n < s.length) → ∃ r, l.foldlM f s = .ok r ∧ r.length = s.length ∧
      ∀ k, k < s.length → r[k]? = if (k : Int) ∈ l then some v else s[k]?) ∧
    ((∃ n ∈ l, (s.length : Int) ≤ n) → l.foldlM f s = .error .exn) := by
  have main : ∀ E : Prop, ((∃ n ∈ l, (s.length : Int) ≤ n) → E) → wp (l.foldlM f s) (fun r => (∀ n ∈ l, n < s.length) ∧ r.length = s.length ∧
      ∀ k, k < s.length → r[k]? = if (k : Int) ∈ l then some v else s[k]?) E := by
    intro E hE
    refine wp_foldlM (fun (pre : List Int) (r : List α) => (∀ n ∈ pre, n < (s.length : Int)) ∧ r.length = s.length ∧
      ∀ k, k < s.length → r[k]? = if (k : Int) ∈ pre then some v else s[k]?) ⟨by simp, rfl, by simp⟩ ?_
    rintro pre x suf rfl r ⟨h1, h2, h3⟩
    rw [hf]
    dsimp only
    by_cases h0 : x ≥ 0
    · rw [if_pos h0]
      by_cases hx : x < r.length
      · rw [if_pos hx]
        refine wp_wr (by omega) (by omega) ⟨?_, by simpa using h2, fun k hk => ?_⟩
        · intro n hn
          rcases List.mem_append.mp hn with hn | hn
          · exact h1 n hn
          · rw [List.mem_singleton] at hn; omega
        · rw [List.getElem?_set]
          by_cases hkx : x.toNat = k
          · rw [if_pos hkx, if_pos (by omega), if_pos]
            rw [List.mem_append, List.mem_singleton]; right; omega
          · rw [if_neg hkx, h3 k hk]
            have : ((k : Int) ∈ pre ++ [x]) ↔ (k : Int) ∈ pre := by
              rw [List.mem_append, List.mem_singleton]
              constructor
              · rintro (h | h)
                · exact h
                · omega
              · exact Or.inl
            by_cases hp : (k : Int) ∈ pre
            · rw [if_pos hp, if_pos (this.mpr hp)]
            · rw [if_neg hp, if_neg (fun h => hp (this.mp h))]
      · rw [if_neg hx]
        exact hE ⟨x, by simp, by omega⟩
    · rw [if_neg h0]
      refine ⟨?_, h2, fun k hk => ?_⟩
      · intro n hn
        rcases List.mem_append.mp hn with hn | hn
        · exact h1 n hn
        · rw [List.mem_singleton] at hn; omega
      · rw [h3 k hk]
        have : ((k : Int) ∈ pre ++ [x]) ↔ (k : Int) ∈ pre := by
          rw [List.mem_append, List.mem_singleton]
          constructor
          · rintro (h | h)
            · exact h
            · omega
          · exact Or.inl
        by_cases hp : (k : Int) ∈ pre
        · rw [if_pos hp, if_pos (this.mpr hp)]
        · rw [if_neg hp, if_neg (fun h => hp (this.mp h))]
  constructor
  · intro h
    obtain ⟨r, h1, _, h2, h3⟩ := wp_exists (main False (by rintro ⟨n, hn, h'⟩; have := h n hn; omega))
    exact ⟨r, h1, h2, h3⟩
  · rintro ⟨n, hn, h'⟩
    exact wp_throws (wp_mono (main True (fun _ => trivial)) (fun r ⟨hr, _⟩ => by have := hr n hn; omega) id)

/-- C54: `computeNodeIdsAlg` marks the nodes of the cells and leaves the other marks as they are; a node id that is too large
is refused. -/
theorem C54_computeNodeIdsAlg {conn connI : List Int} {cells : List Cell} (h : IsMesh conn connI cells) (s : List Bool) :
    ((∀ n, UsedNode cells n → n < s.length) → ∃ r, computeNodeIdsAlg conn connI s = .ok r ∧ r.length = s.length ∧
      ∀ k : Nat, k < s.length → (r[k]? = some true ↔ UsedNode cells k ∨ s[k]? = some true)) ∧
    ((∃ n, UsedNode cells n ∧ (s.length : Int) ≤ n) → computeNodeIdsAlg conn connI s = .error .exn) := by
  unfold computeNodeIdsAlg
  rw [forCells_nodes h]
  obtain ⟨m1, m2⟩ := mark_fold true markNode (by funext s n; rfl) (allNodes cells) s
  constructor
  · intro hn
    obtain ⟨r, h1, h2, h3⟩ := m1 fun n hn' => by
      by_cases h0 : 0 ≤ n
      · exact hn n (usedNode_iff.mpr ⟨h0, hn'⟩)
      · omega
    refine ⟨r, h1, h2, fun k hk => ?_⟩
    rw [h3 k hk, usedNode_iff]
    by_cases hm : (k : Int) ∈ allNodes cells
    · simp [hm]
    · simp [hm]
  · rintro ⟨n, hn, hl⟩
    exact m2 ⟨n, (usedNode_iff.mp hn).2, hl⟩

theorem maxElement_le {l : List Int} {x : Int} (h : x ∈ l) : x ≤ maxElement l := by
  cases l with
  | nil => cases h
  | cons y l =>
    unfold maxElement
    have : ∀ (l : List Int) (y : Int), y ≤ l.foldl (fun a b => if a < b then b else a) y ∧
        ∀ x ∈ l, x ≤ l.foldl (fun a b => if a < b then b else a) y := by
      intro l
      induction l with
      | nil => intro y; simp
      | cons z l ih =>
        intro y
        rw [List.foldl_cons]
        obtain ⟨h1, h2⟩ := ih (if y < z then z else y)
        refine ⟨le_trans (by split <;> omega) h1, fun x hx => ?_⟩
        rcases List.mem_cons.mp hx with rfl | hx
        · exact le_trans (by split <;> omega) h1
        · exact h2 x hx
    rcases List.mem_cons.mp h with rfl | h
    · exact (this l x).1
    · exact (this l y).2 x h

/-- C54: `computeFetchedNodeIds` gives the increasing list of exactly the nodes of the cells, whatever the node ids. -/
theorem C54_computeFetchedNodeIds {conn connI : List Int} {cells : List Cell} (h : IsMesh conn connI cells) :
    ∃ r : List Int, computeFetchedNodeIds conn connI = .ok (r.map some) ∧ StrictSorted r ∧ ∀ n, n ∈ r ↔ UsedNode cells n := by
  unfold computeFetchedNodeIds
  dsimp only
  set m : Int := if conn = [] then 0 else |maxElement conn| + 1 with hm
  have hlt : ∀ n, UsedNode cells n → n < (List.replicate m.toNat false).length := by
    rintro n ⟨h0, c, hc, hn⟩
    have hmem : n ∈ conn := by
      rw [h.1]
      exact List.mem_flatten.mpr ⟨c.row, List.mem_map_of_mem hc, by simp [Cell.row, hn]⟩
    have h1 := maxElement_le hmem
    have h2 : conn ≠ [] := List.ne_nil_of_mem hmem
    rw [if_neg h2] at hm
    have h3 := le_abs_self (maxElement conn)
    simp only [List.length_replicate]
    omega
  obtain ⟨s, h1, h2, h3⟩ := (C54_computeNodeIdsAlg h _).1 hlt
  rw [h1, ok_bind]
  obtain ⟨r, h4, h5, h6⟩ := C35_switched true s
  refine ⟨r, h4, h5, fun n => (h6 n).trans ?_⟩
  constructor
  · rintro ⟨i, rfl, hi⟩
    have hil := (List.getElem?_eq_some_iff.mp hi).1
    rcases (h3 i (by omega)).mp hi with h7 | h7
    · exact h7
    · rw [List.getElem?_replicate] at h7
      split at h7 <;> simp at h7
  · intro hu
    have := hlt n hu
    exact ⟨n.toNat, by have := hu.1; omega, (h3 n.toNat (by have := hu.1; omega)).mpr (Or.inl (by rwa [show ((n.toNat : Nat) : Int) = n by have := hu.1; omega]))⟩

example : IsMesh [3, 0, 8, 2, 31, 1, 2, 3, -1, 4, 8, 1] [0, 4, 12] [⟨3, [0, 8, 2]⟩, ⟨31, [1, 2, 3, -1, 4, 8, 1]⟩] ∧
    computeFetchedNodeIds [3, 0, 8, 2, 31, 1, 2, 3, -1, 4, 8, 1] [0, 4, 12] = .ok ([0, 1, 2, 3, 4, 8].map some) := by decide

/-! ## Old to new array of the nodes in use -/

/-- positions of the values which are not -1 -/
def keptPositions (l : List Int) : List Int := (l.zipIdx.filter fun p => decide (p.1 ≠ -1)).map fun p => (p.2 : Int)

theorem keptPositions_snoc (l : List Int) (x : Int) :
    keptPositions (l ++ [x]) = keptPositions l ++ (if x ≠ -1 then [(l.length : Int)] else []) := by
  unfold keptPositions
  rw [List.zipIdx_append, List.filter_append, List.map_append]
  by_cases h : x = -1 <;> simp [h]

theorem accVisit_append (l l' : List Int) (k : Int) :
    accVisit k (l ++ l') = accVisit k l ++ accVisit (k + ((keptPositions l).length : Int)) l' := by
  induction l generalizing k with
  | nil => simp [accVisit, keptPositions]
  | cons v l ih =>
    have hk : ((keptPositions (v :: l)).length : Int) = (if v ≠ -1 then 1 else 0) + ((keptPositions l).length : Int) := by
      have : ∀ (l : List Int) (j : Nat), ((l.zipIdx j).filter fun p => decide (p.1 ≠ -1)).length = (l.filter fun x => decide (x ≠ -1)).length := by
        intro l
        induction l with
        | nil => intro j; rfl
        | cons x l ih =>
          intro j
          rw [List.zipIdx_cons]
          by_cases hx : x = -1
          · simpa [hx] using ih (j + 1)
          · simpa [hx] using ih (j + 1)
      unfold keptPositions
      rw [List.length_map, List.length_map, this, this]
      by_cases hv : v = -1
      · simp [hv]
      · simp [hv]; omega
    rw [List.cons_append]
    by_cases hv : v = -1
    · simp only [accVisit, ne_eq, hv, not_true_eq_false, if_false, List.cons_append] at *
      rw [ih k, hk]; simp
    · simp only [accVisit, ne_eq, hv, not_false_eq_true, if_true, List.cons_append] at *
      rw [ih (k + 1), hk, Int.add_assoc]

@[simp] theorem accVisit_length (k : Int) (l : List Int) : (accVisit k l).length = l.length := by
  induction l generalizing k with
  | nil => rfl
  | cons v l ih => unfold accVisit; split <;> simp [ih]

theorem accVisit_spec (l : List Int) :
    (∀ k j : Nat, (accVisit 0 l)[k]? = some (j : Int) ↔ (keptPositions l)[j]? = some (k : Int)) ∧
    (∀ (k : Nat) (v : Int), (accVisit 0 l)[k]? = some v → 0 ≤ v ∨ v = -1) ∧ StrictSorted (keptPositions l) ∧
    ∀ x : Int, x ∈ keptPositions l ↔ ∃ k : Nat, x = k ∧ ∃ v, l[k]? = some v ∧ v ≠ -1 := by
  induction l using List.reverseRecOn with
  | nil => simp [accVisit, keptPositions, StrictSorted]
  | append_singleton l x ih =>
    obtain ⟨i1, i2, i3, i4⟩ := ih
    have hacc : accVisit 0 (l ++ [x]) = accVisit 0 l ++ [if x ≠ -1 then ((keptPositions l).length : Int) else -1] := by
      rw [accVisit_append]
      congr 1
      by_cases hx : x = -1 <;> simp [accVisit, hx]
    have hlt : ∀ y ∈ keptPositions l, 0 ≤ y ∧ y < l.length := by
      intro y hy
      obtain ⟨k, rfl, v, hv, _⟩ := (i4 y).mp hy
      have := (List.getElem?_eq_some_iff.mp hv).1
      omega
    rw [hacc, keptPositions_snoc]
    refine ⟨fun k j => ?_, fun k v hkv => ?_, ?_, fun y => ?_⟩
    · by_cases hk : k < l.length
      · rw [List.getElem?_append_left (by simpa using hk), i1 k j]
        by_cases hx : x = -1
        · simp [hx]
        · rw [if_pos hx]
          by_cases hj : j < (keptPositions l).length
          · rw [List.getElem?_append_left hj]
          · rw [List.getElem?_append_right (by omega), List.getElem?_eq_none (by omega)]
            by_cases hj' : j - (keptPositions l).length = 0
            · rw [hj']; simp; omega
            · rw [List.getElem?_eq_none (by simp; omega)]
      · rw [List.getElem?_append_right (by simp; omega)]
        simp only [accVisit_length]
        by_cases hk' : k = l.length
        · subst hk'
          by_cases hx : x = -1
          · simp only [hx, ne_eq, not_true_eq_false, if_false, Nat.sub_self, List.getElem?_cons_zero, List.append_nil]
            constructor
            · intro h; have := Option.some.inj h; omega
            · intro h; have := hlt _ (List.mem_of_getElem? h); omega
          · rw [if_pos hx, if_pos hx, Nat.sub_self, List.getElem?_cons_zero]
            by_cases hj : j < (keptPositions l).length
            · rw [List.getElem?_append_left hj]
              constructor
              · intro h; have := Option.some.inj h; omega
              · intro h; have := hlt _ (List.mem_of_getElem? h); omega
            · rw [List.getElem?_append_right (by omega)]
              by_cases hj' : j - (keptPositions l).length = 0
              · rw [hj']; simp; omega
              · rw [List.getElem?_eq_none (l := [(l.length : Int)]) (by simp; omega)]
                simp; omega
        · rw [List.getElem?_eq_none (by simp; omega)]
          constructor
          · intro h; cases h
          · intro h
            have hm := List.mem_of_getElem? h
            rcases List.mem_append.mp hm with h1 | h1
            · have := hlt _ h1; omega
            · by_cases hx : x = -1
              · simp [hx] at h1
              · rw [if_pos hx, List.mem_singleton] at h1; omega
    · by_cases hk : k < l.length
      · rw [List.getElem?_append_left (by simpa using hk)] at hkv; exact i2 k v hkv
      · rw [List.getElem?_append_right (by simp; omega)] at hkv
        have := List.mem_of_getElem? hkv
        rw [List.mem_singleton] at this
        rw [this]
        by_cases hx : x = -1
        · simp [hx]
        · rw [if_pos hx]; left; omega
    · rw [StrictSorted, List.pairwise_append]
      refine ⟨i3, by split <;> simp, fun a ha b hb => ?_⟩
      have := hlt a ha
      by_cases hx : x = -1
      · simp [hx] at hb
      · rw [if_pos hx, List.mem_singleton] at hb; omega
    · rw [List.mem_append, i4 y]
      constructor
      · rintro (⟨k, rfl, v, hv, hv1⟩ | hb)
        · exact ⟨k, rfl, v, by rw [List.getElem?_append_left (List.getElem?_eq_some_iff.mp hv).1]; exact hv, hv1⟩
        · by_cases hx : x = -1
          · simp [hx] at hb
          · rw [if_pos hx, List.mem_singleton] at hb
            exact ⟨l.length, hb, x, by simp, hx⟩
      · rintro ⟨k, rfl, v, hv, hv1⟩
        by_cases hk : k < l.length
        · rw [List.getElem?_append_left hk] at hv
          exact Or.inl ⟨k, rfl, v, hv, hv1⟩
        · right
          have hkl := (List.getElem?_eq_some_iff.mp hv).1
          simp at hkl
          have : k = l.length := by omega
          subst this
          simp at hv
          subst hv
          simp [hv1]

/-- C54: `getNodeIdsInUse` numbers the nodes in use in their order: with `used` the increasing list of the nodes of the cells,
the old to new array sends `used[j]` to `j` and the other nodes to -1, and the second result is the length of `used`.  A
node id that does not exist is refused. -/
theorem C54_getNodeIdsInUse {conn connI : List Int} {cells : List Cell} (h : IsMesh conn connI cells) (nbNodes : Nat) :
    ((∀ n, UsedNode cells n → n < nbNodes) → ∃ tr used : List Int, getNodeIdsInUse nbNodes conn connI = .ok (tr, (used.length : Int)) ∧
      StrictSorted used ∧ (∀ n, n ∈ used ↔ UsedNode cells n) ∧ tr.length = nbNodes ∧
      (∀ k j : Nat, tr[k]? = some (j : Int) ↔ used[j]? = some (k : Int)) ∧
      ∀ k : Nat, k < nbNodes → (k : Int) ∉ used → tr[k]? = some (-1)) ∧
    ((∃ n, UsedNode cells n ∧ (nbNodes : Int) ≤ n) → getNodeIdsInUse nbNodes conn connI = .error .exn) := by
  unfold getNodeIdsInUse
  rw [forCells_nodes h]
  obtain ⟨m1, m2⟩ := mark_fold 1 traduceNode (by funext s n; rfl) (allNodes cells) (List.replicate nbNodes (-1))
  simp only [List.length_replicate] at m1 m2
  constructor
  · intro hn
    obtain ⟨tr, h1, h2, h3⟩ := m1 fun n hn' => by
      by_cases h0 : 0 ≤ n
      · exact hn n (usedNode_iff.mpr ⟨h0, hn'⟩)
      · omega
    rw [h1, ok_bind]
    obtain ⟨a1, a2, a3, a4⟩ := accVisit_spec tr
    have hval : ∀ k, k < nbNodes → tr[k]? = some (if (k : Int) ∈ allNodes cells then 1 else -1) := by
      intro k hk
      rw [h3 k hk]
      by_cases hm : (k : Int) ∈ allNodes cells
      · simp [hm]
      · simp [hm, hk]
    have hcount : ∀ t : List Int, (∀ v ∈ t, v = 1 ∨ v = -1) → (t.count 1 : Int) = ((keptPositions t).length : Int) := by
      intro t
      induction t using List.reverseRecOn with
      | nil => intro _; rfl
      | append_singleton t x ih =>
        intro hv
        have := ih fun v hv' => hv v (by simp [hv'])
        rw [keptPositions_snoc, List.count_append, List.length_append]
        rcases hv x (by simp) with rfl | rfl <;> simp <;> omega
    have hmem : ∀ n, n ∈ keptPositions tr ↔ UsedNode cells n := by
      intro n
      rw [a4 n, usedNode_iff]
      constructor
      · rintro ⟨k, rfl, v, hv, hv1⟩
        have hk := (List.getElem?_eq_some_iff.mp hv).1
        rw [hval k (by omega)] at hv
        by_cases hm : (k : Int) ∈ allNodes cells
        · exact ⟨by omega, hm⟩
        · rw [if_neg hm] at hv; exact absurd (Option.some.inj hv).symm hv1
      · rintro ⟨h0, hm⟩
        have hlt := hn n (usedNode_iff.mpr ⟨h0, hm⟩)
        refine ⟨n.toNat, by omega, 1, ?_, by omega⟩
        rw [hval n.toNat (by omega), if_pos (by rwa [show ((n.toNat : Nat) : Int) = n by omega])]
    refine ⟨accVisit 0 tr, keptPositions tr, ?_, a3, hmem, by simp [h2], a1, fun k hk hnk => ?_⟩
    · rw [hcount tr]
      intro v hv
      obtain ⟨k, hk⟩ := List.mem_iff_getElem?.mp hv
      have hkl := (List.getElem?_eq_some_iff.mp hk).1
      rw [hval k (by omega)] at hk
      rw [← Option.some.inj hk]
      split <;> simp
    · obtain ⟨v, hv⟩ : ∃ v, (accVisit 0 tr)[k]? = some v := ⟨_, List.getElem?_eq_getElem (by simp; omega)⟩
      rcases a2 k v hv with h0 | rfl
      · obtain ⟨j, rfl⟩ := Int.eq_ofNat_of_zero_le h0
        exact absurd (List.mem_of_getElem? ((a1 k j).mp hv)) hnk
      · exact hv
  · rintro ⟨n, hn, hl⟩
    rw [m2 ⟨n, (usedNode_iff.mp hn).2, hl⟩]; rfl

example : getNodeIdsInUse 7 [3, 0, 5, 2, 31, 1, 2, 5, -1, 4, 5, 1] [0, 4, 12] = .ok ([0, 1, 2, -1, 3, 4, -1], 5) := by decide

/-! ## Counts per cell -/

theorem forCells_push {conn connI : List Int} {cells : List Cell} (h : IsMesh conn connI cells) (g : Cell → Int) (f : Nat → Cell → List Int → M (List Int))
    (hf : ∀ i, ∀ c ∈ cells, ∀ r, f i c r = .ok (r ++ [g c])) : forCells conn connI [] f = .ok (cells.map g) := by
  obtain ⟨r, h1, h2⟩ := wp_exists (wp_forCells h (E := False) (s := []) (f := f) (fun i r => r = (cells.take i).map g) rfl (by
    rintro i hi r rfl
    rw [hf i _ (List.getElem_mem hi)]
    show _ = _
    rw [List.take_succ_eq_append_getElem hi, List.map_append]; rfl))
  rw [h1, h2, List.take_length]

theorem filter_nonneg_length {l : List Int} (hl : ∀ n ∈ l, 0 ≤ n ∨ n = -1) :
    ((l.filter fun n => decide (n ≥ 0)).length : Int) = (l.length : Int) - (l.count (-1) : Int) := by
  induction l with
  | nil => rfl
  | cons x l ih =>
    have := ih fun n hn => hl n (by simp [hn])
    rcases hl x (by simp) with h | rfl
    · rw [List.filter_cons_of_pos (by simpa using h), List.count_cons_of_ne (by omega)]
      simp only [List.length_cons]; omega
    · rw [List.filter_cons_of_neg (by simp)]
      simp only [List.count_cons_self, List.length_cons]; omega

/-- C54: the three counts of the cells of a consistent mesh: number of nodes, number of distinct nodes, number of faces (sides
in 2D). -/
theorem C54_counts {conn connI : List Int} {cells : List Cell} (h : IsMesh conn connI cells) {dim : Int} {nbNodes : Nat}
    (hg : ∀ c ∈ cells, GoodCell dim nbNodes c) :
    computeNbOfNodesPerCell conn connI = .ok (cells.map fun c => (c.nodeIds.length : Int)) ∧
    computeEffectiveNbOfNodesPerCell conn connI = .ok (cells.map fun c => (c.nodeIds.dedup.length : Int)) ∧
    ∃ r, computeNbOfFacesPerCell conn connI = .ok r ∧ r.length = cells.length ∧
      ∀ i (hi : i < cells.length), ∀ cm, getCellModel cells[i].type = .ok cm → r[i]? = some (cm.numberOfSons cells[i].nodes : Int) := by
  refine ⟨?_, ?_, ?_⟩
  · refine forCells_push h _ _ fun i c hc r => ?_
    obtain ⟨-, -, h3⟩ := hg c hc
    congr 3
    rw [Cell.nodeIds, filter_nonneg_length fun n hn => (h3 n hn).elim (fun h => Or.inl h.1) (fun h => Or.inr h.1)]
    by_cases ht : c.type = 31
    · rw [if_neg (by simp [ht])]
    · rw [if_pos ht, List.count_eq_zero_of_not_mem]
      · simp
      · intro hm
        rcases h3 _ hm with h | h
        · omega
        · exact ht h.2
  · refine forCells_push h _ _ fun i c hc r => ?_
    obtain ⟨-, -, h3⟩ := hg c hc
    dsimp only
    congr 3
    have hs : StrictSorted (setInsertAll [] c.nodes) := sorted_setInsertAll List.Pairwise.nil
    have hm : ∀ x, x ∈ setInsertAll [] c.nodes ↔ x ∈ c.nodes := fun x => by rw [mem_setInsertAll]; simp
    have hlen : ∀ s : List Int, s.Nodup → (∀ x, x ∈ s ↔ x ∈ c.nodeIds) → (s.length : Int) = (c.nodeIds.dedup.length : Int) := by
      intro s hs hm
      have : s.Perm c.nodeIds.dedup := (List.perm_ext_iff_of_nodup hs (List.nodup_dedup _)).mpr fun x => by rw [hm x, List.mem_dedup]
      rw [this.length_eq]
    by_cases ht : c.type = 31
    · rw [if_neg (by simp [ht])]
      refine hlen _ (hs.nodup.erase _) fun x => ?_
      rw [hs.nodup.mem_erase_iff, hm x, Cell.nodeIds, List.mem_filter]
      constructor
      · rintro ⟨h1, h2⟩
        rcases h3 x h2 with h | h
        · exact ⟨h2, by simpa using h.1⟩
        · exact absurd h.1 h1
      · rintro ⟨h1, h2⟩
        have : 0 ≤ x := by simpa using h2
        exact ⟨by omega, h1⟩
    · rw [if_pos ht]
      refine hlen _ hs.nodup fun x => ?_
      rw [hm x, Cell.nodeIds, List.mem_filter]
      constructor
      · intro h2
        rcases h3 x h2 with h | h
        · exact ⟨h2, by simpa using h.1⟩
        · exact absurd h.2 ht
      · exact fun h => h.1
  · have hcm : ∀ c ∈ cells, ∃ cm, getCellModel c.type = .ok cm := fun c hc => by
      obtain ⟨⟨cm, h1, _⟩, _⟩ := hg c hc
      exact ⟨cm, h1⟩
    let g : Cell → Int := fun c => match getCellModel c.type with
      | .ok cm => (cm.numberOfSons c.nodes : Int)
      | .error _ => 0
    refine ⟨cells.map g, forCells_push h g _ fun i c hc r => ?_, by simp, fun i hi cm hcm => ?_⟩
    · obtain ⟨cm, hcm⟩ := hcm c hc
      simp only [hcm, ok_bind, g]
    · rw [List.getElem?_map, List.getElem?_eq_getElem hi]
      simp only [Option.map_some, g, hcm]

example : (∀ c ∈ ([⟨3, [0, 5, 2]⟩, ⟨5, [1, 2, 5, 4, 4]⟩] : List Cell), FitsType 2 c.type c.nodes.length ∧
      (∀ n ∈ c.nodes, 0 ≤ n ∧ n < 6) ∧ c.type ≠ 32) ∧
    computeNbOfNodesPerCell [3, 0, 5, 2, 5, 1, 2, 5, 4, 4] [0, 4, 10] = .ok [3, 5] ∧
    computeEffectiveNbOfNodesPerCell [3, 0, 5, 2, 5, 1, 2, 5, 4, 4] [0, 4, 10] = .ok [3, 4] ∧
    computeNbOfFacesPerCell [3, 0, 5, 2, 5, 1, 2, 5, 4, 4] [0, 4, 10] = .ok [3, 5] := by
  refine ⟨?_, by decide, by decide, by decide⟩
  intro c hc
  simp only [List.mem_cons, List.not_mem_nil, or_false] at hc
  rcases hc with rfl | rfl
  · exact ⟨⟨_, rfl, by decide, by decide⟩, by decide, by decide⟩
  · exact ⟨⟨_, rfl, by decide, by decide⟩, by decide, by decide⟩

/-! ## C55: renumbering the nodes in the connectivity -/

/-- The cell whose nodes are renumbered by `g`; the separators stay. -/
def Cell.mapNodes (g : Int → Int) (c : Cell) : Cell := ⟨c.type, c.nodes.map fun n => if n ≥ 0 then g n else n⟩

theorem skyIdx_congr {α β : Type} {g : List (List α)} {g' : List (List β)} (h : g.map List.length = g'.map List.length) : skyIdx g = skyIdx g' := by
  have := congrArg (List.map (fun n : Nat => (n : Int))) h
  rw [List.map_map, List.map_map] at this
  rw [skyIdx_offs, skyIdx_offs]
  exact congrArg offs this

theorem mapNodesInConn_spec {conn connI : List Int} {cells : List Cell} (h : IsMesh conn connI cells) (f : Int → M Int) (g : Int → Int)
    (hf : ∀ c ∈ cells, ∀ n ∈ c.nodes, 0 ≤ n → f n = .ok (g n)) :
    ∃ conn', mapNodesInConn conn connI f = .ok conn' ∧ IsMesh conn' connI (cells.map (Cell.mapNodes g)) := by
  have hl := h.length
  unfold mapNodesInConn
  rw [show connI.length - 1 = cells.length by omega]
  let mix := fun i => (cells.take i).map (Cell.mapNodes g) ++ cells.drop i
  have hidx : ∀ i, skyIdx ((mix i).map Cell.row) = connI := by
    intro i
    rw [h.2]
    apply skyIdx_congr
    rw [List.map_map, List.map_map]
    conv_rhs => rw [← List.take_append_drop i cells]
    simp only [mix, List.map_append, List.map_map]
    congr 1
    apply List.map_congr_left
    intro c _
    simp [Cell.row, Cell.mapNodes]
  have main := wp_loop (E := False) (n := cells.length) (s := conn) (f := fun i conn => do
      let a ← rd connI i
      let b ← rd connI ((i : Int) + 1)
      if 0 ≤ a ∧ a + 1 ≤ b ∧ b ≤ conn.length then do
        let w ← (slice conn (a + 1) b).mapM fun n => if n ≥ 0 then f n else .ok n
        .ok (conn.take (a + 1).toNat ++ w ++ conn.drop b.toNat)
      else undef) (fun i c => c = ((mix i).map Cell.row).flatten) (by simp [mix]; exact h.1) (by
    rintro i hi c hc
    have hm : IsMesh c connI (mix i) := ⟨hc, (hidx i).symm⟩
    have hmi : i < (mix i).length := by simp [mix]; omega
    have hget : (mix i)[i] = cells[i] := by
      simp only [mix]
      rw [List.getElem_append_right (by simp)]
      simp [Nat.min_eq_left (Nat.le_of_lt hi)]
    obtain ⟨a, b, h1, h2, h3, h4, h5, h6, h7, h8, h9, h10⟩ := hm.get hmi
    rw [h4, ok_bind, h5, ok_bind, if_pos ⟨h1, h2, h3⟩, h7, hget]
    have hw : (cells[i].nodes.mapM fun n => if n ≥ 0 then f n else (.ok n : M Int)) = .ok (cells[i].mapNodes g).nodes := by
      have : ∀ l : List Int, (∀ n ∈ l, 0 ≤ n → f n = .ok (g n)) →
          (l.mapM fun n => if n ≥ 0 then f n else (.ok n : M Int)) = .ok (l.map fun n => if n ≥ 0 then g n else n) := by
        intro l
        induction l with
        | nil => intro _; rfl
        | cons x l ih =>
          intro hx
          rw [List.mapM_cons, ih fun n hn => hx n (by simp [hn])]
          by_cases h0 : x ≥ 0
          · rw [if_pos h0, hx x (by simp) h0]; simp [h0, ok_bind, pure, Except.pure]
          · rw [if_neg h0]; simp [h0, ok_bind, pure, Except.pure]
      exact this _ (hf _ (List.getElem_mem hi))
    rw [hw, ok_bind]
    show _ = _
    rw [hget] at h10
    have hdec : mix i = (mix i).take i ++ cells[i] :: cells.drop (i + 1) := by
      simp only [mix]
      rw [List.take_left' (by rw [List.length_map, List.length_take]; omega), List.drop_eq_getElem_cons hi]
    have hdec' : mix (i + 1) = (mix i).take i ++ cells[i].mapNodes g :: cells.drop (i + 1) := by
      simp only [mix]
      rw [List.take_left' (by rw [List.length_map, List.length_take]; omega), List.take_succ_eq_append_getElem hi]
      rw [List.map_append, List.append_assoc]; rfl
    have hpre : (((mix i).take i).map Cell.row).flatten.length = a.toNat := by
      rw [h9, List.map_take]; simp
    rw [hdec', hc]
    conv_lhs => rw [hdec]
    simp only [List.map_append, List.map_cons, List.flatten_append, List.flatten_cons]
    set P := (((mix i).take i).map Cell.row).flatten with hP
    set S := ((cells.drop (i + 1)).map Cell.row).flatten with hS
    have e1 : (P ++ (cells[i].row ++ S)).take (a + 1).toNat = P ++ [cells[i].type] := by
      rw [show (a + 1).toNat = P.length + 1 by omega, List.take_append, List.take_of_length_le (by omega), Nat.add_sub_cancel_left]
      simp [Cell.row]
    have e2 : (P ++ (cells[i].row ++ S)).drop b.toNat = S := by
      rw [show b.toNat = P.length + cells[i].row.length by simp [Cell.row]; omega, ← List.append_assoc]
      rw [← List.length_append, List.drop_left]
    rw [e1, e2]
    simp [Cell.row, Cell.mapNodes])
  obtain ⟨r, h1, h2⟩ := wp_exists main
  refine ⟨r, h1, ?_⟩
  rw [h2]
  have := hidx cells.length
  simp only [mix, List.take_length, List.drop_length, List.append_nil] at this ⊢
  exact ⟨rfl, this.symm⟩

/-- C55: `renumberNodesInConn` replaces each node by its image and nothing else, when the array covers the nodes of the cells. -/
theorem C55_renumberNodesInConn {conn connI : List Int} {cells : List Cell} (h : IsMesh conn connI cells) (o2n : List Int)
    (hn : ∀ n, UsedNode cells n → n < o2n.length) :
    ∃ conn', renumberNodesInConn conn connI o2n = .ok conn' ∧ IsMesh conn' connI (cells.map (Cell.mapNodes fun n => o2n.getD n.toNat 0)) := by
  refine mapNodesInConn_spec h _ _ fun c hc n hn' h0 => ?_
  have := hn n ⟨h0, c, hc, hn'⟩
  rw [rd_ok h0 (by omega), List.getD_eq_getElem?_getD, List.getElem?_eq_getElem (by omega)]; rfl

/-- C55: `shiftNodeNumbersInConn` (and `renumberNodesWithOffsetInConn`) adds the offset to each node. -/
theorem C55_shift {conn connI : List Int} {cells : List Cell} (h : IsMesh conn connI cells) (delta : Int) :
    ∃ conn', shiftNodeNumbersInConn conn connI delta = .ok conn' ∧ IsMesh conn' connI (cells.map (Cell.mapNodes fun n => n + delta)) :=
  mapNodesInConn_spec h _ _ fun _ _ _ _ _ => rfl

/-- C55: shifting then shifting back gives the same mesh when the nodes stay nonnegative in between. -/
theorem C55_shift_back {conn connI : List Int} {cells : List Cell} (h : IsMesh conn connI cells) (delta : Int)
    (hd : ∀ n, UsedNode cells n → 0 ≤ n + delta) :
    ∃ conn', shiftNodeNumbersInConn conn connI delta = .ok conn' ∧ shiftNodeNumbersInConn conn' connI (-delta) = .ok conn := by
  obtain ⟨c1, h1, h2⟩ := C55_shift h delta
  obtain ⟨c2, h3, h4⟩ := C55_shift h2 (-delta)
  refine ⟨c1, h1, ?_⟩
  rw [h3, h.1, h4.1]
  congr 3
  rw [List.map_map]
  conv_rhs => rw [← List.map_id cells]
  apply List.map_congr_left
  intro c hc
  simp only [Function.comp_apply, Cell.mapNodes, id, List.map_map]
  congr 1
  conv_rhs => rw [← List.map_id c.nodes]
  apply List.map_congr_left
  intro n hn
  simp only [Function.comp_apply, id]
  by_cases h0 : n ≥ 0
  · have := hd n ⟨h0, c, hc, hn⟩
    rw [if_pos h0, if_pos (by omega)]; omega
  · rw [if_neg h0, if_neg h0]

/-- C55: `duplicateNodesInConn` replaces the node `ids[k]` by `offset + k` (the last `k` if the node is repeated in `ids`) and
leaves the other nodes. -/
theorem C55_duplicate {conn connI : List Int} {cells : List Cell} (h : IsMesh conn connI cells) (ids : List Int) (offset : Int) :
    ∃ g conn', duplicateNodesInConn conn connI ids offset = .ok conn' ∧ IsMesh conn' connI (cells.map (Cell.mapNodes g)) ∧
      (∀ n, n ∉ ids → g n = n) ∧
      ∀ (k : Nat) (n : Int), ids[k]? = some n → (∀ k', k < k' → ids[k']? ≠ some n) → g n = offset + k := by
  let m := ids.zipIdx.foldl (fun m p => mapSet m p.1 (offset + (p.2 : Int))) ([] : List (Int × Int))
  obtain ⟨conn', h1, h2⟩ := mapNodesInConn_spec h (fun n => .ok ((mapFind m n).getD n)) (fun n => (mapFind m n).getD n) fun _ _ _ _ _ => rfl
  have key : ∀ l : List Int, (∀ n, n ∉ l → mapFind (l.zipIdx.foldl (fun m p => mapSet m p.1 (offset + (p.2 : Int))) ([] : List (Int × Int))) n = none) ∧
      ∀ (k : Nat) (n : Int), l[k]? = some n → (∀ k', k < k' → l[k']? ≠ some n) →
        mapFind (l.zipIdx.foldl (fun m p => mapSet m p.1 (offset + (p.2 : Int))) ([] : List (Int × Int))) n = some (offset + k) := by
    intro l
    induction l using List.reverseRecOn with
    | nil => exact ⟨fun n _ => rfl, by simp⟩
    | append_singleton l x ih =>
      obtain ⟨i1, i2⟩ := ih
      rw [List.zipIdx_append, List.foldl_append]
      simp only [List.zipIdx_singleton, List.foldl_cons, List.foldl_nil, mapFind_set, Nat.zero_add]
      constructor
      · intro n hn
        simp only [List.mem_append, List.mem_singleton, not_or] at hn
        rw [if_neg hn.2]
        exact i1 n hn.1
      · intro k n hk hlast
        by_cases hnx : n = x
        · subst hnx
          rw [if_pos rfl]
          have hkl := (List.getElem?_eq_some_iff.mp hk).1
          have : k = l.length := by
            by_contra hne
            exact hlast l.length (by simp at hkl; omega) (by simp)
          rw [this]
        · rw [if_neg hnx]
          have hkl : k < l.length := by
            have hkl := (List.getElem?_eq_some_iff.mp hk).1
            by_contra hge
            have : k = l.length := by simp at hkl; omega
            subst this
            simp at hk; exact hnx hk.symm
          refine i2 k n (by rwa [List.getElem?_append_left hkl] at hk) fun k' hk' hc => hlast k' hk' ?_
          rw [List.getElem?_append_left (List.getElem?_eq_some_iff.mp hc).1]; exact hc
  refine ⟨fun n => (mapFind m n).getD n, conn', h1, h2, fun n hn => ?_, fun k n hk hlast => ?_⟩
  · simp only [m, (key ids).1 n hn]; rfl
  · simp only [m, (key ids).2 k n hk hlast]; rfl

example : duplicateNodesInConn [3, 0, 8, 2, 31, 1, 2, 3, -1, 4, 8, 1] [0, 4, 12] [8, 1] 100 =
    .ok [3, 0, 100, 2, 31, 101, 2, 3, -1, 4, 100, 101] := by decide

theorem exists_map_some {α : Type} {l : List (Option α)} (h : ∀ k, k < l.length → ∃ a, l[k]? = some (some a)) : ∃ r : List α, l = r.map some := by
  induction l with
  | nil => exact ⟨[], rfl⟩
  | cons x l ih =>
    obtain ⟨a, ha⟩ := h 0 (by simp)
    obtain ⟨r, hr⟩ := ih fun k hk => by
      obtain ⟨b, hb⟩ := h (k + 1) (by simpa using hk)
      exact ⟨b, by simpa using hb⟩
    refine ⟨a :: r, ?_⟩
    simp only [List.getElem?_cons_zero, Option.some.injEq] at ha
    rw [ha, hr]; rfl

/-- C55: `zipCoords` keeps exactly the coordinates of the nodes in use, in the same order, and renumbers the cells accordingly:
no cell changes geometrically. -/
theorem C55_zipCoords {α : Type} {conn connI : List Int} {cells : List Cell} (h : IsMesh conn connI cells) (coords : DArr α)
    (hn : ∀ n, UsedNode cells n → n < coords.nt) :
    ∃ (nc : List α) (conn' tr used : List Int), zipCoordsTraducer coords conn connI = .ok (nc.map some, conn', tr, (used.length : Int)) ∧
      StrictSorted used ∧ (∀ n, n ∈ used ↔ UsedNode cells n) ∧ nc.length = used.length * coords.nc ∧
      (∀ (j : Nat) (n : Nat), used[j]? = some (n : Int) → tup coords.nc nc j = tup coords.nc coords.data n) ∧
      ∃ g, IsMesh conn' connI (cells.map (Cell.mapNodes g)) ∧ (∀ n, UsedNode cells n → 0 ≤ g n ∧ used[(g n).toNat]? = some n) ∧
        ∀ j, j < used.length → UsedNode (cells.map (Cell.mapNodes g)) j := by
  obtain ⟨tr, used, h1, h2, h3, h4, h5, h6⟩ := (C54_getNodeIdsInUse h coords.nt).1 hn
  have hlt : ∀ v ∈ tr, v < used.length ∧ (0 ≤ v ∨ v = -1) := by
    intro v hv
    obtain ⟨k, hk⟩ := List.mem_iff_getElem?.mp hv
    have hkl := (List.getElem?_eq_some_iff.mp hk).1
    by_cases hu : (k : Int) ∈ used
    · obtain ⟨j, hj⟩ := List.mem_iff_getElem?.mp hu
      have := (h5 k j).mpr hj
      rw [this] at hk
      have := (List.getElem?_eq_some_iff.mp hj).1
      have := Option.some.inj hk
      omega
    · rw [h6 k (by omega) hu] at hk
      have := Option.some.inj hk
      omega
  obtain ⟨r, r1, r2, r3, -⟩ := C06_injective coords tr used.length h4 (fun v hv => (hlt v hv).1) (by
    intro i j v hv hi hj
    obtain ⟨v, rfl⟩ := Int.eq_ofNat_of_zero_le hv
    have e1 := (h5 i v).mp hi
    have e2 := (h5 j v).mp hj
    rw [e1] at e2
    have := Option.some.inj e2
    omega)
  have hused : ∀ (j n : Nat), used[j]? = some (n : Int) → tup coords.nc r j = (tup coords.nc coords.data n).map some :=
    fun j n hjn => r3 n j ((h5 n j).mpr hjn)
  have husedNat : ∀ j, j < used.length → ∃ n : Nat, n < coords.nt ∧ used[j]? = some (n : Int) := by
    intro j hj
    have hm := (h3 _).mp (List.getElem_mem hj)
    have h0 := hm.1
    have hlt := hn _ hm
    exact ⟨used[j].toNat, by omega, by rw [List.getElem?_eq_getElem hj]; congr 1; omega⟩
  obtain ⟨nc, rfl⟩ : ∃ nc : List α, r = nc.map some := by
    apply exists_map_some
    intro k hk
    rw [r2] at hk
    have hnc : 0 < coords.nc := by
      rcases Nat.eq_zero_or_pos coords.nc with h0 | h0
      · rw [h0] at hk; simp at hk
      · exact h0
    have hj : k / coords.nc < used.length := by rw [Nat.div_lt_iff_lt_mul hnc]; exact hk
    obtain ⟨n, hnlt, hn'⟩ := husedNat _ hj
    have e1 := congrArg (fun t => t[k % coords.nc]?) (hused _ n hn')
    simp only [tup_getElem?, Nat.mod_lt k hnc, if_true, List.getElem?_map] at e1
    rw [show k / coords.nc * coords.nc + k % coords.nc = k by rw [Nat.mul_comm]; exact Nat.div_add_mod k coords.nc] at e1
    have hin : n * coords.nc + k % coords.nc < coords.data.length := by
      rw [coords.wf]
      have := Nat.mul_le_mul_right coords.nc (show n + 1 ≤ coords.nt from hnlt)
      rw [Nat.succ_mul] at this
      have := Nat.mod_lt k hnc
      omega
    rw [List.getElem?_eq_getElem hin] at e1
    exact ⟨_, e1⟩
  obtain ⟨conn', c1, c2⟩ := C55_renumberNodesInConn h tr (fun n hn' => by rw [h4]; exact hn n hn')
  have hg : ∀ n, UsedNode cells n → 0 ≤ tr.getD n.toNat 0 ∧ used[(tr.getD n.toNat 0).toNat]? = some n := by
    intro n hn'
    obtain ⟨j, hj⟩ := List.mem_iff_getElem?.mp ((h3 n).mpr hn')
    obtain ⟨n, rfl⟩ := Int.eq_ofNat_of_zero_le hn'.1
    have e := (h5 n j).mpr hj
    rw [Int.toNat_natCast, List.getD_eq_getElem?_getD, e]
    exact ⟨by simp, by simpa using hj⟩
  refine ⟨nc, conn', tr, used, ?_, h2, h3, by simpa using r2, fun j n hjn => ?_, _, c2, hg, fun j hj => ?_⟩
  · unfold zipCoordsTraducer
    rw [h1, ok_bind]
    dsimp only
    rw [Int.toNat_natCast, r1, ok_bind, c1, ok_bind]
  · have := hused j n hjn
    rw [tup_map] at this
    exact List.map_injective_iff.mpr (Option.some_injective _) this
  · obtain ⟨n, -, hn'⟩ := husedNat j hj
    have hu := (h3 n).mp (List.mem_of_getElem? hn')
    obtain ⟨h0, c, hc, hm⟩ := hu
    refine ⟨by omega, c.mapNodes _, List.mem_map_of_mem hc, ?_⟩
    simp only [Cell.mapNodes, List.mem_map]
    refine ⟨n, hm, ?_⟩
    rw [if_pos (by omega), Int.toNat_natCast, List.getD_eq_getElem?_getD, (h5 n j).mpr hn']
    rfl

example : zipCoordsTraducer (⟨5, 2, [0, 1, 2, 3, 4, 5, 6, 7, 8, 9], rfl⟩ : DArr Nat) [3, 0, 4, 1, 3, 4, 3, 1] [0, 4, 8] =
    .ok ([0, 1, 2, 3, 6, 7, 8, 9].map some, [3, 0, 3, 1, 3, 3, 2, 1], [0, 1, -1, 2, 3], 4) := by decide

end
end MC
