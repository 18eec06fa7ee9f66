import Verif.UMesh
import Verif.SkyOpsProps
import Verif.CellModelProps

/-!
# Properties of unstructured meshes: construction, consistency, reverse connectivity, nodes in use (C51–C54)

Specification: a connectivity represents a list of cells (`IsMesh`).
-/

namespace MC
section

/-! ## Vocabulary -/

/-- What a cell writes in the connectivity. -/
def Cell.row (c : Cell) : List Int := c.type :: c.nodes

/-- The arrays `(conn, connI)` hold the cells `cells`, in this order. -/
def IsMesh (conn connI : List Int) (cells : List Cell) : Prop := IsSky conn connI (cells.map Cell.row)

instance (conn connI : List Int) (cells : List Cell) : Decidable (IsMesh conn connI cells) :=
  inferInstanceAs (Decidable (_ ∧ _))

/-- The nodes a cell refers to (the separators of the faces of a polyhedron are not nodes). -/
def Cell.nodeIds (c : Cell) : List Int := c.nodes.filter fun n => decide (n ≥ 0)

theorem IsMesh.length {conn connI : List Int} {cells : List Cell} (h : IsMesh conn connI cells) : connI.length = cells.length + 1 := by
  rw [IsSky.idx_length h, List.length_map]

theorem slice_succ (l : List Int) {a b : Int} (ha : 0 ≤ a) (hab : a < b) : slice l (a + 1) b = (slice l a b).tail := by
  unfold slice
  rw [show (a + 1).toNat = a.toNat + 1 by omega, show (b - a).toNat = (b - (a + 1)).toNat + 1 by omega,
    ← List.drop_one, List.drop_take, List.drop_drop]
  simp

/-- The window of cell `i`. -/
theorem IsMesh.get {conn connI : List Int} {cells : List Cell} (h : IsMesh conn connI cells) {i : Nat} (hi : i < cells.length) :
    ∃ a b : Int, 0 ≤ a ∧ a + 1 ≤ b ∧ b ≤ conn.length ∧ rd connI (i : Int) = .ok a ∧ rd connI ((i : Int) + 1) = .ok b ∧
      rd conn a = .ok cells[i].type ∧ slice conn (a + 1) b = cells[i].nodes ∧ slice conn a b = cells[i].row ∧
      a = (((cells.map Cell.row).take i).flatten.length : Nat) ∧ b - a = cells[i].nodes.length + 1 := by
  have hk : i < (cells.map Cell.row).length := by simpa using hi
  obtain ⟨h1, h2, h3, h4⟩ := IsSky.get h hk
  have hrow : (cells.map Cell.row)[i] = cells[i].row := by simp
  rw [hrow] at h2 h3 h4
  have hlen : cells[i].row.length = cells[i].nodes.length + 1 := by simp [Cell.row]
  set a : Nat := ((cells.map Cell.row).take i).flatten.length with ha
  refine ⟨a, (a : Int) + cells[i].row.length, by omega, by omega, h3, rd_of_getElem? (by omega) (by simpa using h1),
    rd_of_getElem? (by omega) (by rw [show ((i : Int) + 1).toNat = i + 1 by omega]; exact h2), ?_, ?_, h4, rfl, by omega⟩
  · apply rd_of_getElem? (by omega)
    have : (slice conn (a : Int) ((a : Int) + cells[i].row.length))[0]? = some cells[i].type := by rw [h4]; rfl
    unfold slice at this
    rw [List.getElem?_take_of_lt (by omega), List.getElem?_drop] at this
    simpa using this
  · rw [slice_succ conn (by omega) (by omega), h4]; rfl

theorem rdCell_ok {conn connI : List Int} {cells : List Cell} (h : IsMesh conn connI cells) {i : Nat} (hi : i < cells.length) :
    rdCell conn connI (i : Int) = .ok cells[i] := by
  obtain ⟨a, b, h0, h1, h2, h3, h4, h5, h6, -⟩ := h.get hi
  unfold rdCell
  rw [h3, ok_bind, h4, ok_bind, h5, ok_bind, if_pos ⟨h1, h2⟩, h6]

theorem wp_forCells {σ : Type} {conn connI : List Int} {cells : List Cell} (h : IsMesh conn connI cells) {s : σ}
    {f : Nat → Cell → σ → M σ} {E : Prop} (I : Nat → σ → Prop) (h0 : I 0 s)
    (hs : ∀ i (hi : i < cells.length), ∀ s, I i s → wp (f i cells[i] s) (I (i + 1)) E) :
    wp (forCells conn connI s f) (I cells.length) E := by
  have hl := h.length
  unfold forCells
  rw [show connI.length - 1 = cells.length by omega]
  refine wp_loop I h0 fun i hi s hI => ?_
  rw [rdCell_ok h hi, ok_bind]
  exact hs i hi s hI

/-- A loop on the cells whose body does not use the number of the cell. -/
theorem forCells_eq_foldlM {σ : Type} {conn connI : List Int} {cells : List Cell} (h : IsMesh conn connI cells) (s : σ)
    (f : Cell → σ → M σ) : forCells conn connI s (fun _ => f) = cells.foldlM (fun s c => f c s) s := by
  have hl := h.length
  unfold forCells
  rw [show connI.length - 1 = cells.length by omega]
  have : ∀ k, k ≤ cells.length → loop k s (fun i s => do
      let c ← rdCell conn connI i
      f c s) = (cells.take k).foldlM (fun s c => f c s) s := by
    intro k
    induction k with
    | zero => intro _; rfl
    | succ k ih =>
      intro hk
      rw [loop_succ, ih (by omega), List.take_succ_eq_append_getElem (by omega), List.foldlM_append]
      congr 1
      funext s'
      rw [rdCell_ok h (show k < cells.length by omega), ok_bind]
      simp
  rw [this _ (le_refl _), List.take_length]

/-! ## C51: a mesh under every history of calls -/

/-- What the user thinks of: dimension, number of nodes, list of cells. -/
structure AMesh where
  dim : Int := -2
  nbNodes : Option Nat := none
  cells : Option (List Cell) := none

/-- The type `t` exists, has dimension `d`, and accepts `n` nodes. -/
def FitsType (d : Int) (t : Int) (n : Nat) : Prop :=
  ∃ cm, getCellModel t = .ok cm ∧ (cm.dim : Int) = d ∧ (cm.dyn = false → n = cm.nbPts)

open Classical in
/-- The effect of one call on what the user thinks of, `none` when the call is to be refused. -/
noncomputable def AMesh.step (a : AMesh) : UOp → Option AMesh
  | .setMeshDimension d => if -1 ≤ d ∧ d ≤ 3 then some { a with dim := d } else none
  | .setCoords n => some { a with nbNodes := some n }
  | .allocateCells n => if 0 ≤ n then some { a with cells := some [] } else none
  | .insertNextCell t nodes =>
    match a.cells with
    | some cs => if FitsType a.dim t nodes.length then some { a with cells := some (cs ++ [⟨t, nodes⟩]) } else none
    | none => none

/-- A history: refused calls do nothing. -/
noncomputable def AMesh.run (a : AMesh) : List UOp → AMesh × List Bool
  | [] => (a, [])
  | op :: ops =>
    match a.step op with
    | some a' => ((AMesh.run a' ops).1, true :: (AMesh.run a' ops).2)
    | none => ((AMesh.run a ops).1, false :: (AMesh.run a ops).2)

/-- `u` is in the state `a`. -/
structure Represents (u : UMesh) (a : AMesh) : Prop where
  dim : u.dim = a.dim
  nodes : u.nbNodes = a.nbNodes
  arrays : match a.cells, u.arrays with
    | none, none => True
    | some cs, some (conn, connI) => IsMesh conn connI cs
    | _, _ => False
  sorted : StrictSorted u.types
  types : ∀ t, t ∈ u.types ↔ ∃ cs, a.cells = some cs ∧ ∃ c ∈ cs, c.type = t

theorem IsMesh.snoc {conn connI : List Int} {cells : List Cell} (h : IsMesh conn connI cells) (c : Cell) :
    IsMesh (conn ++ c.row) (connI ++ [(conn.length : Int) + c.nodes.length + 1]) (cells ++ [c]) := by
  obtain ⟨h1, h2⟩ := h
  refine ⟨by simp [h1], ?_⟩
  rw [List.map_append, List.map_singleton, skyIdx_snoc, h2, h1]
  congr 2

theorem umesh_step_spec {u : UMesh} {a : AMesh} (h : Represents u a) (op : UOp) :
    (∃ u' a', u.step op = .ok u' ∧ a.step op = some a' ∧ Represents u' a') ∨ (u.step op = .error .exn ∧ a.step op = none) := by
  obtain ⟨hd, hn, ha, hs, ht⟩ := h
  cases op with
  | setMeshDimension d =>
    by_cases hc : -1 ≤ d ∧ d ≤ 3
    · exact Or.inl ⟨_, _, if_neg (by omega), if_pos hc, rfl, hn, ha, hs, ht⟩
    · exact Or.inr ⟨if_pos (by omega), if_neg hc⟩
  | setCoords n => exact Or.inl ⟨_, _, rfl, rfl, hd, rfl, ha, hs, ht⟩
  | allocateCells n =>
    by_cases hc : 0 ≤ n
    · refine Or.inl ⟨_, _, if_neg (by omega), if_pos hc, hd, hn, ⟨rfl, rfl⟩, List.Pairwise.nil, fun t => ?_⟩
      simp
    · exact Or.inr ⟨if_pos (by omega), if_neg hc⟩
  | insertNextCell t nodes =>
    show (∃ u' a', u.insertNextCell t nodes = .ok u' ∧ _ ∧ _) ∨ (u.insertNextCell t nodes = .error .exn ∧ _)
    have hna : ¬ FitsType a.dim t nodes.length → a.step (.insertNextCell t nodes) = none := by
      intro hf
      unfold AMesh.step
      cases a.cells with
      | none => rfl
      | some cs => exact if_neg hf
    unfold UMesh.insertNextCell
    cases hcm : getCellModel t with
    | error e =>
      have he : e = .exn := by
        unfold getCellModel at hcm
        split at hcm
        · cases hcm
        · cases hcm; rfl
      subst he
      refine Or.inr ⟨rfl, hna ?_⟩
      rintro ⟨cm, h1, -⟩
      rw [hcm] at h1; cases h1
    | ok cm =>
      rw [ok_bind]
      have hfit : FitsType a.dim t nodes.length ↔ (cm.dim : Int) = u.dim ∧ ¬ (!cm.dyn ∧ nodes.length ≠ cm.nbPts) := by
        constructor
        · rintro ⟨cm', h1, h2, h3⟩
          rw [hcm] at h1; cases h1
          refine ⟨by rw [h2, hd], ?_⟩
          rintro ⟨h4, h5⟩
          exact h5 (h3 (by simpa using h4))
        · rintro ⟨h1, h2⟩
          refine ⟨cm, hcm, by rw [h1, hd], fun h3 => ?_⟩
          by_contra h4
          exact h2 ⟨by simp [h3], h4⟩
      cases hac : a.cells with
      | none =>
        rw [hac] at ha
        cases hua : u.arrays with
        | some p => rw [hua] at ha; exact absurd ha (by simp)
        | none => exact Or.inr ⟨rfl, by simp [AMesh.step, hac]⟩
      | some cs =>
        rw [hac] at ha
        cases hua : u.arrays with
        | none => rw [hua] at ha; exact absurd ha (by simp)
        | some p =>
          obtain ⟨conn, connI⟩ := p
          rw [hua] at ha
          simp only at ha ⊢
          by_cases hf : FitsType a.dim t nodes.length
          · have hf' := hfit.mp hf
            rw [if_pos hf'.1, if_neg hf'.2]
            have hl := ha.length
            have hback : rd connI ((connI.length : Int) - 1) = .ok (conn.length : Int) := by
              apply rd_of_getElem? (by omega)
              rw [show ((connI.length : Int) - 1).toNat = cs.length by omega]
              have h2 := ha.2
              rw [h2, skyIdx_getElem? _ (by simp), ha.1, List.take_of_length_le (by simp)]
            rw [hback, ok_bind]
            simp only [writeOnPlaceL]
            rw [if_neg (by omega), ok_bind]
            refine Or.inl ⟨_, { a with cells := some (cs ++ [⟨t, nodes⟩]) }, rfl, ?_, ?_⟩
            · simp only [AMesh.step, hac, if_pos hf]
            · have he : conn.take ((conn.length : Int)).toNat ++ t :: nodes ++ conn.drop ((conn.length : Int).toNat + 1 + nodes.length)
                  = conn ++ (Cell.mk t nodes).row := by
                rw [Int.toNat_natCast, List.take_length, List.drop_of_length_le (by omega), List.append_nil]
                rfl
              refine ⟨hd, hn, ?_, sorted_setInsert hs, fun t' => ?_⟩
              · simp only [he]
                exact ha.snoc ⟨t, nodes⟩
              · rw [mem_setInsert, ht t', hac]
                constructor
                · rintro (rfl | ⟨cs', h1, c, hc, rfl⟩)
                  · exact ⟨_, rfl, ⟨t', nodes⟩, by simp, rfl⟩
                  · cases h1
                    exact ⟨_, rfl, c, by simp [hc], rfl⟩
                · rintro ⟨cs', h1, c, hc, rfl⟩
                  cases h1
                  rcases List.mem_append.mp hc with hc | hc
                  · exact Or.inr ⟨_, rfl, c, hc, rfl⟩
                  · simp only [List.mem_singleton] at hc
                    subst hc; exact Or.inl rfl
          · refine Or.inr ⟨?_, hna hf⟩
            by_cases h1 : (cm.dim : Int) = u.dim
            · rw [if_pos h1]
              by_cases h2 : (!cm.dyn ∧ nodes.length ≠ cm.nbPts)
              · rw [if_pos h2]; rfl
              · exact absurd (hfit.mpr ⟨h1, h2⟩) hf
            · rw [if_neg h1]; rfl

/-- C51: from the creation of a mesh, under every sequence of calls to `setMeshDimension`, `setCoords`, `allocateCells` and
`insertNextCell`, the mesh holds exactly the cells inserted since the last allocation, in order, and the set of their types;
exactly the calls to be refused throw, and they change nothing.  No call is undefined. -/
theorem C51_history (ops : List UOp) :
    ∃ u, UMesh.run {} ops = .ok (u, (AMesh.run {} ops).2) ∧ Represents u (AMesh.run {} ops).1 := by
  have key : ∀ (ops : List UOp) (u : UMesh) (a : AMesh), Represents u a →
      ∃ u', UMesh.run u ops = .ok (u', (AMesh.run a ops).2) ∧ Represents u' (AMesh.run a ops).1 := by
    intro ops
    induction ops with
    | nil => intro u a h; exact ⟨u, rfl, h⟩
    | cons op ops ih =>
      intro u a h
      rcases umesh_step_spec h op with ⟨u', a', h1, h2, h3⟩ | ⟨h1, h2⟩
      · obtain ⟨u'', h4, h5⟩ := ih u' a' h3
        refine ⟨u'', ?_, ?_⟩
        · simp only [UMesh.run, h1, AMesh.run, h2, h4]; rfl
        · simpa only [AMesh.run, h2] using h5
      · obtain ⟨u'', h4, h5⟩ := ih u a h
        refine ⟨u'', ?_, ?_⟩
        · simp only [UMesh.run, h1, AMesh.run, h2, h4]; rfl
        · simpa only [AMesh.run, h2] using h5
  exact key ops {} {} ⟨rfl, rfl, trivial, List.Pairwise.nil, by simp⟩

example : ∃ u b, UMesh.run {} [.insertNextCell 3 [0, 1, 2], .setMeshDimension 2, .allocateCells 4, .insertNextCell 3 [0, 1, 2],
      .insertNextCell 3 [0, 1], .insertNextCell 14 [0, 1, 2, 3], .insertNextCell 5 [7, 6, 5, 4, 3]] = .ok (u, b) ∧
    u.arrays = some ([3, 0, 1, 2, 5, 7, 6, 5, 4, 3], [0, 4, 10]) ∧ u.types = [3, 5] ∧
    b = [false, true, true, true, false, false, true] := ⟨_, _, rfl, by decide⟩

/-- C51: the observers of a mesh. -/
theorem C51_observers {conn connI : List Int} {cells : List Cell} (h : IsMesh conn connI cells) :
    (∀ i (hi : i < cells.length), getTypeOfCell conn connI i = .ok cells[i].type ∧
      ∀ out, getNodeIdsOfCell conn connI i out = .ok (out ++ cells[i].nodeIds)) ∧
    (∀ i : Int, cells.length ≤ i → getTypeOfCell conn connI i = .error .exn) ∧
    (∀ t, getNumberOfCellsWithType conn connI t = .ok ((cells.countP fun c => decide (c.type = t) : Nat) : Int)) ∧
    (∀ dim t, (∃ cm, getCellModel t = .ok cm ∧ (cm.dim : Int) = dim) → ∃ r, giveCellsWithType dim conn connI t = .ok r ∧
      StrictSorted r ∧ ∀ x : Int, x ∈ r ↔ ∃ i, ∃ hi : i < cells.length, x = i ∧ cells[i].type = t) ∧
    (∃ s, computeTypes conn connI = .ok s ∧ StrictSorted s ∧ ∀ t, t ∈ s ↔ ∃ c ∈ cells, c.type = t) := by
  have hl := h.length
  refine ⟨fun i hi => ⟨?_, fun out => ?_⟩, fun i hi => ?_, fun t => ?_, fun dim t ht => ?_, ?_⟩
  · obtain ⟨a, b, -, -, -, h3, -, h5, -⟩ := h.get hi
    unfold getTypeOfCell
    rw [if_pos (by omega), h3, ok_bind, h5]
  · unfold getNodeIdsOfCell
    rw [rdCell_ok h hi, ok_bind]; rfl
  · exact if_neg (by omega)
  · have := wp_exists (wp_forCells h (E := False) (s := (0 : Int)) (f := fun _ c ret => .ok (if c.type = t then ret + 1 else ret))
      (fun i s => s = (((cells.take i).countP fun c => decide (c.type = t) : Nat) : Int)) rfl (by
        intro i hi s hI
        show _ = _
        rw [List.take_succ_eq_append_getElem hi, List.countP_append, hI]
        by_cases hc : cells[i].type = t <;> simp [hc]))
    obtain ⟨r, h1, h2⟩ := this
    rw [getNumberOfCellsWithType, h1, h2, List.take_length]
  · obtain ⟨cm, h1, h2⟩ := ht
    unfold giveCellsWithType
    rw [h1, ok_bind, if_neg (by simp [h2])]
    refine wp_exists (wp_mono (wp_forCells h (E := False) (fun k r => StrictSorted r ∧
      ∀ x : Int, x ∈ r ↔ ∃ i, ∃ hi : i < cells.length, i < k ∧ x = i ∧ cells[i].type = t) ⟨List.Pairwise.nil, by simp⟩ ?_) ?_ id)
    · rintro k hk r ⟨hr, hm⟩
      show _ ∧ _
      by_cases hc : cells[k].type = t
      · rw [if_pos hc]
        refine ⟨?_, fun x => ?_⟩
        · rw [StrictSorted, List.pairwise_append]
          refine ⟨hr, List.pairwise_singleton _ _, fun x hx y hy => ?_⟩
          rw [List.mem_singleton] at hy
          obtain ⟨i, _, h3, h4, _⟩ := (hm x).mp hx
          omega
        · rw [List.mem_append, hm x, List.mem_singleton]
          constructor
          · rintro (⟨i, hi, h3, h4, h5⟩ | rfl)
            · exact ⟨i, hi, by omega, h4, h5⟩
            · exact ⟨k, hk, by omega, rfl, hc⟩
          · rintro ⟨i, hi, h3, h4, h5⟩
            by_cases hik : i = k
            · subst hik; exact Or.inr h4
            · exact Or.inl ⟨i, hi, by omega, h4, h5⟩
      · rw [if_neg hc]
        refine ⟨hr, fun x => ?_⟩
        rw [hm x]
        constructor
        · rintro ⟨i, hi, h3, h4, h5⟩
          exact ⟨i, hi, by omega, h4, h5⟩
        · rintro ⟨i, hi, h3, h4, h5⟩
          have : i ≠ k := by rintro rfl; exact hc h5
          exact ⟨i, hi, by omega, h4, h5⟩
    · rintro r ⟨hr, hm⟩
      refine ⟨hr, fun x => ?_⟩
      rw [hm x]
      constructor
      · rintro ⟨i, hi, _, h4, h5⟩; exact ⟨i, hi, h4, h5⟩
      · rintro ⟨i, hi, h4, h5⟩; exact ⟨i, hi, hi, h4, h5⟩
  · refine wp_exists (wp_mono (wp_forCells h (E := False) (fun k r => StrictSorted r ∧
      ∀ t, t ∈ r ↔ ∃ c ∈ cells.take k, c.type = t) ⟨List.Pairwise.nil, by simp⟩ ?_) ?_ id)
    · rintro k hk r ⟨hr, hm⟩
      refine ⟨sorted_setInsert hr, fun t => ?_⟩
      rw [mem_setInsert, hm t, List.take_succ_eq_append_getElem hk]
      simp only [List.mem_append, List.mem_singleton]
      constructor
      · rintro (rfl | ⟨c, hc, rfl⟩)
        · exact ⟨_, Or.inr rfl, rfl⟩
        · exact ⟨c, Or.inl hc, rfl⟩
      · rintro ⟨c, hc | rfl, h4⟩
        · exact Or.inr ⟨c, hc, h4⟩
        · exact Or.inl h4.symm
    · rintro r ⟨hr, hm⟩
      exact ⟨hr, by simpa using hm⟩

example : IsMesh [3, 0, 1, 2, 5, 7, 6, 5, 4, 3] [0, 4, 10] [⟨3, [0, 1, 2]⟩, ⟨5, [7, 6, 5, 4, 3]⟩] := by decide

theorem getAllGeoTypesSorted_step {types ret : List Int} {runs : List (Int × Nat)} {t : Int} (h1 : ret = runs.map Prod.fst)
    (h2 : ∀ r ∈ runs, 0 < r.2) (h3 : (runs.map fun r => List.replicate r.2 r.1).flatten = types)
    (h4 : (runs.map Prod.fst).IsChain (· ≠ ·)) :
    ∃ runs' : List (Int × Nat), (if ret.getLast? ≠ some t then ret ++ [t] else ret) = runs'.map Prod.fst ∧ (∀ r ∈ runs', 0 < r.2) ∧
      (runs'.map fun r => List.replicate r.2 r.1).flatten = types ++ [t] ∧ (runs'.map Prod.fst).IsChain (· ≠ ·) := by
  by_cases hc : ret.getLast? ≠ some t
  · refine ⟨runs ++ [(t, 1)], ?_, ?_, ?_, ?_⟩
    · rw [if_pos hc, h1]; simp
    · intro r hr
      rcases List.mem_append.mp hr with hr | hr
      · exact h2 r hr
      · simp only [List.mem_singleton] at hr; subst hr; exact Nat.one_pos
    · simp [h3]
    · rw [List.map_append, List.isChain_append]
      refine ⟨h4, by simp, fun x hx y hy => ?_⟩
      simp only [List.map_cons, List.map_nil, List.head?_cons, Option.mem_def, Option.some.injEq] at hy
      subst hy
      rw [← h1] at hx
      rintro rfl
      exact hc hx
  · rw [if_neg hc]
    rw [ne_eq, not_not] at hc
    rcases List.eq_nil_or_concat runs with rfl | ⟨init, r, rfl⟩
    · rw [h1] at hc; simp at hc
    · rw [List.concat_eq_append] at *
      rw [h1] at hc
      simp only [List.map_append, List.map_cons, List.map_nil, List.getLast?_append, List.getLast?_singleton, Option.some_or,
        Option.some.injEq] at hc
      refine ⟨init ++ [(t, r.2 + 1)], ?_, ?_, ?_, ?_⟩
      · rw [h1]; simp [hc]
      · intro x hx
        rcases List.mem_append.mp hx with hx | hx
        · exact h2 x (by simp [hx])
        · simp only [List.mem_singleton] at hx; subst hx; simp
      · rw [← h3]
        simp only [List.map_append, List.map_cons, List.map_nil, List.flatten_append, List.flatten_cons, List.flatten_nil,
          List.append_nil, List.append_assoc, hc, List.replicate_succ']
      · simpa [hc] using h4

/-- C51: `getAllGeoTypesSorted` lists the maximal runs of consecutive cells of the same type. -/
theorem C51_types_sorted {conn connI : List Int} {cells : List Cell} (h : IsMesh conn connI cells) :
    ∃ runs : List (Int × Nat), getAllGeoTypesSorted conn connI = .ok (runs.map Prod.fst) ∧ (∀ r ∈ runs, 0 < r.2) ∧
      (runs.map fun r => List.replicate r.2 r.1).flatten = cells.map Cell.type ∧ (runs.map Prod.fst).IsChain (· ≠ ·) := by
  have hl := h.length
  unfold getAllGeoTypesSorted
  by_cases hc : cells = []
  · subst hc
    rw [if_pos (by simp [hl])]
    exact ⟨[], rfl, by simp, rfl, by simp⟩
  have hpos := List.length_pos_of_ne_nil hc
  obtain ⟨a, b, h0, h1, h2, h3, -, h5, -⟩ := h.get hpos
  rw [if_neg (by omega), if_neg (by omega)]
  rw [show ((0 : Nat) : Int) = 0 from rfl] at h3
  rw [h3, ok_bind, h5, ok_bind]
  have := wp_exists (wp_loop (n := connI.length - 2) (s := [cells[0].type]) (E := False) (f := fun i ret => do
      let a ← rd connI ((i : Int) + 1)
      let t ← rd conn a
      if ret.getLast? ≠ some t then .ok (ret ++ [t]) else .ok ret)
    (fun k ret => ∃ runs : List (Int × Nat), ret = runs.map Prod.fst ∧ (∀ r ∈ runs, 0 < r.2) ∧
      (runs.map fun r => List.replicate r.2 r.1).flatten = (cells.map Cell.type).take (k + 1) ∧ (runs.map Prod.fst).IsChain (· ≠ ·))
    ⟨[(cells[0].type, 1)], by simp, by simp, by
      obtain ⟨c, cs, rfl⟩ := List.exists_cons_of_ne_nil hc
      simp, by simp⟩ (by
    rintro k hk ret ⟨runs, r1, r2, r3, r4⟩
    have hk' : k + 1 < cells.length := by omega
    obtain ⟨a, b, -, -, -, h3, -, h5, -⟩ := h.get hk'
    rw [show ((k + 1 : Nat) : Int) = (k : Int) + 1 by omega] at h3
    rw [h3, ok_bind, h5, ok_bind]
    obtain ⟨runs', q1, q2, q3, q4⟩ := getAllGeoTypesSorted_step (t := cells[k + 1].type) r1 r2 r3 r4
    have : (if ret.getLast? ≠ some cells[k + 1].type then (Except.ok (ret ++ [cells[k + 1].type]) : M (List Int)) else .ok ret)
        = .ok (if ret.getLast? ≠ some cells[k + 1].type then ret ++ [cells[k + 1].type] else ret) := by
      split <;> rfl
    rw [this]
    refine ⟨runs', q1, q2, ?_, q4⟩
    rw [q3, List.take_succ_eq_append_getElem (i := k + 1) (by simpa using hk')]
    simp))
  obtain ⟨ret, e, runs, r1, r2, r3, r4⟩ := this
  refine ⟨runs, ?_, r2, ?_, r4⟩
  · rw [e, r1]
  · rw [r3, List.take_of_length_le (by simp; omega)]

example : getAllGeoTypesSorted [3, 0, 1, 2, 3, 2, 3, 4, 4, 0, 1, 2, 3, 3, 4, 5, 6] [0, 4, 8, 13, 17] = .ok [3, 4, 3] := by decide

/-- C51, finding: `getTypeOfCell` is documented to throw on an invalid id, but a negative id is read outside the index. -/
theorem C51_negative_cell (conn connI : List Int) (h : 0 < connI.length) {i : Int} (hi : i < 0) : getTypeOfCell conn connI i = .error .ub := by
  unfold getTypeOfCell
  rw [if_pos (by omega)]
  have : rd connI i = .error .ub := by
    unfold rd
    rw [if_neg (by omega)]
  rw [this]; rfl

example : (0 : Nat) < [(0 : Int), 4].length ∧ getTypeOfCell [3, 0, 1, 2] [0, 4] (-1) = .error .ub := by decide

/-! ## C52: consistency checks -/

/-- `m` accepts when `P` holds and throws when it does not. -/
def Checks (m : M Unit) (P : Prop) : Prop := (P ∧ m = .ok ()) ∨ (¬ P ∧ m = .error .exn)

theorem Checks.congr {m : M Unit} {P Q : Prop} (h : Checks m P) (e : P ↔ Q) : Checks m Q := by
  unfold Checks at *; rwa [← e]

theorem Checks.bind {m : M Unit} {f : Unit → M Unit} {P Q : Prop} (h : Checks m P) (h' : P → Checks (f ()) Q) :
    Checks (m >>= f) (P ∧ Q) := by
  rcases h with ⟨h1, rfl⟩ | ⟨h1, rfl⟩
  · rw [ok_bind]
    exact (h' h1).congr (by tauto)
  · exact Or.inr ⟨fun h => h1 h.1, rfl⟩

theorem Checks.ite_throw {c : Prop} [Decidable c] {m : M Unit} {P : Prop} (h : ¬ c → Checks m P) :
    Checks (if c then throwX else m) (¬ c ∧ P) := by
  by_cases hc : c
  · rw [if_pos hc]; exact Or.inr ⟨fun h => h.1 hc, rfl⟩
  · rw [if_neg hc]; exact (h hc).congr (by tauto)

theorem Checks.ok : Checks (.ok ()) True := Or.inl ⟨trivial, rfl⟩

theorem Checks.forM {α : Type} {l : List α} {f : α → M Unit} {P : α → Prop} (h : ∀ x ∈ l, Checks (f x) (P x)) :
    Checks (l.forM f) (∀ x ∈ l, P x) := by
  induction l with
  | nil => exact Or.inl ⟨by simp, rfl⟩
  | cons x l ih =>
    have : List.forM (x :: l) f = f x >>= fun _ => List.forM l f := rfl
    rw [this]
    exact (Checks.bind (h x (by simp)) fun _ => ih fun y hy => h y (by simp [hy])).congr (by simp)

theorem Checks.forCells {conn connI : List Int} {cells : List Cell} (h : IsMesh conn connI cells) {f : Cell → M Unit} {P : Cell → Prop}
    (hf : ∀ c ∈ cells, Checks (f c) (P c)) : Checks (forCells conn connI () fun _ c _ => f c) (∀ c ∈ cells, P c) := by
  rw [forCells_eq_foldlM h () (fun c _ => f c)]
  have : ∀ l : List Cell, l.foldlM (fun _ c => f c) () = l.forM f := by
    intro l
    induction l with
    | nil => rfl
    | cons x l ih =>
      show (f x >>= fun u => List.foldlM (fun _ c => f c) u l) = (f x >>= fun _ => l.forM f)
      rw [← ih]
  rw [this]
  exact Checks.forM hf

/-- A well-formed cell of a mesh of dimension `dim` with `nbNodes` nodes: the type has this dimension and this number of nodes,
a quadratic polygon has as many middle nodes as corners, at least two, and the nodes exist; -1 is only the separator of the
faces of polyhedra. -/
def GoodCell (dim : Int) (nbNodes : Nat) (c : Cell) : Prop :=
  FitsType dim c.type c.nodes.length ∧ (c.type = 32 → c.nodes.length % 2 = 0 ∧ 4 ≤ c.nodes.length) ∧
    ∀ n ∈ c.nodes, (0 ≤ n ∧ n < nbNodes) ∨ (n = -1 ∧ c.type = 31)

/-- A mesh which can be used. -/
def Usable (a : AMesh) : Prop :=
  (a.dim = -1 ∧ (a.cells = none ∨ a.cells = some [])) ∨
  (0 ≤ a.dim ∧ ∃ n cs, a.nbNodes = some n ∧ a.cells = some cs ∧ ∀ c ∈ cs, GoodCell a.dim n c)

theorem getCellModel_error {t : Int} {e : Err} (h : getCellModel t = .error e) : e = .exn := by
  unfold getCellModel at h
  split at h
  · cases h
  · cases h; rfl

theorem checkConsistencyLight_spec {u : UMesh} {a : AMesh} (h : Represents u a) :
    Checks u.checkConsistencyLight (-1 ≤ a.dim ∧ (a.dim ≠ -1 → a.nbNodes ≠ none ∧ a.cells ≠ none) ∧
      ∀ cs, a.cells = some cs → ∀ c ∈ cs, ∃ cm, getCellModel c.type = .ok cm ∧ (cm.dim : Int) = a.dim) := by
  obtain ⟨hd, hn, ha, hs, ht⟩ := h
  have harr : u.arrays = none ↔ a.cells = none := by
    cases hx : a.cells <;> cases hy : u.arrays <;> rw [hx, hy] at ha <;> simp at ha ⊢
  unfold UMesh.checkConsistencyLight
  refine (Checks.ite_throw fun _ => Checks.ite_throw fun _ => Checks.bind (Checks.forM (P := fun t =>
    ∃ cm, getCellModel t = .ok cm ∧ (cm.dim : Int) = a.dim) ?_) fun _ => Checks.ite_throw fun _ => Checks.ok).congr ?_
  · intro t _
    cases hcm : getCellModel t with
    | error e =>
      have := getCellModel_error hcm
      subst this
      refine Or.inr ⟨?_, rfl⟩
      rintro ⟨cm, h1, -⟩
      cases h1
    | ok cm =>
      rw [ok_bind]
      exact (Checks.ite_throw fun _ => Checks.ok).congr (by rw [hd]; simp)
  · rw [hd, hn, harr]
    simp only [ne_eq, and_true]
    have : (∀ t ∈ u.types, ∃ cm, getCellModel t = .ok cm ∧ (cm.dim : Int) = a.dim) ↔
        ∀ cs, a.cells = some cs → ∀ c ∈ cs, ∃ cm, getCellModel c.type = .ok cm ∧ (cm.dim : Int) = a.dim := by
      constructor
      · intro hh cs hcs c hc
        exact hh c.type ((ht c.type).mpr ⟨cs, hcs, c, hc, rfl⟩)
      · intro hh t htt
        obtain ⟨cs, hcs, c, hc, rfl⟩ := (ht t).mp htt
        exact hh cs hcs c hc
    rw [this]
    constructor
    · rintro ⟨h1, h2, h3, h4⟩
      exact ⟨by omega, fun h5 => ⟨fun h6 => h2 ⟨h5, h6⟩, fun h6 => h4 ⟨h5, h6⟩⟩, h3⟩
    · rintro ⟨h1, h2, h3⟩
      exact ⟨by omega, fun h5 => (h2 h5.1).1 h5.2, h3, fun h5 => (h2 h5.1).2 h5.2⟩

theorem checkNode_spec (n : Nat) (t x : Int) : Checks (checkNode n t x) ((0 ≤ x ∧ x < n) ∨ (x = -1 ∧ t = 31)) := by
  unfold checkNode Checks throwX
  by_cases h1 : x ≥ 0
  · rw [if_pos h1]
    by_cases h2 : x ≥ n
    · rw [if_pos h2]; exact Or.inr ⟨by omega, rfl⟩
    · rw [if_neg h2]; exact Or.inl ⟨by omega, rfl⟩
  · rw [if_neg h1]
    by_cases h2 : x < -1
    · rw [if_pos h2]; exact Or.inr ⟨by omega, rfl⟩
    · rw [if_neg h2]
      by_cases h3 : t ≠ 31
      · rw [if_pos h3]; exact Or.inr ⟨by omega, rfl⟩
      · rw [if_neg h3]; exact Or.inl ⟨by omega, rfl⟩

/-- C52: `checkConsistency` accepts exactly the usable meshes, for every mesh built with the public interface, and throws
otherwise. -/
theorem C52_checkConsistency {u : UMesh} {a : AMesh} (h : Represents u a) : Checks u.checkConsistency (Usable a) := by
  have light := checkConsistencyLight_spec h
  unfold UMesh.checkConsistency
  have quadDyn : ∀ cm ∈ cellModels, cm.dim = 2 → (cm.quad = true ∧ cm.dyn = true ↔ cm.code = 32) := by decide
  refine (Checks.bind (Q := a.dim = -1 ∨ Usable a) light fun hp => ?_).congr ?_
  · obtain ⟨hp1, hp2, hp3⟩ := hp
    by_cases hd : a.dim = -1
    · rw [if_pos (by rw [h.dim, hd])]
      exact Or.inl ⟨Or.inl hd, rfl⟩
    · rw [if_neg (by rw [h.dim]; exact hd)]
      obtain ⟨q1, q2⟩ := hp2 hd
      obtain ⟨n, hn⟩ := Option.ne_none_iff_exists'.mp q1
      obtain ⟨cs, hcs⟩ := Option.ne_none_iff_exists'.mp q2
      have ha := h.arrays
      rw [hcs] at ha
      cases hua : u.arrays with
      | none => rw [hua] at ha; exact absurd ha (by simp)
      | some p =>
        obtain ⟨conn, connI⟩ := p
        rw [hua] at ha
        rw [h.nodes, hn]
        simp only at ha ⊢
        refine (Checks.forCells (P := GoodCell a.dim n) ha ?_).congr ?_
        · intro c hc
          obtain ⟨cm, h1, h2⟩ := hp3 cs hcs c hc
          rw [h1, ok_bind, h.dim]
          have hm := getCellModel_mem h1
          refine (Checks.ite_throw fun _ => Checks.ite_throw fun _ => Checks.ite_throw fun _ =>
            Checks.forM (P := fun x => (0 ≤ x ∧ x < (n : Int)) ∨ (x = -1 ∧ c.type = 31)) fun x _ => checkNode_spec n c.type x).congr ?_
          have e1 : FitsType a.dim c.type c.nodes.length ↔ ¬ ((!cm.dyn) = true ∧ c.nodes.length ≠ cm.nbPts) := by
            constructor
            · rintro ⟨cm', k1, k2, k3⟩ ⟨k4, k5⟩
              rw [h1] at k1; cases k1
              exact k5 (k3 (by simpa using k4))
            · intro k
              refine ⟨cm, h1, h2, fun k1 => ?_⟩
              by_contra k2
              exact k ⟨by simp [k1], k2⟩
          have e2 : (c.type = 32 → c.nodes.length % 2 = 0 ∧ 4 ≤ c.nodes.length) ↔
              ¬ (cm.quad = true ∧ cm.dyn = true ∧ a.dim = 2 ∧ (c.nodes.length % 2 ≠ 0 ∨ c.nodes.length < 4)) := by
            constructor
            · rintro k ⟨k1, k2, k3, k4⟩
              have := (quadDyn cm hm.1 (by omega)).mp ⟨k1, k2⟩
              rw [hm.2] at this
              have := k this
              omega
            · intro k hk
              by_contra k5
              have hd2 : cm.dim = 2 := by
                have : ∀ cm ∈ cellModels, cm.code = 32 → cm.dim = 2 := by decide
                exact this cm hm.1 (by rw [hm.2, hk])
              have := (quadDyn cm hm.1 hd2).mpr (by rw [hm.2, hk])
              exact k ⟨this.1, this.2, by omega, by omega⟩
          unfold GoodCell
          rw [e1, e2]
          constructor
          · rintro ⟨_, k1, k2, k3⟩; exact ⟨k1, k2, k3⟩
          · rintro ⟨k1, k2, k3⟩; exact ⟨by simp [h2], k1, k2, k3⟩
        · constructor
          · intro k; exact Or.inr (Or.inr ⟨by omega, n, cs, hn, hcs, k⟩)
          · rintro (k | k | ⟨-, n', cs', k1, k2, k3⟩)
            · exact absurd k hd
            · exact absurd k.1 hd
            · rw [hn] at k1; rw [hcs] at k2; cases k1; cases k2; exact k3
  · constructor
    · rintro ⟨⟨h1, h2, h3⟩, h4 | h4⟩
      · refine Or.inl ⟨h4, ?_⟩
        cases hcs : a.cells with
        | none => exact Or.inl rfl
        | some cs =>
          right
          congr 1
          by_contra hne
          obtain ⟨c, hc⟩ := List.exists_mem_of_ne_nil cs hne
          obtain ⟨cm, -, k⟩ := h3 cs hcs c hc
          omega
      · exact h4
    · intro hu
      refine ⟨?_, Or.inr hu⟩
      rcases hu with ⟨h1, h2⟩ | ⟨h1, n, cs, h2, h3, h4⟩
      · refine ⟨by omega, fun hh => absurd h1 hh, fun cs hcs c hc => ?_⟩
        rcases h2 with h2 | h2 <;> rw [h2] at hcs <;> cases hcs
        simp at hc
      · refine ⟨by omega, fun _ => ⟨by simp [h2], by simp [h3]⟩, fun cs' hcs' c hc => ?_⟩
        rw [h3] at hcs'; cases hcs'
        obtain ⟨⟨cm, k1, k2, -⟩, -⟩ := h4 c hc
        exact ⟨cm, k1, k2⟩

example : Represents { dim := 2, nbNodes := some 5, arrays := some ([3, 0, 1, 2, 4, 1, 2, 3, 4], [0, 4, 9]), types := [3, 4] }
    { dim := 2, nbNodes := some 5, cells := some [⟨3, [0, 1, 2]⟩, ⟨4, [1, 2, 3, 4]⟩] } :=
  ⟨rfl, rfl, show IsMesh _ _ _ by decide, by decide, by intro t; simp; tauto⟩

/-- C52: `checkGeomConsistency` accepts exactly the usable meshes in which no cell repeats a value, when the connectivity is
set. -/
theorem C52_checkGeomConsistency {u : UMesh} {a : AMesh} (h : Represents u a) {cs : List Cell} (hcs : a.cells = some cs) :
    Checks u.checkGeomConsistency (Usable a ∧ ∀ c ∈ cs, c.nodes.Nodup) := by
  unfold UMesh.checkGeomConsistency
  refine Checks.bind (C52_checkConsistency h) fun _ => ?_
  have ha := h.arrays
  rw [hcs] at ha
  cases hua : u.arrays with
  | none => rw [hua] at ha; exact absurd ha (by simp)
  | some p =>
    obtain ⟨conn, connI⟩ := p
    rw [hua] at ha
    simp only [UMesh.getNumberOfCells, hua, ok_bind] at ha ⊢
    refine Checks.forCells ha fun c _ => ?_
    have hn : (setInsertAll [] c.nodes).length = c.nodes.length ↔ c.nodes.Nodup := by
      have h1 : StrictSorted (setInsertAll [] c.nodes) := sorted_setInsertAll List.Pairwise.nil
      have h2 : ∀ x, x ∈ setInsertAll [] c.nodes ↔ x ∈ c.nodes := fun x => by rw [mem_setInsertAll]; simp
      constructor
      · intro he
        have hsub := List.subperm_of_subset h1.nodup fun x hx => (h2 x).mp hx
        exact (hsub.perm_of_length_le (by omega)).nodup_iff.mp h1.nodup
      · intro hd
        exact (List.perm_of_nodup_nodup_toFinset_eq h1.nodup hd (by ext x; simp [h2 x])).length_eq
    by_cases hc : c.nodes.Nodup
    · rw [if_pos (hn.mpr hc)]; exact Or.inl ⟨hc, rfl⟩
    · rw [if_neg (fun k => hc (hn.mp k))]; exact Or.inr ⟨hc, rfl⟩

/-- C52, finding: a mesh with a polyhedron of at least three faces is always refused by `checkGeomConsistency`, since the
separators of the faces are counted as a repeated node. -/
theorem C52_geom_refuses_polyhedra {u : UMesh} {a : AMesh} (h : Represents u a) {cs : List Cell} (hcs : a.cells = some cs)
    {f1 f2 f3 : List Int} {fs : List (List Int)} (hc : ⟨31, joinFaces (f1 :: f2 :: f3 :: fs)⟩ ∈ cs) :
    u.checkGeomConsistency = .error .exn := by
  rcases C52_checkGeomConsistency h hcs with ⟨h1, -⟩ | ⟨-, h1⟩
  · exfalso
    have := h1.2 _ hc
    rw [List.nodup_iff_count_le_one] at this
    have := this (-1)
    cases fs <;> simp [joinFaces, List.count_append] at this <;> omega
  · exact h1

example : Represents { dim := 3, nbNodes := some 4, arrays := some ([31, 0, 1, 2, -1, 0, 3, 1, -1, 1, 3, 2, -1, 2, 3, 0], [0, 16]), types := [31] }
    { dim := 3, nbNodes := some 4, cells := some [⟨31, joinFaces [[0, 1, 2], [0, 3, 1], [1, 3, 2], [2, 3, 0]]⟩] } ∧
    Usable { dim := 3, nbNodes := some 4, cells := some [⟨31, joinFaces [[0, 1, 2], [0, 3, 1], [1, 3, 2], [2, 3, 0]]⟩] } := by
  refine ⟨⟨rfl, rfl, show IsMesh _ _ _ by decide, by decide, by intro t; simp; tauto⟩, Or.inr ⟨by decide, 4, _, rfl, rfl, ?_⟩⟩
  simp only [List.mem_singleton]
  rintro c rfl
  refine ⟨⟨cm_polyhed, by decide⟩, by decide, by decide⟩

/-- C52, finding: an index array which goes past the connectivity is not detected by `checkConsistency`, which reads outside
the array. -/
theorem C52_bad_index : UMesh.checkConsistency { dim := 2, nbNodes := some 3, arrays := some ([5, 0, 1, 2], [0, 6]), types := [5] } = .error .ub := by
  decide

/-- C52, finding: on a mesh of dimension -1, which has no connectivity, `checkConsistency` accepts and `checkGeomConsistency`
dereferences null pointers. -/
theorem C52_geom_null (n : Option Nat) : UMesh.checkConsistency { dim := -1, nbNodes := n } = .ok () ∧
    UMesh.checkGeomConsistency { dim := -1, nbNodes := n } = .error .ub := by
  constructor <;> rfl

end
end MC
