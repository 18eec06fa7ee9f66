import Verif.MeshDist
import Verif.PtDistTri
import Verif.BBClosestDst
import Verif.UMeshProps
import Mathlib.Data.List.GetD

/-!
# Bounding boxes of the cells and distance from points to a mesh (C79, C80)
-/

namespace MC
section
variable {K : Type} [Field K] [LinearOrder K] [IsStrictOrderedRing K]

/-! ## Bounding boxes of the cells -/

/-- coordinate `k` of node `n` -/
def nodeX (dim : Nat) (coords : List K) (n : Int) (k : Nat) : K := coords.getD (dim * n.toNat + k) 0

/-- the ids of the nodes of a cell which exist in the coordinates -/
def validNodes (dim : Nat) (coords : List K) (nodes : List Int) : List Int :=
  nodes.filter fun n => decide (0 ≤ n ∧ n < ((coords.length / dim : Nat) : Int))

omit [LinearOrder K] [IsStrictOrderedRing K] in
theorem rdNode_ok {dim : Nat} {coords : List K} {n : Int} (h0 : 0 ≤ n) (h1 : n < ((coords.length / dim : Nat) : Int)) :
    rdNode dim coords n = .ok ((List.range dim).map (nodeX dim coords n)) := by
  unfold rdNode
  apply bt_mapM_ok
  intro k hk
  have hk := List.mem_range.mp hk
  have hn : n.toNat < coords.length / dim := by omega
  have hlt : dim * n.toNat + k < coords.length := by
    have h2 : (n.toNat + 1) * dim ≤ coords.length / dim * dim := Nat.mul_le_mul_right _ hn
    have h3 := Nat.div_mul_le_self coords.length dim
    have h4 : (n.toNat + 1) * dim = dim * n.toNat + dim := by ring
    omega
  have e : (dim : Int) * n + k = ((dim * n.toNat + k : Nat) : Int) := by
    push_cast
    rw [Int.toNat_of_nonneg h0]
  rw [e]
  exact rd_getD hlt

omit [IsStrictOrderedRing K] in
theorem cellBox_ok {dim : Nat} {coords : List K} (big : K) (nodes : List Int) :
    cellBox dim coords big nodes = .ok ((List.range dim).map (fun k =>
      (((validNodes dim coords nodes).map fun n => nodeX dim coords n k).foldl min big, ((validNodes dim coords nodes).map fun n => nodeX dim coords n k).foldl max (-big))),
      (validNodes dim coords nodes).length) := by
  have key : ∀ (nodes : List Int) (a b : Nat → K) (m : Nat), nodes.foldlM (fun s n =>
      if 0 ≤ n ∧ n < ((coords.length / dim : Nat) : Int) then (do
        let p ← rdNode dim coords n
        .ok (boxAdd s.1 (p.map fun x => (x, x)), s.2 + 1) : M (List (K × K) × Nat))
      else .ok s) ((List.range dim).map (fun k => (a k, b k)), m) = .ok ((List.range dim).map (fun k =>
      (((validNodes dim coords nodes).map fun n => nodeX dim coords n k).foldl min (a k), ((validNodes dim coords nodes).map fun n => nodeX dim coords n k).foldl max (b k))),
      m + (validNodes dim coords nodes).length) := by
    intro nodes
    induction nodes with
    | nil => intro a b m; rfl
    | cons n nodes ih =>
      intro a b m
      rw [List.foldlM_cons]
      by_cases h : 0 ≤ n ∧ n < ((coords.length / dim : Nat) : Int)
      · rw [if_pos h, rdNode_ok h.1 h.2, ok_bind, ok_bind]
        have e : boxAdd ((List.range dim).map fun k => (a k, b k)) (((List.range dim).map (nodeX dim coords n)).map fun x => (x, x)) =
            (List.range dim).map fun k => (min (a k) (nodeX dim coords n k), max (b k) (nodeX dim coords n k)) := by
          unfold boxAdd
          rw [List.map_map, List.zipWith_map, List.zipWith_self]
          rfl
        rw [e, ih]
        have e2 : validNodes dim coords (n :: nodes) = n :: validNodes dim coords nodes := by
          unfold validNodes; rw [List.filter_cons_of_pos (by simpa using h)]
        rw [e2]
        simp only [List.map_cons, List.foldl_cons, List.length_cons]
        congr 2
        omega
      · rw [if_neg h, ok_bind, ih]
        have e2 : validNodes dim coords (n :: nodes) = validNodes dim coords nodes := by
          unfold validNodes; rw [List.filter_cons_of_neg (by simpa using h)]
        rw [e2]
  have := key nodes (fun _ => big) (fun _ => -big) 0
  rw [Nat.zero_add] at this
  rw [← this]
  unfold cellBox
  congr 2
  rw [List.map_const', List.length_range]

/-- the bounds of one cell, as they are put in the array -/
def cellRow (dim : Nat) (coords : List K) (big : K) (nodes : List Int) : List K :=
  (List.range dim).flatMap fun k =>
    [((validNodes dim coords nodes).map fun n => nodeX dim coords n k).foldl min big, ((validNodes dim coords nodes).map fun n => nodeX dim coords n k).foldl max (-big)]

omit [IsStrictOrderedRing K] in
theorem boundingBoxFast_ok {dim : Nat} {coords : List K} {big : K} {conn connI : List Int} {cells : List Cell} (h : IsMesh conn connI cells)
    (hn : ∀ c ∈ cells, validNodes dim coords c.nodes ≠ []) :
    boundingBoxFast dim coords big conn connI = .ok (cells.flatMap fun c => cellRow dim coords big c.nodes) := by
  unfold boundingBoxFast
  rw [forCells_eq_foldlM h]
  have key : ∀ (cells : List Cell) (out : List K), (∀ c ∈ cells, validNodes dim coords c.nodes ≠ []) → cells.foldlM (fun out c => (do
      let s ← cellBox dim coords big c.nodes
      if s.2 = 0 then throwX else .ok (out ++ s.1.flatMap fun b => [b.1, b.2]) : M (List K))) out =
      .ok (out ++ cells.flatMap fun c => cellRow dim coords big c.nodes) := by
    intro cells
    induction cells with
    | nil => intro out _; simp; rfl
    | cons c cells ih =>
      intro out hn
      rw [List.foldlM_cons, cellBox_ok, ok_bind, if_neg (by simpa using hn c List.mem_cons_self), ok_bind, ih _ fun c hc => hn c (List.mem_cons_of_mem _ hc),
        List.flatMap_cons, List.append_assoc, List.flatMap_map]
      rfl
  have := key cells [] hn
  rw [List.nil_append] at this
  exact this

/-- one number of a concatenation of rows of the same length -/
theorem flatMap_getD {α β : Type} {n : Nat} {f : β → List α} (hf : ∀ b, (f b).length = n) (d : α) : ∀ (l : List β) (i j : Nat) (hi : i < l.length), j < n →
    (l.flatMap f).getD (i * n + j) d = (f l[i]).getD j d
  | [], i, _, hi, _ => by simp at hi
  | b :: l, 0, j, _, hj => by
    rw [List.flatMap_cons, Nat.zero_mul, Nat.zero_add, List.getD_append _ _ _ _ (by rw [hf]; exact hj)]
    rfl
  | b :: l, i + 1, j, hi, hj => by
    rw [List.flatMap_cons, List.getD_append_right _ _ _ _ (by rw [hf, Nat.add_mul]; omega), hf]
    have e : (i + 1) * n + j - n = i * n + j := by rw [Nat.add_mul]; omega
    rw [e]
    have := flatMap_getD hf d l i j (by simpa using hi) hj
    simpa using this

theorem flatMap_length_const {α β : Type} {n : Nat} {f : β → List α} (hf : ∀ b, (f b).length = n) : ∀ l : List β, (l.flatMap f).length = l.length * n
  | [] => by simp
  | b :: l => by rw [List.flatMap_cons, List.length_append, hf, flatMap_length_const hf l, List.length_cons]; ring

omit [IsStrictOrderedRing K] in
theorem cellRow_length (dim : Nat) (coords : List K) (big : K) (nodes : List Int) : (cellRow dim coords big nodes).length = dim * 2 := by
  unfold cellRow
  rw [flatMap_length_const (n := 2) (fun _ => rfl), List.length_range]

omit [IsStrictOrderedRing K] in
theorem cells_boxOf {dim : Nat} {coords : List K} {big : K} (cells : List Cell) {e : Nat} (he : e < cells.length) {k : Nat} (hk : k < dim) :
    boxLo dim (cells.flatMap fun c => cellRow dim coords big c.nodes) k e = ((validNodes dim coords cells[e].nodes).map fun n => nodeX dim coords n k).foldl min big ∧
    boxHi dim (cells.flatMap fun c => cellRow dim coords big c.nodes) k e = ((validNodes dim coords cells[e].nodes).map fun n => nodeX dim coords n k).foldl max (-big) := by
  have e0 : ∀ j, e * dim * 2 + j = e * (dim * 2) + j := by intro j; rw [Nat.mul_assoc]
  have e1 : e * dim * 2 + k * 2 + 1 = e * (dim * 2) + (k * 2 + 1) := by rw [Nat.mul_assoc, Nat.add_assoc]
  unfold boxLo boxHi
  rw [e1, e0, flatMap_getD (fun c => cellRow_length dim coords big c.nodes) 0 cells e _ he (by omega), flatMap_getD (fun c => cellRow_length dim coords big c.nodes) 0 cells e _ he (by omega)]
  unfold cellRow
  rw [← Nat.add_zero (k * 2), flatMap_getD (n := 2) (fun _ => rfl) 0 (List.range dim) k 0 (by simpa using hk) (by omega), Nat.add_zero,
    flatMap_getD (n := 2) (fun _ => rfl) 0 (List.range dim) k 1 (by simpa using hk) (by omega)]
  simp

omit [Field K] [IsStrictOrderedRing K] in
theorem foldl_min_spec : ∀ (l : List K) (a : K), l.foldl min a ≤ a ∧ (∀ x ∈ l, l.foldl min a ≤ x) ∧ (l.foldl min a = a ∨ l.foldl min a ∈ l)
  | [], a => ⟨le_refl _, by simp, Or.inl rfl⟩
  | x :: l, a => by
    obtain ⟨h1, h2, h3⟩ := foldl_min_spec l (min a x)
    rw [List.foldl_cons]
    refine ⟨le_trans h1 (min_le_left _ _), ?_, ?_⟩
    · intro y hy
      rcases List.mem_cons.mp hy with rfl | hy
      · exact le_trans h1 (min_le_right _ _)
      · exact h2 y hy
    · rcases h3 with h3 | h3
      · rcases min_choice a x with c | c
        · exact Or.inl (h3.trans c)
        · exact Or.inr (by rw [h3, c]; exact List.mem_cons_self)
      · exact Or.inr (List.mem_cons_of_mem _ h3)

omit [Field K] [IsStrictOrderedRing K] in
theorem foldl_max_spec : ∀ (l : List K) (a : K), a ≤ l.foldl max a ∧ (∀ x ∈ l, x ≤ l.foldl max a) ∧ (l.foldl max a = a ∨ l.foldl max a ∈ l)
  | [], a => ⟨le_refl _, by simp, Or.inl rfl⟩
  | x :: l, a => by
    obtain ⟨h1, h2, h3⟩ := foldl_max_spec l (max a x)
    rw [List.foldl_cons]
    refine ⟨le_trans (le_max_left _ _) h1, ?_, ?_⟩
    · intro y hy
      rcases List.mem_cons.mp hy with rfl | hy
      · exact le_trans (le_max_right _ _) h1
      · exact h2 y hy
    · rcases h3 with h3 | h3
      · rcases max_choice a x with c | c
        · exact Or.inl (h3.trans c)
        · exact Or.inr (by rw [h3, c]; exact List.mem_cons_self)
      · exact Or.inr (List.mem_cons_of_mem _ h3)

omit [IsStrictOrderedRing K] in
/-- The bounding boxes of the cells: when every cell has a node of the mesh and no coordinate is beyond the largest double, the array has one box per cell in the order of the cells, each bound of a box is the coordinate of a node of the cell, and all the nodes of the cell are in the box.  The ids which are not nodes of the mesh (the separators of the faces of polyhedra) are skipped. -/
theorem C80_boxes {dim : Nat} {coords : List K} {big : K} {conn connI : List Int} {cells : List Cell} (h : IsMesh conn connI cells)
    (hn : ∀ c ∈ cells, ∃ n ∈ c.nodes, 0 ≤ n ∧ n < ((coords.length / dim : Nat) : Int)) (hb : ∀ x ∈ coords, -big ≤ x ∧ x ≤ big) :
    ∃ bbs, boundingBoxFast dim coords big conn connI = .ok bbs ∧ bbs.length = cells.length * dim * 2 ∧
      ∀ (e : Nat) (he : e < cells.length) (k : Nat), k < dim →
        (∀ n ∈ cells[e].nodes, 0 ≤ n → n < ((coords.length / dim : Nat) : Int) → boxLo dim bbs k e ≤ nodeX dim coords n k ∧ nodeX dim coords n k ≤ boxHi dim bbs k e) ∧
        (∃ n ∈ cells[e].nodes, (0 ≤ n ∧ n < ((coords.length / dim : Nat) : Int)) ∧ boxLo dim bbs k e = nodeX dim coords n k) ∧
        (∃ n ∈ cells[e].nodes, (0 ≤ n ∧ n < ((coords.length / dim : Nat) : Int)) ∧ boxHi dim bbs k e = nodeX dim coords n k) := by
  have hmem : ∀ c : Cell, ∀ n, n ∈ validNodes dim coords c.nodes ↔ n ∈ c.nodes ∧ (0 ≤ n ∧ n < ((coords.length / dim : Nat) : Int)) := by
    intro c n; unfold validNodes; rw [List.mem_filter, decide_eq_true_iff]
  refine ⟨_, boundingBoxFast_ok h ?_, ?_, ?_⟩
  · intro c hc
    obtain ⟨n, n1, n2⟩ := hn c hc
    exact List.ne_nil_of_mem ((hmem c n).mpr ⟨n1, n2⟩)
  · rw [flatMap_length_const (fun c : Cell => cellRow_length dim coords big c.nodes), Nat.mul_assoc]
  · intro e he k hk
    obtain ⟨b1, b2⟩ := cells_boxOf (coords := coords) (big := big) cells he hk
    rw [b1, b2]
    obtain ⟨l1, l2, l3⟩ := foldl_min_spec ((validNodes dim coords cells[e].nodes).map fun n => nodeX dim coords n k) big
    obtain ⟨u1, u2, u3⟩ := foldl_max_spec ((validNodes dim coords cells[e].nodes).map fun n => nodeX dim coords n k) (-big)
    have hx : ∀ n, n ∈ validNodes dim coords cells[e].nodes → -big ≤ nodeX dim coords n k ∧ nodeX dim coords n k ≤ big := by
      intro n hnv
      have hv := ((hmem _ n).mp hnv).2
      apply hb
      unfold nodeX
      have hn' : n.toNat < coords.length / dim := by omega
      have hlt : dim * n.toNat + k < coords.length := by
        have h2 : (n.toNat + 1) * dim ≤ coords.length / dim * dim := Nat.mul_le_mul_right _ hn'
        have h3 := Nat.div_mul_le_self coords.length dim
        have h4 : (n.toNat + 1) * dim = dim * n.toNat + dim := by ring
        omega
      rw [List.getD_eq_getElem _ _ hlt]
      exact List.getElem_mem _
    obtain ⟨n0, m0, m1⟩ := hn _ (List.getElem_mem he)
    have hv0 := (hmem _ n0).mpr ⟨m0, m1⟩
    refine ⟨?_, ?_, ?_⟩
    · intro n n1 n2 n3
      have hv := (hmem _ n).mpr ⟨n1, n2, n3⟩
      exact ⟨l2 _ (List.mem_map.mpr ⟨n, hv, rfl⟩), u2 _ (List.mem_map.mpr ⟨n, hv, rfl⟩)⟩
    · rcases l3 with l3 | l3
      · refine ⟨n0, m0, m1, le_antisymm (l2 _ (List.mem_map.mpr ⟨n0, hv0, rfl⟩)) ?_⟩
        rw [l3]; exact (hx n0 hv0).2
      · obtain ⟨n, n1, n2⟩ := List.mem_map.mp l3
        exact ⟨n, ((hmem _ n).mp n1).1, ((hmem _ n).mp n1).2, n2.symm⟩
    · rcases u3 with u3 | u3
      · refine ⟨n0, m0, m1, le_antisymm ?_ (u2 _ (List.mem_map.mpr ⟨n0, hv0, rfl⟩))⟩
        rw [u3]; exact (hx n0 hv0).1
      · obtain ⟨n, n1, n2⟩ := List.mem_map.mp u3
        exact ⟨n, ((hmem _ n).mp n1).1, ((hmem _ n).mp n1).2, n2.symm⟩

omit [IsStrictOrderedRing K] in
/-- A cell without any node of the mesh: the computation of the boxes throws. -/
theorem C80_boxes_throws {dim : Nat} {coords : List K} {big : K} {conn connI : List Int} {cells : List Cell} (h : IsMesh conn connI cells)
    (hn : ∃ c ∈ cells, ∀ n ∈ c.nodes, n < 0 ∨ ((coords.length / dim : Nat) : Int) ≤ n) :
    boundingBoxFast dim coords big conn connI = .error .exn := by
  unfold boundingBoxFast
  rw [forCells_eq_foldlM h]
  obtain ⟨c, hc, hcn⟩ := hn
  have key : ∀ (cells : List Cell) (out : List K), c ∈ cells → cells.foldlM (fun out c => (do
      let s ← cellBox dim coords big c.nodes
      if s.2 = 0 then throwX else .ok (out ++ s.1.flatMap fun b => [b.1, b.2]) : M (List K))) out = .error .exn := by
    intro cells
    induction cells with
    | nil => intro out hc; simp at hc
    | cons c' cells ih =>
      intro out hc
      rw [List.foldlM_cons, cellBox_ok, ok_bind]
      by_cases h0 : (validNodes dim coords c'.nodes).length = 0
      · rw [if_pos h0]; rfl
      · rw [if_neg h0, ok_bind]
        rcases List.mem_cons.mp hc with rfl | hc
        · exfalso
          apply h0
          unfold validNodes
          rw [List.length_eq_zero_iff, List.filter_eq_nil_iff]
          intro n hn
          have := hcn n hn
          simp only [decide_eq_true_iff]
          omega
        · exact ih _ hc
  exact key cells [] hc

example : boundingBoxFast 2 [(0 : ℚ), 0, 1, 0, 1, 2, -3, 1] 1000 [5, 0, 1, 2, 5, 1, 3, 2] [0, 4, 8] = .ok [0, 1, 0, 2, -3, 1, 0, 2] := by
  decide +kernel
example : IsMesh [5, 0, 1, 2, 5, 1, 3, 2] [0, 4, 8] [⟨5, [0, 1, 2]⟩, ⟨5, [1, 3, 2]⟩] := by decide

end
end MC
