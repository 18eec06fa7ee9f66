import Verif.CellCut
import Verif.UMeshProps

/-!
# The cells of a mesh cut in simplices (C99)
-/

namespace MC

/-! ## The loop -/

theorem CutSt.push_mesh {s : CutSt} {cells : List Cell} (h : IsMesh s.conn s.connI cells) (i : Int) (c : Cell) :
    IsMesh (s.push i c.row).conn (s.push i c.row).connI (cells ++ [c]) := by
  have hs := h.snoc c
  have hl : s.connI.getLastD 0 = s.conn.length := by
    obtain ⟨h1, h2⟩ := h
    rw [h2, skyIdx, List.range_succ, List.map_append, List.map_singleton, h1]
    simp
    rw [List.take_of_length_le (by simp)]
  unfold CutSt.push
  dsimp only
  rw [hl]
  have : (c.row.length : Int) = c.nodes.length + 1 := by simp [Cell.row]
  rw [this, ← Int.add_assoc]
  exact hs

theorem CutSt.push_all {s : CutSt} {cells : List Cell} (h : IsMesh s.conn s.connI cells) (i : Int) (l : List Cell) :
    IsMesh ((l.map Cell.row).foldl (CutSt.push i) s).conn ((l.map Cell.row).foldl (CutSt.push i) s).connI (cells ++ l) ∧
      ((l.map Cell.row).foldl (CutSt.push i) s).ret = s.ret ++ l.map fun _ => i := by
  induction l generalizing s cells with
  | nil => simpa using h
  | cons c l ih =>
    have := ih (CutSt.push_mesh h i c)
    rw [List.map_cons, List.foldl_cons]
    refine ⟨by simpa using this.1, ?_⟩
    rw [this.2]
    simp [CutSt.push]

/-- The number of the old cell of each new cell: `gs` are the new cells, group by group, `k` the number of the first group. -/
def oldOf {α : Type} (k : Nat) (gs : List (List α)) : List Int :=
  (gs.zipIdx k).flatMap fun g => g.1.map fun _ => (g.2 : Int)

theorem oldOf_snoc {α : Type} (k : Nat) (gs : List (List α)) (g : List α) :
    oldOf k (gs ++ [g]) = oldOf k gs ++ g.map fun _ => ((k + gs.length : Nat) : Int) := by
  simp [oldOf, List.zipIdx_append]

theorem oldOf_length {α : Type} (k : Nat) (gs : List (List α)) : (oldOf k gs).length = gs.flatten.length := by
  induction gs generalizing k with
  | nil => rfl
  | cons g gs ih =>
    have := ih (k + 1)
    simp only [oldOf, List.zipIdx_cons, List.flatMap_cons, List.length_append, List.length_map, List.flatten_cons] at this ⊢
    rw [this]

theorem cutLoop_spec {conn connI : List Int} {cells : List Cell} (h : IsMesh conn connI cells) (t : Int)
    (cut : Int → M (List (List Int))) (P : Cell → List Cell)
    (hcut : ∀ i (hi : i < cells.length) (a : Int), rd connI (i : Int) = .ok a → cells[i].type = t →
      cut a = .ok ((P cells[i]).map Cell.row))
    (hP : ∀ c ∈ cells, c.type ≠ t → P c = [c]) :
    ∃ s, forCells conn connI {} (cutStep t connI cut) = .ok s ∧ IsMesh s.conn s.connI (cells.map P).flatten ∧
      s.ret = oldOf 0 (cells.map P) := by
  have := wp_forCells (E := False) (s := ({} : CutSt)) (f := cutStep t connI cut) h
    (fun i s => IsMesh s.conn s.connI ((cells.take i).map P).flatten ∧ s.ret = oldOf 0 ((cells.take i).map P))
    ⟨⟨rfl, rfl⟩, rfl⟩ (fun i hi s hI => by
      obtain ⟨h1, h2⟩ := hI
      have htake : cells.take (i + 1) = cells.take i ++ [cells[i]] := List.take_succ_eq_append_getElem hi
      have hlen : (cells.take i).length = i := List.length_take_of_le (by omega)
      have key : IsMesh s.conn s.connI ((cells.take i).map P).flatten →
          IsMesh (((P cells[i]).map Cell.row).foldl (CutSt.push i) s).conn (((P cells[i]).map Cell.row).foldl (CutSt.push i) s).connI
            ((cells.take (i + 1)).map P).flatten ∧
          (((P cells[i]).map Cell.row).foldl (CutSt.push i) s).ret = oldOf 0 ((cells.take (i + 1)).map P) := by
        intro h1
        obtain ⟨h3, h4⟩ := CutSt.push_all h1 (i : Int) (P cells[i])
        rw [htake, List.map_append, List.flatten_append, List.map_singleton, List.flatten_singleton]
        refine ⟨h3, ?_⟩
        rw [h4, h2, oldOf_snoc, List.length_map, hlen, Nat.zero_add]
      unfold cutStep
      by_cases ht : cells[i].type = t
      · obtain ⟨a, b, -, -, -, h3, -⟩ := h.get hi
        rw [if_pos ht, h3, ok_bind, hcut i hi a h3 ht, ok_bind]
        exact key h1
      · rw [if_neg ht]
        have := key h1
        rw [hP _ (List.getElem_mem _) ht] at this
        exact this)
  cases hr : forCells conn connI {} (cutStep t connI cut) with
  | error e => rw [hr] at this; cases e <;> exact this.elim
  | ok s =>
    rw [hr] at this
    obtain ⟨h1, h2⟩ := this
    rw [List.take_length] at h1 h2
    exact ⟨s, rfl, h1, h2⟩

/-- The values of a cell in the array -/
theorem IsMesh.rd_node {conn connI : List Int} {cells : List Cell} (h : IsMesh conn connI cells) {i : Nat} (hi : i < cells.length)
    {a : Int} (ha : rd connI (i : Int) = .ok a) (k : Nat) (hk : k < cells[i].nodes.length) :
    rd conn (a + (k : Int) + 1) = .ok cells[i].nodes[k] := by
  obtain ⟨a', b, h0, h1, h2, h3, -, -, h6, -, -, h8⟩ := h.get hi
  rw [h3] at ha
  injection ha with ha
  subst ha
  have : (slice conn (a' + 1) b)[k]? = some cells[i].nodes[k] := by rw [h6]; exact List.getElem?_eq_getElem hk
  unfold slice at this
  rw [List.getElem?_take_of_lt (by omega), List.getElem?_drop] at this
  apply rd_of_getElem? (by omega)
  rw [← this]
  congr 1
  omega

/-! ## What the cells become -/

/-- The simplices made of a cell by each policy. -/
def simplices (policy : Int) (c : Cell) : List Cell :=
  match c with
  | ⟨4, [n0, n1, n2, n3]⟩ =>
    if policy = 0 then [⟨3, [n0, n1, n2]⟩, ⟨3, [n0, n2, n3]⟩]
    else if policy = 1 then [⟨3, [n0, n1, n3]⟩, ⟨3, [n1, n2, n3]⟩]
    else [c]
  | ⟨18, [n0, n1, n2, n3, n4, n5, n6, n7]⟩ =>
    if policy = 5 then [⟨14, [n0, n5, n1, n2]⟩, ⟨14, [n0, n4, n5, n7]⟩, ⟨14, [n0, n3, n7, n2]⟩, ⟨14, [n5, n7, n6, n2]⟩,
      ⟨14, [n0, n5, n2, n7]⟩]
    else if policy = 6 then [⟨14, [n0, n5, n1, n6]⟩, ⟨14, [n0, n1, n2, n6]⟩, ⟨14, [n0, n4, n5, n6]⟩, ⟨14, [n0, n7, n4, n6]⟩,
      ⟨14, [n0, n2, n3, n6]⟩, ⟨14, [n0, n3, n7, n6]⟩]
    else [c]
  | c => [c]

theorem simplices_other (policy t : Int) (ht : ((policy = 0 ∨ policy = 1) ∧ t = 4) ∨ ((policy = 5 ∨ policy = 6) ∧ t = 18)) (c : Cell)
    (hc : c.type ≠ t) : simplices policy c = [c] := by
  unfold simplices
  split
  · rcases ht with ⟨h, rfl⟩ | ⟨h, rfl⟩
    · exact absurd rfl hc
    · rw [if_neg (by omega), if_neg (by omega)]
  · rcases ht with ⟨h, rfl⟩ | ⟨h, rfl⟩
    · rw [if_neg (by omega), if_neg (by omega)]
    · exact absurd rfl hc
  · rfl

theorem cell_quad (c : Cell) (ht : c.type = 4) (hl : c.nodes.length = 4) :
    ∃ n0 n1 n2 n3, c = ⟨4, [n0, n1, n2, n3]⟩ := by
  obtain ⟨t, nodes⟩ := c
  subst ht
  rcases nodes with _ | ⟨a0, _ | ⟨a1, _ | ⟨a2, _ | ⟨a3, _ | ⟨z, nodes⟩⟩⟩⟩⟩ <;> simp at hl
  exact ⟨_, _, _, _, rfl⟩

theorem cell_hexa (c : Cell) (ht : c.type = 18) (hl : c.nodes.length = 8) :
    ∃ n0 n1 n2 n3 n4 n5 n6 n7, c = ⟨18, [n0, n1, n2, n3, n4, n5, n6, n7]⟩ := by
  obtain ⟨t, nodes⟩ := c
  subst ht
  rcases nodes with _ | ⟨a0, _ | ⟨a1, _ | ⟨a2, _ | ⟨a3, _ | ⟨a4, _ | ⟨a5, _ | ⟨a6, _ | ⟨a7, _ | ⟨z, nodes⟩⟩⟩⟩⟩⟩⟩⟩⟩ <;> simp at hl
  exact ⟨_, _, _, _, _, _, _, _, rfl⟩

theorem rows_count (P : Cell → List Cell) (t : Int) (dc dn : Nat) (cells : List Cell)
    (h1 : ∀ c ∈ cells, c.type ≠ t → P c = [c])
    (h2 : ∀ c ∈ cells, c.type = t → (P c).length = 1 + dc ∧ ((P c).map Cell.row).flatten.length = c.row.length + dn) :
    (cells.map P).flatten.length = cells.length + dc * cells.countP (fun c => decide (c.type = t)) ∧
      ((cells.map P).flatten.map Cell.row).flatten.length =
        (cells.map Cell.row).flatten.length + dn * cells.countP (fun c => decide (c.type = t)) := by
  induction cells with
  | nil => simp
  | cons c cells ih =>
    obtain ⟨i1, i2⟩ := ih (fun c hc => h1 c (by simp [hc])) (fun c hc => h2 c (by simp [hc]))
    rw [List.map_cons, List.flatten_cons, List.length_append, i1, List.map_append, List.flatten_append, List.length_append, i2,
      List.map_cons, List.flatten_cons, List.length_append, List.countP_cons, List.length_cons]
    by_cases ht : c.type = t
    · obtain ⟨h3, h4⟩ := h2 c (by simp) ht
      rw [h3, h4]
      simp only [ht, decide_true, if_true]
      constructor <;> ring
    · rw [h1 c (by simp) ht]
      simp [ht]
      omega

theorem cutCells_spec {u : UMesh} {conn connI : List Int} {cells : List Cell} (hu : u.arrays = some (conn, connI))
    (h : IsMesh conn connI cells) (dim t : Int) (dc dn : Nat) (cut : List Int → Int → M (List (List Int))) (P : Cell → List Cell)
    (hdim : u.dim = dim)
    (hcut : ∀ i (hi : i < cells.length) (a : Int), rd connI (i : Int) = .ok a → cells[i].type = t →
      cut conn a = .ok ((P cells[i]).map Cell.row))
    (h1 : ∀ c ∈ cells, c.type ≠ t → P c = [c])
    (h2 : ∀ c ∈ cells, c.type = t → (P c).length = 1 + dc ∧ ((P c).map Cell.row).flatten.length = c.row.length + dn)
    (hty : StrictSorted u.types ∧ ∀ t, t ∈ u.types ↔ ∃ c ∈ cells, c.type = t) :
    ∃ u' conn' connI', u.cutCells dim t dc dn cut = .ok (u', oldOf 0 (cells.map P)) ∧ u'.arrays = some (conn', connI') ∧
      IsMesh conn' connI' (cells.map P).flatten ∧ u'.dim = u.dim ∧ u'.nbNodes = u.nbNodes ∧
      StrictSorted u'.types ∧ ∀ t, t ∈ u'.types ↔ ∃ c ∈ (cells.map P).flatten, c.type = t := by
  have hc := (C51_observers h).2.2.1 t
  obtain ⟨hr1, hr2⟩ := rows_count P t dc dn cells h1 h2
  have hl := h.length
  unfold UMesh.cutCells
  rw [hu]
  dsimp only
  rw [if_neg (by simpa using hdim), hc, ok_bind]
  by_cases h0 : cells.countP (fun c => decide (c.type = t)) = 0
  · have hP : cells.map P = cells.map fun c => [c] := by
      apply List.map_congr_left
      intro c hc
      exact h1 c hc (by simpa using (List.countP_eq_zero.mp h0) c hc)
    have hfl : (cells.map P).flatten = cells := by
      rw [hP]
      clear * -
      induction cells with
      | nil => rfl
      | cons c cells ih => simpa using ih
    rw [if_pos (by simp [h0])]
    refine ⟨u, conn, connI, ?_, hu, by rw [hfl]; exact h, rfl, rfl, hty.1, by rw [hfl]; exact hty.2⟩
    congr 2
    rw [hl, hP]
    simp only [oldOf, List.zipIdx_map, List.flatMap_map, Nat.add_sub_cancel]
    clear * -
    have : ∀ k, List.flatMap (fun a : Cell × Nat => [(a.2 : Int)]) (cells.zipIdx k) = (List.range cells.length).map fun i => ((k + i : Nat) : Int) := by
      induction cells with
      | nil => intro k; rfl
      | cons c cells ih =>
        intro k
        rw [List.zipIdx_cons, List.flatMap_cons, ih, List.length_cons, List.range_succ_eq_map, List.map_cons, List.map_map]
        simp [Function.comp_def]
        intro a _
        omega
    have := this 0
    simp only [Nat.zero_add] at this
    rw [← this]
    rfl
  · obtain ⟨s, hs1, hs2, hs3⟩ := cutLoop_spec h t (cut conn) P hcut h1
    rw [if_neg (by simpa using h0), hs1, ok_bind, if_pos, ]
    · obtain ⟨ts, ht1, ht2, ht3⟩ := (C51_observers hs2).2.2.2.2
      rw [ht1, ok_bind, hs3]
      exact ⟨_, _, _, rfl, rfl, hs2, rfl, rfl, ht2, ht3⟩
    · rw [hs3, oldOf_length, hr1, hs2.1, hr2, h.1, hl]
      push_cast
      omega

/-- What a call of `simplexize` needs: the dimension of the policy, and quadrangles (hexahedra) which have their 4 (8) nodes. -/
def CanCut (u : UMesh) (cells : List Cell) (policy : Int) : Prop :=
  ((policy = 0 ∨ policy = 1) ∧ u.dim = 2 ∧ ∀ c ∈ cells, c.type = 4 → c.nodes.length = 4) ∨
    ((policy = 5 ∨ policy = 6) ∧ u.dim = 3 ∧ ∀ c ∈ cells, c.type = 18 → c.nodes.length = 8)

/-- The mesh holds these cells, and knows their types. -/
structure HoldsCells (u : UMesh) (cells : List Cell) : Prop where
  mesh : ∃ conn connI, u.arrays = some (conn, connI) ∧ IsMesh conn connI cells
  sorted : StrictSorted u.types
  types : ∀ t, t ∈ u.types ↔ ∃ c ∈ cells, c.type = t

/-- **C99.** `simplexize` replaces each cell, at its place, by its simplices, leaves the other cells, gives for each new cell the
number of its old cell, and updates the set of geometric types.  The number of nodes does not change. -/
theorem C99_cells_of_simplexize (u : UMesh) (cells : List Cell) (policy : Int) (hu : HoldsCells u cells) (hc : CanCut u cells policy) :
    ∃ u', u.simplexize policy = .ok (u', oldOf 0 (cells.map (simplices policy))) ∧
      HoldsCells u' (cells.map (simplices policy)).flatten ∧ u'.dim = u.dim ∧ u'.nbNodes = u.nbNodes := by
  obtain ⟨⟨conn, connI, ha, hm⟩, hs, ht⟩ := hu
  have fin : ∀ (dim t : Int) (dc dn : Nat) (cut : List Int → Int → M (List (List Int))),
      u.simplexize policy = u.cutCells dim t dc dn cut → u.dim = dim →
      (((policy = 0 ∨ policy = 1) ∧ t = 4) ∨ ((policy = 5 ∨ policy = 6) ∧ t = 18)) →
      (∀ i (hi : i < cells.length) (a : Int), rd connI (i : Int) = .ok a → cells[i].type = t →
        cut conn a = .ok ((simplices policy cells[i]).map Cell.row)) →
      (∀ c ∈ cells, c.type = t → (simplices policy c).length = 1 + dc ∧
        ((simplices policy c).map Cell.row).flatten.length = c.row.length + dn) →
      ∃ u', u.simplexize policy = .ok (u', oldOf 0 (cells.map (simplices policy))) ∧
      HoldsCells u' (cells.map (simplices policy)).flatten ∧ u'.dim = u.dim ∧ u'.nbNodes = u.nbNodes := by
    intro dim t dc dn cut e hd hp hcut hcnt
    obtain ⟨u', conn', connI', r1, r2, r3, r4, r5, r6, r7⟩ := cutCells_spec ha hm dim t dc dn cut (simplices policy) hd hcut
      (fun c _ hct => simplices_other policy t hp c hct) hcnt ⟨hs, ht⟩
    rw [e, r1]
    exact ⟨u', rfl, ⟨⟨conn', connI', r2, r3⟩, r6, r7⟩, r4, r5⟩
  rcases hc with ⟨hp, hd, hn⟩ | ⟨hp, hd, hn⟩
  · have rdq : ∀ i (hi : i < cells.length) (a : Int), rd connI (i : Int) = .ok a → cells[i].type = 4 →
        ∃ n0 n1 n2 n3, cells[i] = ⟨4, [n0, n1, n2, n3]⟩ ∧ rd conn (a + 1) = .ok n0 ∧ rd conn (a + 2) = .ok n1 ∧
          rd conn (a + 3) = .ok n2 ∧ rd conn (a + 4) = .ok n3 := by
      intro i hi a hra hct
      obtain ⟨n0, n1, n2, n3, e⟩ := cell_quad _ hct (hn _ (List.getElem_mem _) hct)
      have hh := fun k => hm.rd_node hi hra k
      simp only [e] at hh
      refine ⟨n0, n1, n2, n3, e, ?_, ?_, ?_, ?_⟩
      · simpa using hh 0 (by simp)
      · simpa [Int.add_assoc] using hh 1 (by simp)
      · simpa [Int.add_assoc] using hh 2 (by simp)
      · simpa [Int.add_assoc] using hh 3 (by simp)
    rcases hp with rfl | rfl
    · refine fin 2 4 1 3 cutQuad0 rfl hd (by simp) ?_ ?_
      · intro i hi a hra hct
        obtain ⟨n0, n1, n2, n3, e, e0, e1, e2, e3⟩ := rdq i hi a hra hct
        simp only [cutQuad0, e0, e1, e2, e3, ok_bind, e]
        rfl
      · intro c hc hct
        obtain ⟨n0, n1, n2, n3, rfl⟩ := cell_quad c hct (hn c hc hct)
        exact ⟨rfl, rfl⟩
    · refine fin 2 4 1 3 cutQuad1 rfl hd (by simp) ?_ ?_
      · intro i hi a hra hct
        obtain ⟨n0, n1, n2, n3, e, e0, e1, e2, e3⟩ := rdq i hi a hra hct
        simp only [cutQuad1, e0, e1, e2, e3, ok_bind, e]
        rfl
      · intro c hc hct
        obtain ⟨n0, n1, n2, n3, rfl⟩ := cell_quad c hct (hn c hc hct)
        exact ⟨rfl, rfl⟩
  · have rdh : ∀ i (hi : i < cells.length) (a : Int), rd connI (i : Int) = .ok a → cells[i].type = 18 →
        ∃ n0 n1 n2 n3 n4 n5 n6 n7, cells[i] = ⟨18, [n0, n1, n2, n3, n4, n5, n6, n7]⟩ ∧ rd conn (a + 0 + 1) = .ok n0 ∧
          rd conn (a + 1 + 1) = .ok n1 ∧ rd conn (a + 2 + 1) = .ok n2 ∧ rd conn (a + 3 + 1) = .ok n3 ∧
          rd conn (a + 4 + 1) = .ok n4 ∧ rd conn (a + 5 + 1) = .ok n5 ∧ rd conn (a + 6 + 1) = .ok n6 ∧
          rd conn (a + 7 + 1) = .ok n7 := by
      intro i hi a hra hct
      obtain ⟨n0, n1, n2, n3, n4, n5, n6, n7, e⟩ := cell_hexa _ hct (hn _ (List.getElem_mem _) hct)
      have hh := fun k => hm.rd_node hi hra k
      simp only [e] at hh
      exact ⟨n0, n1, n2, n3, n4, n5, n6, n7, e, hh 0 (by simp), hh 1 (by simp), hh 2 (by simp), hh 3 (by simp), hh 4 (by simp),
        hh 5 (by simp), hh 6 (by simp), hh 7 (by simp)⟩
    have tet : ∀ (tbl : List Int) (j : Nat) (a k0 k1 k2 k3 n0 n1 n2 n3 : Int), rd tbl (4 * j) = .ok k0 → rd tbl (4 * j + 1) = .ok k1 →
        rd tbl (4 * j + 2) = .ok k2 → rd tbl (4 * j + 3) = .ok k3 → rd conn (a + k0 + 1) = .ok n0 → rd conn (a + k1 + 1) = .ok n1 →
        rd conn (a + k2 + 1) = .ok n2 → rd conn (a + k3 + 1) = .ok n3 → cutTetra tbl conn a j = .ok [14, n0, n1, n2, n3] := by
      intro tbl j a k0 k1 k2 k3 n0 n1 n2 n3 h0 h1 h2 h3 h4 h5 h6 h7
      unfold cutTetra
      rw [h0, ok_bind, h1, ok_bind, h2, ok_bind, h3, ok_bind, h4, ok_bind, h5, ok_bind, h6, ok_bind, h7, ok_bind]
    rcases hp with rfl | rfl
    · refine fin 3 18 4 16 (cutHexa splitNodes5WO 5) rfl hd (by simp) ?_ ?_
      · intro i hi a hra hct
        obtain ⟨n0, n1, n2, n3, n4, n5, n6, n7, e, e0, e1, e2, e3, e4, e5, e6, e7⟩ := rdh i hi a hra hct
        rw [e]
        have t0 := tet splitNodes5WO 0 a 0 5 1 2 n0 n5 n1 n2 rfl rfl rfl rfl e0 e5 e1 e2
        have t1 := tet splitNodes5WO 1 a 0 4 5 7 n0 n4 n5 n7 rfl rfl rfl rfl e0 e4 e5 e7
        have t2 := tet splitNodes5WO 2 a 0 3 7 2 n0 n3 n7 n2 rfl rfl rfl rfl e0 e3 e7 e2
        have t3 := tet splitNodes5WO 3 a 5 7 6 2 n5 n7 n6 n2 rfl rfl rfl rfl e5 e7 e6 e2
        have t4 := tet splitNodes5WO 4 a 0 5 2 7 n0 n5 n2 n7 rfl rfl rfl rfl e0 e5 e2 e7
        show (List.range 5).mapM (cutTetra splitNodes5WO conn a) = _
        simp only [show List.range 5 = [0, 1, 2, 3, 4] from rfl, List.mapM_cons, t0, t1, t2, t3, t4, ok_bind, List.mapM_nil]
        rfl
      · intro c hc hct
        obtain ⟨n0, n1, n2, n3, n4, n5, n6, n7, rfl⟩ := cell_hexa c hct (hn c hc hct)
        exact ⟨rfl, rfl⟩
    · refine fin 3 18 5 21 (cutHexa splitNodes6WO 6) rfl hd (by simp) ?_ ?_
      · intro i hi a hra hct
        obtain ⟨n0, n1, n2, n3, n4, n5, n6, n7, e, e0, e1, e2, e3, e4, e5, e6, e7⟩ := rdh i hi a hra hct
        rw [e]
        have t0 := tet splitNodes6WO 0 a 0 5 1 6 n0 n5 n1 n6 rfl rfl rfl rfl e0 e5 e1 e6
        have t1 := tet splitNodes6WO 1 a 0 1 2 6 n0 n1 n2 n6 rfl rfl rfl rfl e0 e1 e2 e6
        have t2 := tet splitNodes6WO 2 a 0 4 5 6 n0 n4 n5 n6 rfl rfl rfl rfl e0 e4 e5 e6
        have t3 := tet splitNodes6WO 3 a 0 7 4 6 n0 n7 n4 n6 rfl rfl rfl rfl e0 e7 e4 e6
        have t4 := tet splitNodes6WO 4 a 0 2 3 6 n0 n2 n3 n6 rfl rfl rfl rfl e0 e2 e3 e6
        have t5 := tet splitNodes6WO 5 a 0 3 7 6 n0 n3 n7 n6 rfl rfl rfl rfl e0 e3 e7 e6
        show (List.range 6).mapM (cutTetra splitNodes6WO conn a) = _
        simp only [show List.range 6 = [0, 1, 2, 3, 4, 5] from rfl, List.mapM_cons, t0, t1, t2, t3, t4, t5, ok_bind, List.mapM_nil]
        rfl
      · intro c hc hct
        obtain ⟨n0, n1, n2, n3, n4, n5, n6, n7, rfl⟩ := cell_hexa c hct (hn c hc hct)
        exact ⟨rfl, rfl⟩

/-- **C99.** When `simplexize` refuses: another policy, no connectivity, or a mesh of another dimension. -/
theorem C99_simplexize_refuses (u : UMesh) (policy : Int) :
    (¬ (policy = 0 ∨ policy = 1 ∨ policy = 5 ∨ policy = 6) ∨ u.arrays = none ∨ ((policy = 0 ∨ policy = 1) ∧ u.dim ≠ 2) ∨
      ((policy = 5 ∨ policy = 6) ∧ u.dim ≠ 3)) → u.simplexize policy = .error .exn := by
  intro h
  have aux : ∀ (dim t : Int) (dc dn : Nat) (cut : List Int → Int → M (List (List Int))), (u.arrays = none ∨ u.dim ≠ dim) →
      u.cutCells dim t dc dn cut = .error .exn := by
    intro dim t dc dn cut h
    unfold UMesh.cutCells
    cases ha : u.arrays with
    | none => rfl
    | some p =>
      rcases h with h | h
      · rw [ha] at h; cases h
      · dsimp only
        rw [if_pos h]
        rfl
  unfold UMesh.simplexize
  split
  · exact aux _ _ _ _ _ (by rcases h with h | h | h | h <;> first | exact Or.inl h | exact Or.inr h.2 | omega)
  split
  · exact aux _ _ _ _ _ (by rcases h with h | h | h | h <;> first | exact Or.inl h | exact Or.inr h.2 | omega)
  split
  · exact aux _ _ _ _ _ (by rcases h with h | h | h | h <;> first | exact Or.inl h | exact Or.inr h.2 | omega)
  split
  · exact aux _ _ _ _ _ (by rcases h with h | h | h | h <;> first | exact Or.inl h | exact Or.inr h.2 | omega)
  · rfl

end MC
