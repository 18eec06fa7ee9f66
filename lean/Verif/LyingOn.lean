import Verif.EnlNeigh

/-!
# C70: cells lying on nodes, cells lying on a mesh of their faces
-/

namespace MC
section

/-! ## Cells lying on nodes -/

theorem mark_nodes {sz : Int} (hsz : 0 ≤ sz) (nodes : List Int) :
    ∃ fast : List Bool, nodes.foldlM (fun (fast : List Bool) (n : Int) => if n ≥ 0 ∧ n < sz then wr fast n true else .ok fast) (List.replicate sz.toNat false) = .ok fast ∧
      fast.length = sz.toNat ∧ ∀ x : Int, On fast x ↔ 0 ≤ x ∧ x < sz ∧ x ∈ nodes := by
  have := wp_foldlM (l := nodes) (s := List.replicate sz.toNat false) (E := False)
    (f := fun (fast : List Bool) (n : Int) => if n ≥ 0 ∧ n < sz then wr fast n true else .ok fast)
    (fun (pre : List Int) (fast : List Bool) => fast.length = sz.toNat ∧ ∀ x : Int, On fast x ↔ 0 ≤ x ∧ x < sz ∧ x ∈ pre)
    ⟨by simp, fun x => by
      constructor
      · intro h; exact (not_on_replicate h).elim
      · rintro ⟨-, -, h⟩; simp at h⟩ (by
      rintro pre x suf e fast ⟨h1, h2⟩
      split
      · rename_i hx
        obtain ⟨fast', e1, e2, e3, -⟩ := wr_on (l := fast) (x := x) hx.1 (by omega)
        rw [e1]
        refine ⟨by omega, fun y => ?_⟩
        rw [e3, h2, List.mem_append, List.mem_singleton]
        constructor
        · rintro (h | rfl)
          · exact ⟨h.1, h.2.1, Or.inl h.2.2⟩
          · exact ⟨hx.1, hx.2, Or.inr rfl⟩
        · rintro ⟨q1, q2, q3 | q3⟩
          · exact Or.inl ⟨q1, q2, q3⟩
          · exact Or.inr q3
      · rename_i hx
        refine ⟨h1, fun y => ?_⟩
        rw [h2, List.mem_append, List.mem_singleton]
        constructor
        · rintro ⟨q1, q2, q3⟩; exact ⟨q1, q2, Or.inl q3⟩
        · rintro ⟨q1, q2, q3 | rfl⟩
          · exact ⟨q1, q2, q3⟩
          · exact absurd ⟨q1, q2⟩ hx)
  exact wp_exists this

/-- C70: `getCellIdsLyingOnNodes`: the increasing list of the cells all whose nodes, or one of whose nodes, are among the given nodes.
Given nodes that are in no cell, repeated or negative have no effect. -/
theorem C70_lying_on_nodes {conn connI : List Int} {cells : List Cell} (h : IsMesh conn connI cells) (nodes : List Int) (fullyIn : Bool) :
    ∃ r, getCellIdsLyingOnNodes conn connI nodes fullyIn = .ok r ∧ StrictSorted r ∧ ∀ v : Int, v ∈ r ↔ ∃ (i : Nat) (c : Cell), v = i ∧ cells[i]? = some c ∧
      if fullyIn then ∀ n ∈ c.nodes, 0 ≤ n → n ∈ nodes else ∃ n ∈ c.nodes, 0 ≤ n ∧ n ∈ nodes := by
  unfold getCellIdsLyingOnNodes
  by_cases hconn : conn = []
  · rw [if_pos hconn]
    refine ⟨[], rfl, List.Pairwise.nil, fun v => ?_⟩
    have hnil : cells = [] := by
      have h1 := h.1
      rw [hconn] at h1
      by_contra hne
      obtain ⟨c, hcm⟩ := List.exists_mem_of_ne_nil _ hne
      have : c.type ∈ (cells.map Cell.row).flatten := List.mem_flatten.mpr ⟨c.row, List.mem_map.mpr ⟨c, hcm, rfl⟩, by simp [Cell.row]⟩
      rw [← h1] at this
      cases this
    simp [hnil]
  · rw [if_neg hconn]
    dsimp only
    have hsz : 0 ≤ max (maxElement conn) 0 + 1 := by omega
    obtain ⟨fast, e1, e2, e3⟩ := mark_nodes hsz nodes
    rw [e1, ok_bind]
    have hlt : ∀ c ∈ cells, ∀ n ∈ c.nodes, n < max (maxElement conn) 0 + 1 := by
      intro c hcm n hn
      have : n ∈ conn := by
        rw [h.1]
        exact List.mem_flatten.mpr ⟨c.row, List.mem_map.mpr ⟨c, hcm, rfl⟩, by simp [Cell.row, hn]⟩
      have := maxElement_le this
      omega
    have key := wp_forCells h (s := ([] : List Int)) (E := False)
      (f := fun i c kept => do
        let p ← c.nodes.foldlM (fun (p : Nat × Nat) (n : Int) =>
          if n ≥ 0 then do
            let b ← rd fast n
            .ok (p.1 + 1, if b then p.2 + 1 else p.2)
          else .ok p) (0, 0)
        .ok (if (p.1 = p.2 ∧ fullyIn = true) ∨ (p.2 ≠ 0 ∧ fullyIn = false) then kept ++ [(i : Int)] else kept))
      (fun k (r : List Int) => StrictSorted r ∧ (∀ v ∈ r, v < (k : Int)) ∧ ∀ v : Int, v ∈ r ↔ ∃ (i : Nat) (c : Cell), v = i ∧ i < k ∧ cells[i]? = some c ∧
        if fullyIn then ∀ n ∈ c.nodes, 0 ≤ n → n ∈ nodes else ∃ n ∈ c.nodes, 0 ≤ n ∧ n ∈ nodes)
      ⟨List.Pairwise.nil, by simp, by simp⟩ (by
        rintro i hi r ⟨r1, r2, r3⟩
        have hin := wp_foldlM (l := cells[i].nodes) (s := ((0, 0) : Nat × Nat)) (E := False)
          (f := fun (p : Nat × Nat) (n : Int) =>
            if n ≥ 0 then do
              let b ← rd fast n
              .ok (p.1 + 1, if b then p.2 + 1 else p.2)
            else .ok p)
          (fun (pre : List Int) (p : Nat × Nat) => p.2 ≤ p.1 ∧ (p.1 = p.2 ↔ ∀ n ∈ pre, 0 ≤ n → n ∈ nodes) ∧ (p.2 ≠ 0 ↔ ∃ n ∈ pre, 0 ≤ n ∧ n ∈ nodes))
          ⟨le_refl _, by simp, by simp⟩ (by
            rintro pre x suf e ⟨a, b⟩ ⟨p0, p1, p2⟩
            simp only at p0 p1 p2
            by_cases hx : x ≥ 0
            · have hxlt := hlt _ (List.getElem_mem hi) x (by rw [e]; simp)
              obtain ⟨o1, o2⟩ := rd_on (l := fast) (x := x) hx (by omega)
              rw [if_pos hx]
              by_cases hxn : x ∈ nodes
              · rw [o1 ((e3 x).mpr ⟨hx, hxlt, hxn⟩), ok_bind]
                refine ⟨?_, ?_, ?_⟩
                · simp only [if_true]; omega
                · simp only [if_true, List.mem_append, List.mem_singleton]
                  rw [show a + 1 = b + 1 ↔ a = b by omega, p1]
                  constructor
                  · rintro h n (hn | rfl) h0
                    · exact h n hn h0
                    · exact hxn
                  · exact fun h n hn h0 => h n (Or.inl hn) h0
                · simp only [if_true]
                  exact ⟨fun _ => ⟨x, by simp, hx, hxn⟩, fun _ => by omega⟩
              · rw [o2 (fun h => hxn ((e3 x).mp h).2.2), ok_bind]
                refine ⟨?_, ?_, ?_⟩
                · simp only [Bool.false_eq_true, if_false]; omega
                · simp only [Bool.false_eq_true, if_false]
                  exact ⟨fun h => by omega, fun h => absurd (h x (by simp) hx) hxn⟩
                · simp only [Bool.false_eq_true, if_false]
                  rw [p2]
                  constructor
                  · rintro ⟨n, hn, h⟩; exact ⟨n, by simp [hn], h⟩
                  · rintro ⟨n, hn, h0, h⟩
                    rw [List.mem_append, List.mem_singleton] at hn
                    rcases hn with hn | rfl
                    · exact ⟨n, hn, h0, h⟩
                    · exact absurd h hxn
            · rw [if_neg hx]
              refine ⟨p0, ?_, ?_⟩
              · rw [p1]
                constructor
                · intro h n hn h0
                  rw [List.mem_append, List.mem_singleton] at hn
                  rcases hn with hn | rfl
                  · exact h n hn h0
                  · exact absurd h0 hx
                · exact fun h n hn h0 => h n (by simp [hn]) h0
              · rw [p2]
                constructor
                · rintro ⟨n, hn, h⟩; exact ⟨n, by simp [hn], h⟩
                · rintro ⟨n, hn, h0, h⟩
                  rw [List.mem_append, List.mem_singleton] at hn
                  rcases hn with hn | rfl
                  · exact ⟨n, hn, h0, h⟩
                  · exact absurd h0 hx)
        obtain ⟨⟨a, b⟩, s1, s2, s3, s4⟩ := wp_exists hin
        rw [s1, ok_bind]
        have hiff : ((a = b ∧ fullyIn = true) ∨ (b ≠ 0 ∧ fullyIn = false)) ↔
            if fullyIn then ∀ n ∈ cells[i].nodes, 0 ≤ n → n ∈ nodes else ∃ n ∈ cells[i].nodes, 0 ≤ n ∧ n ∈ nodes := by
          cases fullyIn with
          | true => simpa using s3
          | false => simpa using s4
        have hci : cells[i]? = some cells[i] := List.getElem?_eq_getElem hi
        simp only
        split
        · rename_i hq
          refine ⟨?_, ?_, ?_⟩
          · refine List.pairwise_append.mpr ⟨r1, List.pairwise_singleton _ _, ?_⟩
            intro x hx y hy
            rw [List.mem_singleton] at hy
            subst hy
            exact r2 x hx
          · intro v hv
            rw [List.mem_append, List.mem_singleton] at hv
            rcases hv with hv | rfl
            · have := r2 v hv; omega
            · omega
          · intro v
            rw [List.mem_append, List.mem_singleton, r3]
            constructor
            · rintro (⟨j, c, q1, q2, q3⟩ | rfl)
              · exact ⟨j, c, q1, by omega, q3⟩
              · exact ⟨i, _, rfl, by omega, hci, hiff.mp hq⟩
            · rintro ⟨j, c, rfl, q2, q3⟩
              rcases Nat.lt_succ_iff_lt_or_eq.mp q2 with q2 | rfl
              · exact Or.inl ⟨j, c, rfl, q2, q3⟩
              · exact Or.inr rfl
        · rename_i hq
          refine ⟨r1, fun v hv => by have := r2 v hv; omega, fun v => ?_⟩
          rw [r3]
          constructor
          · rintro ⟨j, c, q1, q2, q3⟩
            exact ⟨j, c, q1, by omega, q3⟩
          · rintro ⟨j, c, rfl, q2, q3, q4⟩
            rcases Nat.lt_succ_iff_lt_or_eq.mp q2 with q2 | rfl
            · exact ⟨j, c, rfl, q2, q3, q4⟩
            · rw [hci, Option.some.injEq] at q3
              subst q3
              exact absurd (hiff.mpr q4) hq)
    obtain ⟨r, k1, k2, -, k4⟩ := wp_exists key
    refine ⟨r, k1, k2, fun v => ?_⟩
    rw [k4]
    constructor
    · rintro ⟨i, c, q1, -, q3⟩; exact ⟨i, c, q1, q3⟩
    · rintro ⟨i, c, q1, q2, q3⟩; exact ⟨i, c, q1, (List.getElem?_eq_some_iff.mp q2).1, q2, q3⟩

example : IsMesh [3, 0, 1, 2, 3, 2, 1, 3, 31, 0, 4, 5, -1, 0] [0, 4, 8, 14] [⟨3, [0, 1, 2]⟩, ⟨3, [2, 1, 3]⟩, ⟨31, [0, 4, 5, -1, 0]⟩] ∧
    getCellIdsLyingOnNodes [3, 0, 1, 2, 3, 2, 1, 3, 31, 0, 4, 5, -1, 0] [0, 4, 8, 14] [5, 0, 4, 77, -3] true = .ok [2] ∧
    getCellIdsLyingOnNodes [3, 0, 1, 2, 3, 2, 1, 3, 31, 0, 4, 5, -1, 0] [0, 4, 8, 14] [5, 0, 4, 77, -3] false = .ok [0, 2] := by
  exact ⟨by decide, by decide, by decide⟩

/-! ## Sub cells -/

theorem BoundaryOf.unique {c : Cell} {l l' : List Cell} (h : BoundaryOf c l) (h' : BoundaryOf c l') : l = l' := by
  obtain ⟨cm, h1, h2⟩ := h
  obtain ⟨cm', h3, h4⟩ := h'
  rw [h1] at h3
  cases h3
  rw [h2] at h4
  exact List.map_injective_iff.mpr cell_pair_injective (Except.ok.inj h4)

theorem mem_joinFaces {fs : List (List Int)} {f : List Int} (hf : f ∈ fs) {n : Int} (hn : n ∈ f) : n ∈ joinFaces fs := by
  induction fs with
  | nil => simp at hf
  | cons g fs ih =>
    cases fs with
    | nil => rw [List.mem_singleton] at hf; subst hf; exact hn
    | cons g' fs =>
      rw [joinFaces, List.mem_append, List.mem_cons]
      rcases List.mem_cons.mp hf with rfl | hf
      · exact Or.inl hn
      · exact Or.inr (Or.inr (ih hf))

/-- The nodes of the sub cells of a cell are nodes of the cell. -/
theorem boundary_nodes {dim : Int} {nbNodes : Nat} {c : Cell} (h : CellOk dim nbNodes c) (hd : dim ≤ 3) {sons : List Cell} (hb : BoundaryOf c sons)
    {s : Cell} (hs : s ∈ sons) {n : Int} (hn : n ∈ s.nodes) : n ∈ c.nodes := by
  obtain ⟨cm, h1, h2⟩ := hb
  obtain ⟨cm', h3, h4, h5⟩ := h
  rw [h1] at h3
  cases h3
  have hmem : (s.type, s.nodes) ∈ sons.map fun s => (s.type, s.nodes) := List.mem_map.mpr ⟨s, hs, rfl⟩
  rcases h5 with ⟨hdyn, hlen, hno⟩ | ⟨ht, hc, hno⟩ | ⟨ht, fs, hne, hj, hf⟩
  · rw [allSons_static h1 hdyn (by omega) hlen] at h2
    rw [← Except.ok.inj h2] at hmem
    obtain ⟨p, hp, e⟩ := List.mem_map.mp hmem
    obtain ⟨hm, -⟩ := getCellModel_mem h1
    have hb : ∀ k ∈ p.2, k < c.nodes.length := by rw [hlen]; exact (table_wf cm hm hdyn (by omega)).2.1 p hp
    apply pick_mem hb
    have := (Prod.mk.inj e).2
    rw [this]
    exact hn
  · obtain ⟨q1, q2, q3⟩ := cellModel_polygons h1 ht
    rw [(C47_edges_2D h1 q1 (fun hh => by rw [q2] at hh; cases hh)).1] at h2
    rw [← Except.ok.inj h2] at hmem
    obtain ⟨e, he, e'⟩ := List.mem_map.mp hmem
    have hn' : n ∈ (segOf cm.quad e).2 := by rw [e']; exact hn
    unfold edgesOf at he
    obtain ⟨i, hi, he⟩ := List.mem_filterMap.mp he
    split at he
    · rename_i a b ha hb
      simp only [Option.some.injEq] at he
      subst he
      simp only [segOf, List.mem_cons, Option.mem_toList] at hn'
      rcases hn' with rfl | rfl | hn'
      · exact List.mem_of_getElem? ha
      · exact List.mem_of_getElem? hb
      · exact List.mem_of_getElem? hn'
    · cases he
  · have hcm : getCellModel 31 = .ok cm_polyhed := by decide
    rw [ht, hcm] at h1
    cases h1
    rw [hj, C47_polyhedron_sons fs hne fun f hff hm => by have := (hf f hff).2.2 _ hm; omega] at h2
    rw [← Except.ok.inj h2] at hmem
    obtain ⟨f, hff, e⟩ := List.mem_map.mp hmem
    rw [hj]
    apply mem_joinFaces hff
    have := (Prod.mk.inj e).2
    rw [this]
    exact hn

/-! ## Cells lying on a mesh -/

theorem sameCell2 (c d : Cell) : SameCell 2 c d ↔ c.type = d.type ∧ c.nodes.length = d.nodes.length ∧ ∀ n, n ∈ c.nodes ↔ n ∈ d.nodes := by
  unfold SameCell
  constructor
  · intro h; exact h.2.2.1 rfl
  · intro h; exact ⟨fun h => by omega, fun h => by omega, fun _ => h, fun h => by omega⟩

theorem SameCell.to3 {c d : Cell} (h : SameCell 2 c d) : SameCell 3 c d := by
  rw [sameCell2] at h
  rw [sameCell3]
  exact h.2

/-- `areCellsIncludedIn` refuses a mesh without cells. -/
theorem included_empty {this other : SMesh} {ds : List Cell} (h1 : IsMesh this.conn this.connI [])
    (h2 : IsMesh other.conn other.connI ds) (hc : this.coords = other.coords) (hd : this.dim = other.dim) (hdim : this.dim ≠ -2) {nbNodes : Nat}
    (hp : ∀ c ∈ ds, PolicyOk 2 c) (hn : ∀ c ∈ ds, GoodNodes nbNodes c) (hds : ds ≠ []) : areCellsIncludedIn nbNodes this other 2 = .error .exn := by
  obtain ⟨conn, connI, e1, e2⟩ := (C60_mergeSameCoords [this, other] [[], ds] this.coords this.dim (by simp)
    (.cons h1 (.cons h2 .nil))).1 (by simp [hc, hd]) hdim
  rw [show [[], ds].flatten = ds by simp] at e2
  have hdpos : 0 < ds.length := List.length_pos_of_ne_nil hds
  obtain ⟨cc, ci, gs, f1, f2, f3⟩ := C58_findCommonCells e2 hdim hp (by omega) hn 0
  obtain ⟨r, nb, g1, g2⟩ := classNumbering_of_groups f2 f3
  have hl := e2.length
  have hl1 := h1.length
  have hl2 := h2.length
  simp only [List.length_nil] at hl1
  unfold areCellsIncludedIn
  rw [e1, ok_bind]
  simp only
  rw [initialised_map_some, ok_bind, initialised_map_some, ok_bind, if_neg (by omega), if_neg (by omega)]
  rw [show (this.connI.length : Int) - 1 = ((0 : Nat) : Int) by omega, f1, ok_bind]
  simp only
  rw [show connI.length - 1 = ds.length by omega, g1, ok_bind]
  rfl

/-- A cell of `ds` is a sub cell of `c`. -/
def LiesOn (ds : List Cell) (c : Cell) : Prop := ∃ sons, BoundaryOf c sons ∧ ∃ s ∈ sons, ∃ d ∈ ds, SameCell 2 s d

/-- C70: `findCellIdsLyingOn`, on a mesh in which sub cells with the same nodes have the same type.  When each cell of the other mesh is a sub cell
of a cell of this mesh, the first array gives the cells with a node of the other mesh and the second one the positions, in the first one, of
the cells that have a cell of the other mesh among their sub cells; all such cells are given.  Otherwise the call throws. -/
theorem C70_lying_on {nbNodes : Nat} {this other : SMesh} {cs ds : List Cell} (h1 : IsMesh this.conn this.connI cs) (h2 : IsMesh other.conn other.connI ds)
    (hco : this.coords = other.coords) (hdim : other.dim = this.dim - 1) (hd : 0 ≤ this.dim ∧ this.dim ≤ 3) (hcs : ∀ c ∈ cs, CellOk this.dim nbNodes c)
    (hds : ∀ d ∈ ds, GoodNodes nbNodes d) (hne : ds ≠ [])
    (hty : ∀ c ∈ cs, ∀ c' ∈ cs, ∀ sons sons', BoundaryOf c sons → BoundaryOf c' sons' → ∀ s ∈ sons, ∀ s' ∈ sons', SameCell 3 s s' → s.type = s'.type) :
    ((∀ d ∈ ds, ∃ c ∈ cs, LiesOn [d] c) → ∃ s0 s1, findCellIdsLyingOn nbNodes this other = .ok (s0, s1) ∧ StrictSorted s0 ∧
      (∀ v : Int, v ∈ s0 ↔ ∃ (i : Nat) (c : Cell), v = i ∧ cs[i]? = some c ∧ ∃ n ∈ c.nodes, 0 ≤ n ∧ ∃ d ∈ ds, n ∈ d.nodes) ∧ StrictSorted s1 ∧
      (∀ k : Int, k ∈ s1 ↔ ∃ (k' i : Nat) (c : Cell), k = k' ∧ s0[k']? = some (i : Int) ∧ cs[i]? = some c ∧ LiesOn ds c) ∧
      ∀ (i : Nat) (c : Cell), cs[i]? = some c → LiesOn ds c → (i : Int) ∈ s0) ∧
    ((∃ d ∈ ds, ∀ c ∈ cs, ¬ LiesOn [d] c) → findCellIdsLyingOn nbNodes this other = .error .exn) := by
  obtain ⟨fn, f1, -, f3⟩ := C54_computeFetchedNodeIds h2
  obtain ⟨s0, a1, a2, a3⟩ := C70_lying_on_nodes h1 fn false
  simp only [Bool.false_eq_true, if_false] at a3
  have hs0 : ∀ v : Int, v ∈ s0 ↔ ∃ (i : Nat) (c : Cell), v = i ∧ cs[i]? = some c ∧ ∃ n ∈ c.nodes, 0 ≤ n ∧ ∃ d ∈ ds, n ∈ d.nodes := by
    intro v
    rw [a3]
    refine exists_congr fun i => exists_congr fun c => and_congr_right fun _ => and_congr_right fun _ => exists_congr fun n => and_congr_right fun _ => and_congr_right fun h0 => ?_
    rw [f3]
    exact ⟨fun h => h.2, fun h => ⟨h0, h⟩⟩
  have hfirst : ∀ (i : Nat) (c : Cell), cs[i]? = some c → LiesOn ds c → (i : Int) ∈ s0 := by
    rintro i c hc ⟨sons, hb, s, hs, d, hdm, hsd⟩
    obtain ⟨n, hn, h0⟩ := (hds d hdm).2
    have hn' := ((sameCell2 _ _).mp hsd).2.2 n |>.mpr hn
    exact (hs0 i).mpr ⟨i, c, rfl, hc, n, boundary_nodes (hcs c (List.mem_of_getElem? hc)) hd.2 hb hs hn', h0, d, hdm, hn⟩
  -- the part
  obtain ⟨pc, pi, types, part, b1, b2, b3, b4, -⟩ := (C56_buildPart h1 s0).1 (by
    intro v hv
    obtain ⟨i, c, rfl, hi, -⟩ := (hs0 v).mp hv
    have := (List.getElem?_eq_some_iff.mp hi).1
    omega)
  have hpart : ∀ (k : Nat) (c : Cell), part[k]? = some c ↔ ∃ i : Nat, s0[k]? = some (i : Int) ∧ cs[i]? = some c := by
    intro k c
    constructor
    · intro hk
      have hlt := (List.getElem?_eq_some_iff.mp hk).1
      have hs : s0[k]? = some (s0[k]'(by omega)) := List.getElem?_eq_getElem (by omega)
      obtain ⟨i, c', e, hi, -⟩ := (hs0 _).mp (List.mem_of_getElem? hs)
      rw [e] at hs
      refine ⟨i, hs, ?_⟩
      rw [← hk, b4 k _ hs, Int.toNat_natCast]
    · rintro ⟨i, hs, hi⟩
      rw [b4 k _ hs, Int.toNat_natCast, hi]
  have hpcs : ∀ c ∈ part, c ∈ cs := by
    intro c hcm
    obtain ⟨k, hk⟩ := List.getElem?_of_mem hcm
    obtain ⟨i, -, hi⟩ := (hpart k c).mp hk
    exact List.mem_of_getElem? hi
  obtain ⟨S, r, faces, D, d1, d2, d3, -, d5, d6, d7⟩ := C63_descending b2 hd fun c hcm => hcs c (hpcs c hcm)
  have hboundary : ∀ {s : Cell}, s ∈ S.flatten ↔ ∃ c ∈ part, ∃ sons, BoundaryOf c sons ∧ s ∈ sons := by
    intro s
    rw [List.mem_flatten]
    constructor
    · rintro ⟨l, hl, hs⟩
      obtain ⟨c, hcm, hb⟩ := forall₂_mem_right d1 hl
      exact ⟨c, hcm, l, hb, hs⟩
    · rintro ⟨c, hcm, l, hb, hs⟩
      obtain ⟨l', hl', hb'⟩ := forall₂_mem_left d1 hcm
      rw [hb.unique hb'] at hs
      exact ⟨l', hl', hs⟩
  have hfS : ∀ e ∈ faces, e ∈ S.flatten := by
    intro e hm
    obtain ⟨k, hk, rfl⟩ := List.mem_iff_getElem.mp hm
    obtain ⟨i, hi, -⟩ := d5.first k _ (List.getElem?_eq_getElem hk)
    exact List.mem_of_getElem? hi
  have hsame : ∀ s ∈ S.flatten, ∀ s' ∈ S.flatten, SameCell 3 s s' → s.type = s'.type := by
    intro s hs s' hs' h
    obtain ⟨c, hcm, l, hb, hl⟩ := hboundary.mp hs
    obtain ⟨c', hcm', l', hb', hl'⟩ := hboundary.mp hs'
    exact hty c (hpcs c hcm) c' (hpcs c' hcm') l l' hb hb' s hl s' hl' h
  have hgood : ∀ e ∈ faces, GoodNodes nbNodes e ∧ e.nodes ≠ [] := by
    intro e hm
    obtain ⟨c, hcm, l, hb, hl⟩ := hboundary.mp (hfS e hm)
    obtain ⟨l', hs', hb'⟩ := hasSons_minusOne (hcs c (hpcs c hcm)) hd.2
    rw [hb.unique hb'] at hl
    obtain ⟨-, q1, -, q2⟩ := (hs'.2 e hl).1
    obtain ⟨n, hn⟩ := List.exists_mem_of_ne_nil _ q1
    exact ⟨⟨fun n hn => by have := q2 n hn; omega, n, hn, (q2 n hn).1⟩, q1⟩
  -- the unfolded call
  have hunf : findCellIdsLyingOn nbNodes this other = (do
      let inc ← areCellsIncludedIn nbNodes ⟨this.dim - 1, this.coords, r.conn, r.connI⟩ other 2
      if inc.2 = false then throwX
      else do
        let s1 ← inc.1.foldlM (fun (s1 : List Int) (id : Int) => do
          let g ← revGroup r.revDesc r.revDescIndx id
          .ok (setInsertAll s1 g)) []
        .ok (s0, s1)) := by
    unfold findCellIdsLyingOn
    rw [if_neg (by simpa using hco), if_neg (by omega), f1, ok_bind, initialised_map_some, ok_bind, a1, ok_bind]
    unfold buildPartOfMySelfKeep
    rw [if_pos (by omega), b1, ok_bind, initialised_map_some, ok_bind, ok_bind]
    dsimp only
    rw [d2, ok_bind]
  have hdsn : ∀ d ∈ ds, PolicyOk 2 d := by
    intro d hdm
    obtain ⟨n, hn, -⟩ := (hds d hdm).2
    exact ⟨by omega, fun e => by rw [e] at hn; simp at hn, fun h => by omega⟩
  -- what the faces say of the cells
  have hface : ∀ d : Cell, d ∈ ds → ((∃ f ∈ faces, SameCell 2 f d) ↔ ∃ c ∈ cs, LiesOn [d] c) := by
    intro d hdm
    constructor
    · rintro ⟨f, hf, hs⟩
      obtain ⟨c, hcm, l, hb, hl⟩ := hboundary.mp (hfS f hf)
      exact ⟨c, hpcs c hcm, l, hb, f, hl, d, by simp, hs⟩
    · rintro ⟨c, hcm, l, hb, s, hl, d', hd', hs⟩
      rw [List.mem_singleton] at hd'
      subst hd'
      obtain ⟨i, hi⟩ := List.getElem?_of_mem hcm
      have hin := hfirst i c hi ⟨l, hb, s, hl, d', hdm, hs⟩
      obtain ⟨k, hk⟩ := List.getElem?_of_mem hin
      have hsS : s ∈ S.flatten := hboundary.mpr ⟨c, List.mem_of_getElem? ((hpart k c).mpr ⟨i, hk, hi⟩), l, hb, hl⟩
      obtain ⟨v, hv, f, e, rfl, hf, hsf⟩ := forall₂_mem_left (forall₂_flatten d5.faceOf) hsS
      refine ⟨e, List.mem_of_getElem? hf, ?_⟩
      have ht := hsame s hsS e (hfS e (List.mem_of_getElem? hf)) hsf
      rw [sameCell3] at hsf
      rw [sameCell2] at hs ⊢
      exact ⟨by rw [← ht, hs.1], by rw [← hsf.1, hs.2.1], fun n => by rw [← hsf.2 n, hs.2.2 n]⟩
  by_cases hfn : faces = []
  · -- no face at all
    refine ⟨fun hall => ?_, fun _ => ?_⟩
    · exfalso
      obtain ⟨d, hdm⟩ := List.exists_mem_of_ne_nil _ hne
      obtain ⟨f, hf, -⟩ := (hface d hdm).mpr (hall d hdm)
      rw [hfn] at hf
      cases hf
    · rw [hunf, included_empty (this := ⟨this.dim - 1, this.coords, r.conn, r.connI⟩) (by rw [← hfn]; exact d3) h2 hco hdim.symm (by simp only; omega) hdsn hds hne]
      rfl
  · obtain ⟨arr, ret, i1, i2, i3, i4, -⟩ := C60_areCellsIncludedIn (this := ⟨this.dim - 1, this.coords, r.conn, r.connI⟩) (p := 2) (nbNodes := nbNodes) d3 h2 hco hdim.symm
      (by simp only; omega) (by omega) (by
        intro c hcm
        rcases List.mem_append.mp hcm with hcm | hcm
        · exact ⟨by omega, (hgood c hcm).2, fun h => by omega⟩
        · exact hdsn c hcm) (by
        intro c hcm
        rcases List.mem_append.mp hcm with hcm | hcm
        · exact (hgood c hcm).1
        · exact hds c hcm) hfn hne
    constructor
    · intro hall
      have hret : ret = true := i3.mpr fun d hdm => (hface d hdm).mpr (hall d hdm)
      -- each id is the one of the face that is the same
      have harr : ∀ (k : Nat) (d : Cell), ds[k]? = some d → ∃ (f : Nat) (e : Cell), arr[k]? = some (f : Int) ∧ faces[f]? = some e ∧ SameCell 2 e d := by
        intro k d hk
        obtain ⟨e, he, hs⟩ := (hface d (List.mem_of_getElem? hk)).mpr (hall d (List.mem_of_getElem? hk))
        obtain ⟨f, hf⟩ := List.getElem?_of_mem he
        refine ⟨f, e, i4 k f d e hk hf hs ?_, hf, hs⟩
        intro f' e' hlt hf' hs'
        obtain ⟨q1, q2⟩ := List.getElem?_eq_some_iff.mp hf
        obtain ⟨q3, q4⟩ := List.getElem?_eq_some_iff.mp hf'
        have := List.pairwise_iff_getElem.mp d5.distinct f f' q1 q3 hlt
        rw [q2, q4] at this
        apply this
        rw [sameCell2] at hs hs'
        rw [sameCell3]
        exact ⟨hs.2.1.trans hs'.2.1.symm, fun n => (hs.2.2 n).trans (hs'.2.2 n).symm⟩
      -- the ids that are given
      have hid : ∀ v ∈ arr, ∃ (f : Nat) (e : Cell), v = f ∧ faces[f]? = some e ∧ ∃ d ∈ ds, SameCell 2 e d := by
        intro v hv
        obtain ⟨k, hk⟩ := List.getElem?_of_mem hv
        have hlt := (List.getElem?_eq_some_iff.mp hk).1
        have hdk : ds[k]? = some (ds[k]'(by omega)) := List.getElem?_eq_getElem (by omega)
        obtain ⟨f, e, g1, g2, g3⟩ := harr k _ hdk
        rw [hk, Option.some.injEq] at g1
        exact ⟨f, e, g1, g2, _, List.mem_of_getElem? hdk, g3⟩
      have hfold := wp_foldlM (l := arr) (s := ([] : List Int)) (E := False)
        (f := fun (s1 : List Int) (id : Int) => do
          let g ← revGroup r.revDesc r.revDescIndx id
          .ok (setInsertAll s1 g))
        (fun (pre : List Int) (s1 : List Int) => StrictSorted s1 ∧ ∀ k : Int, k ∈ s1 ↔ ∃ v ∈ pre, k ∈ ownersOf D v)
        ⟨List.Pairwise.nil, by simp⟩ (by
          rintro pre x suf e s1 ⟨t1, t2⟩
          obtain ⟨f, e', rfl, hf, -⟩ := hid x (by rw [e]; simp)
          have hlt := (List.getElem?_eq_some_iff.mp hf).1
          rw [revGroup_sky d7 (k := f) (by rw [List.getElem?_map, List.getElem?_range hlt]; rfl), ok_bind]
          refine ⟨sorted_setInsertAll t1, fun k => ?_⟩
          rw [mem_setInsertAll, t2]
          constructor
          · rintro (⟨v, hv, hk⟩ | hk)
            · exact ⟨v, by simp [hv], hk⟩
            · exact ⟨f, by simp, hk⟩
          · rintro ⟨v, hv, hk⟩
            rw [List.mem_append, List.mem_singleton] at hv
            rcases hv with hv | rfl
            · exact Or.inl ⟨v, hv, hk⟩
            · exact Or.inr hk)
      obtain ⟨s1, u1, u2, u3⟩ := wp_exists hfold
      refine ⟨s0, s1, ?_, a2, hs0, u2, ?_, hfirst⟩
      · rw [hunf, i1, ok_bind]
        simp only [hret, Bool.true_eq_false, if_false]
        rw [u1, ok_bind]
      · intro k
        rw [u3]
        constructor
        · rintro ⟨v, hv, hk⟩
          obtain ⟨f, e, rfl, hf, d, hdm, hs⟩ := hid v hv
          obtain ⟨k', dl, rfl, hD, hfd⟩ := mem_ownersOf.mp hk
          have hlt := (List.getElem?_eq_some_iff.mp hD).1
          have hSl := d5.faceOf.length_eq
          have hSk : S[k']? = some (S[k']'(by omega)) := List.getElem?_eq_getElem (by omega)
          obtain ⟨s', hs', hss⟩ := (d5.mem ⟨f, e, rfl, hf, SameCell.refl3 e⟩ hSk hD).mp hfd
          have hpl := d1.length_eq
          have hpk : part[k']? = some (part[k']'(by omega)) := List.getElem?_eq_getElem (by omega)
          obtain ⟨l, hl, hb⟩ := forall₂_at d1 hpk
          rw [hSk, Option.some.injEq] at hl
          subst hl
          obtain ⟨i, g1, g2⟩ := (hpart k' _).mp hpk
          refine ⟨k', i, _, rfl, g1, g2, _, hb, s', hs', d, hdm, ?_⟩
          have ht := hsame e (hfS e (List.mem_of_getElem? hf)) s' (List.mem_flatten.mpr ⟨_, List.mem_of_getElem? hSk, hs'⟩) hss
          rw [sameCell3] at hss
          rw [sameCell2] at hs ⊢
          exact ⟨by rw [← ht, hs.1], by rw [← hss.1, hs.2.1], fun n => by rw [← hss.2 n, hs.2.2 n]⟩
        · rintro ⟨k', i, c, rfl, g1, g2, l, hb, s, hs, d, hdm, hsd⟩
          have hpk := (hpart k' c).mpr ⟨i, g1, g2⟩
          obtain ⟨l', hSk, hb'⟩ := forall₂_at d1 hpk
          rw [hb.unique hb'] at hs
          obtain ⟨kd, hkd⟩ := List.getElem?_of_mem hdm
          obtain ⟨f, e, v1, v2, v3⟩ := harr kd d hkd
          obtain ⟨dl, hD, -⟩ := forall₂_at d5.faceOf hSk
          refine ⟨f, List.mem_of_getElem? v1, mem_ownersOf.mpr ⟨k', dl, rfl, hD, ?_⟩⟩
          refine (d5.mem ⟨f, e, rfl, v2, SameCell.refl3 e⟩ hSk hD).mpr ⟨s, hs, ?_⟩
          rw [sameCell2] at hsd v3
          rw [sameCell3]
          exact ⟨v3.2.1.trans hsd.2.1.symm, fun n => (v3.2.2 n).trans (hsd.2.2 n).symm⟩
    · rintro ⟨d, hdm, hno⟩
      have hret : ret = false := by
        cases hr : ret with
        | false => rfl
        | true =>
          exfalso
          obtain ⟨c, hcm, hl⟩ := (hface d hdm).mp (i3.mp hr d hdm)
          exact hno c hcm hl
      rw [hunf, i1, ok_bind]
      simp only [hret, if_true]
      rfl

example : findCellIdsLyingOn 6 ⟨2, 0, [3, 0, 1, 2, 3, 2, 1, 3, 3, 3, 4, 5], [0, 4, 8, 12]⟩ ⟨1, 0, [1, 1, 3, 1, 2, 1], [0, 3, 6]⟩ = .ok ([0, 1, 2], [0, 1]) ∧
    IsMesh [3, 0, 1, 2, 3, 2, 1, 3, 3, 3, 4, 5] [0, 4, 8, 12] [⟨3, [0, 1, 2]⟩, ⟨3, [2, 1, 3]⟩, ⟨3, [3, 4, 5]⟩] ∧
    IsMesh [1, 1, 3, 1, 2, 1] [0, 3, 6] [⟨1, [1, 3]⟩, ⟨1, [2, 1]⟩] ∧
    (∀ d ∈ ([⟨1, [1, 3]⟩, ⟨1, [2, 1]⟩] : List Cell), GoodNodes 6 d) ∧
    (∀ c ∈ ([⟨3, [0, 1, 2]⟩, ⟨3, [2, 1, 3]⟩, ⟨3, [3, 4, 5]⟩] : List Cell), CellOk 2 6 c) ∧
    findCellIdsLyingOn 6 ⟨2, 0, [3, 0, 1, 2, 3, 2, 1, 3, 3, 3, 4, 5], [0, 4, 8, 12]⟩ ⟨1, 0, [1, 0, 3], [0, 3]⟩ = .error .exn := by
  refine ⟨by decide, by decide, by decide, by unfold GoodNodes; decide, ?_, by decide⟩
  intro c hc
  simp only [List.mem_cons, List.not_mem_nil, or_false] at hc
  rcases hc with rfl | rfl | rfl <;> exact tri_ok _ _ _ _ (by unfold NodesOk; decide)

set_option maxRecDepth 20000 in
/-- C70, finding: faces of cells are fused whatever their types, then looked for with their types.  A triangle shared by a tetrahedron and a
polyhedron is found when the tetrahedron is the first of the two cells; when the polyhedron is the first one, the call throws though the
triangle is a face of the tetrahedron. -/
theorem C70_order_of_types :
    findCellIdsLyingOn 5 ⟨3, 0, [14, 0, 1, 2, 3] ++ [31, 0, 1, 2, -1, 0, 4, 1, -1, 1, 4, 2, -1, 2, 4, 0], [0, 5, 21]⟩ ⟨2, 0, [3, 0, 1, 2], [0, 4]⟩ = .ok ([0, 1], [0, 1]) ∧
    findCellIdsLyingOn 5 ⟨3, 0, [31, 0, 1, 2, -1, 0, 4, 1, -1, 1, 4, 2, -1, 2, 4, 0] ++ [14, 0, 1, 2, 3], [0, 16, 21]⟩ ⟨2, 0, [3, 0, 1, 2], [0, 4]⟩ = .error .exn := by
  constructor <;> decide

end
end MC
