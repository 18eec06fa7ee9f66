import Verif.NodeNeigh

/-!
# C69: nodes of a same cell, and neighbour cells through the neighbour nodes
-/

namespace MC
section

theorem sorted_erase {l : List Int} (h : StrictSorted l) (x : Int) : StrictSorted (l.erase x) :=
  List.Pairwise.sublist List.erase_sublist h

theorem mem_erase_sorted {l : List Int} (h : StrictSorted l) {x y : Int} : y ∈ l.erase x ↔ y ≠ x ∧ y ∈ l := h.nodup.mem_erase_iff

/-- The running index of the sets. -/
theorem enlarged_idx (l : List (List Int)) (acc : List (List Int)) (G : List (List Int))
    (h : List.Forall₂ (fun t b => (if t = [] then 0 else (t.length : Int) - 1) = (b.length : Int)) l G) :
    (l.foldl (fun (p : List Int × Int) t =>
      let v := if t = [] then p.2 else p.2 + (t.length : Int) - 1
      (p.1 ++ [v], v)) (skyIdx acc, (acc.flatten.length : Int))).1 = skyIdx (acc ++ G) := by
  induction h generalizing acc with
  | nil => simp
  | cons h1 h2 ih =>
    rename_i t b l' G'
    rw [List.foldl_cons]
    have : (if t = [] then (acc.flatten.length : Int) else (acc.flatten.length : Int) + (t.length : Int) - 1) = ((acc ++ [b]).flatten.length : Int) := by
      simp only [List.flatten_append, List.flatten_cons, List.flatten_nil, List.append_nil, List.length_append]
      split at h1 <;> rename_i ht
      · rw [if_pos ht]; omega
      · rw [if_neg ht]; omega
    dsimp only
    rw [this]
    have h3 := ih (acc ++ [b])
    rw [skyIdx_snoc] at h3
    rw [show ((acc ++ [b]).flatten.length : Int) = ((acc.flatten.length + b.length : Nat) : Int) by simp] at *
    rw [List.append_assoc] at h3
    exact h3

/-- C69: the enlarged neighbours of the nodes: for each node, in increasing order, the other nodes of the cells it belongs to. -/
theorem C69_enlarged {nbNodes : Nat} {conn connI : List Int} {cells : List Cell} (h : IsMesh conn connI cells)
    (hc : ∀ c ∈ cells, ∀ n ∈ c.nodes, n = -1 ∨ (0 ≤ n ∧ n < (nbNodes : Int))) :
    ∃ (arr idx : List Int) (G : List (List Int)), computeEnlargedNeighborsOfNodes nbNodes conn connI = .ok (arr.map some, idx) ∧ IsSky arr idx G ∧
      G.length = nbNodes ∧ ∀ (n : Nat) (g : List Int), G[n]? = some g → StrictSorted g ∧
        ∀ m : Int, m ∈ g ↔ m ≠ n ∧ 0 ≤ m ∧ ∃ c ∈ cells, (n : Int) ∈ c.nodes ∧ m ∈ c.nodes := by
  -- the sets
  have key : wp (forCells conn connI (List.replicate nbNodes ([] : List Int)) fun _ c st0 =>
      ((setInsertAll [] c.nodes).erase (-1)).foldlM (fun (st0 : List (List Int)) (n : Int) => do
        let t ← rd st0 n
        wr st0 n (setInsertAll t ((setInsertAll [] c.nodes).erase (-1)))) st0)
      (fun (st : List (List Int)) => st.length = nbNodes ∧ ∀ (n : Nat) (t : List Int), st[n]? = some t → StrictSorted t ∧
        ∀ m : Int, m ∈ t ↔ m ≠ -1 ∧ ∃ c ∈ cells, (n : Int) ∈ c.nodes ∧ m ∈ c.nodes) False := by
    have := wp_forCells h (s := List.replicate nbNodes ([] : List Int)) (E := False)
      (f := fun _ c st0 => ((setInsertAll [] c.nodes).erase (-1)).foldlM (fun (st0 : List (List Int)) (n : Int) => do
        let t ← rd st0 n
        wr st0 n (setInsertAll t ((setInsertAll [] c.nodes).erase (-1)))) st0)
      (fun k (st : List (List Int)) => st.length = nbNodes ∧ ∀ (n : Nat) (t : List Int), st[n]? = some t → StrictSorted t ∧
        ∀ m : Int, m ∈ t ↔ m ≠ -1 ∧ ∃ c ∈ cells.take k, (n : Int) ∈ c.nodes ∧ m ∈ c.nodes) ?_ ?_
    · rw [List.take_length] at this
      exact this
    · refine ⟨by simp, fun n t ht => ?_⟩
      rw [List.getElem?_replicate] at ht
      split at ht
      · cases ht
        exact ⟨List.Pairwise.nil, by simp⟩
      · cases ht
    · rintro i hi st ⟨s1, s2⟩
      set S := (setInsertAll [] cells[i].nodes).erase (-1) with hS
      have hSs : StrictSorted (setInsertAll [] cells[i].nodes) := sorted_setInsertAll List.Pairwise.nil
      have hSm : ∀ m, m ∈ S ↔ m ≠ -1 ∧ m ∈ cells[i].nodes := by
        intro m
        rw [hS, mem_erase_sorted hSs, mem_setInsertAll]
        simp
      have hin := wp_foldlM (l := S) (s := st) (E := False)
        (f := fun (st0 : List (List Int)) (n : Int) => do
          let t ← rd st0 n
          wr st0 n (setInsertAll t S))
        (fun (pre : List Int) (st' : List (List Int)) => st'.length = nbNodes ∧ ∀ (n : Nat) (t : List Int), st'[n]? = some t → StrictSorted t ∧
          ∀ m : Int, m ∈ t ↔ (m ≠ -1 ∧ ∃ c ∈ cells.take i, (n : Int) ∈ c.nodes ∧ m ∈ c.nodes) ∨ ((n : Int) ∈ pre ∧ m ∈ S))
        ⟨s1, fun n t ht => ⟨(s2 n t ht).1, fun m => by rw [(s2 n t ht).2]; simp⟩⟩ (by
          rintro pre x suf e st' ⟨t1, t2⟩
          have hx : x ∈ S := by rw [e]; simp
          have hx2 := (hSm x).mp hx
          obtain ⟨x0, x1⟩ := (hc _ (List.getElem_mem hi) x hx2.2).resolve_left hx2.1
          lift x to Nat using x0
          have hxl : x < st'.length := by omega
          rw [rd_natCast hxl, ok_bind, wr_natCast hxl]
          refine ⟨by simp [t1], fun n t ht => ?_⟩
          rw [List.getElem?_set] at ht
          obtain ⟨u1, u2⟩ := t2 x _ (List.getElem?_eq_getElem hxl)
          split at ht
          · rename_i hxn
            subst hxn
            rw [Option.some.injEq] at ht
            subst ht
            refine ⟨sorted_setInsertAll u1, fun m => ?_⟩
            rw [mem_setInsertAll, u2]
            simp only [List.mem_append, List.mem_singleton, or_true, true_and]
            constructor
            · rintro ((h | h) | h)
              · exact Or.inl h
              · exact Or.inr h.2
              · exact Or.inr h
            · rintro (h | h)
              · exact Or.inl (Or.inl h)
              · exact Or.inr h
          · rename_i hxn
            obtain ⟨u3, u4⟩ := t2 n t ht
            refine ⟨u3, fun m => ?_⟩
            rw [u4]
            have : (n : Int) ∈ pre ++ [(x : Int)] ↔ (n : Int) ∈ pre := by
              simp only [List.mem_append, List.mem_singleton]
              constructor
              · rintro (h | h)
                · exact h
                · omega
              · exact Or.inl
            rw [this])
      obtain ⟨st', t0, t1, t2⟩ := wp_exists hin
      rw [t0]
      refine ⟨t1, fun n t ht => ⟨(t2 n t ht).1, fun m => ?_⟩⟩
      rw [(t2 n t ht).2, List.take_succ_eq_append_getElem hi, hSm, hSm]
      show _ ↔ m ≠ -1 ∧ ∃ c ∈ cells.take i ++ [cells[i]], (n : Int) ∈ c.nodes ∧ m ∈ c.nodes
      constructor
      · rintro (⟨h1, c, h2, h3⟩ | ⟨⟨-, h1⟩, h2, h3⟩)
        · exact ⟨h1, c, List.mem_append_left _ h2, h3⟩
        · exact ⟨h2, cells[i], List.mem_append_right _ (List.mem_singleton.mpr rfl), h1, h3⟩
      · rintro ⟨h1, c, h2, h3, h4⟩
        rw [List.mem_append, List.mem_singleton] at h2
        rcases h2 with h2 | rfl
        · exact Or.inl ⟨h1, c, h2, h3, h4⟩
        · exact Or.inr ⟨⟨by omega, h3⟩, h1, h4⟩
  obtain ⟨st, e1, e2, e3⟩ := wp_exists key
  set G : List (List Int) := st.zipIdx.map (fun p => p.1.erase (p.2 : Int)) with hG
  have hGl : G.length = nbNodes := by simp [hG, e2]
  have hGg : ∀ (n : Nat) (t : List Int), st[n]? = some t → G[n]? = some (t.erase (n : Int)) := by
    intro n t ht
    simp [hG, List.getElem?_zipIdx, ht]
  have hF : List.Forall₂ (fun t b => (if t = [] then 0 else (t.length : Int) - 1) = (b.length : Int)) st G := by
    rw [List.forall₂_iff_get]
    refine ⟨by omega, fun n h1 h2 => ?_⟩
    have ht : st[n]? = some st[n] := List.getElem?_eq_getElem h1
    have hg := hGg n _ ht
    rw [List.getElem?_eq_getElem h2, Option.some.injEq] at hg
    simp only [List.get_eq_getElem]
    rw [hg]
    obtain ⟨k1, k2⟩ := e3 n _ ht
    by_cases hne : st[n] = []
    · simp [hne]
    · have hin : (n : Int) ∈ st[n] := by
        obtain ⟨m, hm⟩ := List.exists_mem_of_ne_nil _ hne
        obtain ⟨-, c, q1, q2, -⟩ := (k2 m).mp hm
        exact (k2 n).mpr ⟨by omega, c, q1, q2, q2⟩
      rw [if_neg hne, List.length_erase_of_mem hin]
      have := List.length_pos_of_ne_nil hne
      omega
  have hidx := enlarged_idx st [] G hF
  rw [List.nil_append] at hidx
  refine ⟨G.flatten, skyIdx G, G, ?_, ⟨rfl, rfl⟩, hGl, ?_⟩
  · unfold computeEnlargedNeighborsOfNodes
    dsimp only
    rw [e1, ok_bind]
    rw [show (skyIdx ([] : List (List Int)), (([] : List (List Int)).flatten.length : Int)) = ([(0 : Int)], (0 : Int)) from rfl] at hidx
    rw [hidx, rd_of_getElem? (a := (G.flatten.length : Int)) (by simp) (by
      rw [skyIdx_length, show (((G.length + 1 : Nat) : Int) - 1).toNat = G.length by omega, skyIdx_getElem? _ (le_refl _), List.take_length]), ok_bind, if_neg (by omega)]
    rw [Int.toNat_natCast]
    have hcopy : wp (loop nbNodes (List.replicate G.flatten.length (none : Option Int)) fun k out => do
        let t ← rd st k
        let pos ← rd (skyIdx G) k
        copyAt out pos (t.erase (k : Int))) (fun out => out = G.flatten.map some) False := by
      have := wp_loop (n := nbNodes) (s := List.replicate G.flatten.length (none : Option Int)) (E := False)
        (f := fun k out => do
          let t ← rd st k
          let pos ← rd (skyIdx G) k
          copyAt out pos (t.erase (k : Int)))
        (fun k out => out = (G.take k).flatten.map some ++ List.replicate (G.drop k).flatten.length none) (by simp) (by
          rintro k hk out rfl
          have hks : k < st.length := by omega
          have hkG : k < G.length := by omega
          have hg := hGg k _ (List.getElem?_eq_getElem hks)
          rw [List.getElem?_eq_getElem hkG, Option.some.injEq] at hg
          have e4 : (G.drop k).flatten.length = G[k].length + (G.drop (k + 1)).flatten.length := by
            rw [List.drop_eq_getElem_cons hkG, List.flatten_cons, List.length_append]
          rw [rd_natCast hks, ok_bind, rd_of_getElem? (by omega) (by rw [Int.toNat_natCast]; exact skyIdx_getElem? G (by omega)), ok_bind, ← hg]
          unfold copyAt
          rw [if_pos ⟨by omega, by simp only [List.length_append, List.length_map, List.length_replicate, e4]; omega⟩]
          change _ = _
          rw [Int.toNat_natCast, flatten_take_succ _ hkG, e4, List.map_append]
          have e5 : ((G.take k).flatten.map some : List (Option Int)).length = (G.take k).flatten.length := List.length_map ..
          rw [List.take_append_of_le_length (by rw [e5]), List.take_of_length_le (by rw [e5]), List.drop_append, e5,
            List.drop_of_length_le (by rw [e5]; omega), List.nil_append, List.drop_replicate,
            show G[k].length + (G.drop (k + 1)).flatten.length - ((G.take k).flatten.length + G[k].length - (G.take k).flatten.length) = (G.drop (k + 1)).flatten.length by omega])
      rw [List.take_of_length_le (by omega), List.drop_of_length_le (by omega)] at this
      simpa using this
    obtain ⟨out, o1, rfl⟩ := wp_exists hcopy
    rw [o1, ok_bind]
  · intro n g hg
    have hn : n < st.length := by
      have := (List.getElem?_eq_some_iff.mp hg).1
      omega
    rw [hGg n _ (List.getElem?_eq_getElem hn), Option.some.injEq] at hg
    subst hg
    obtain ⟨k1, k2⟩ := e3 n _ (List.getElem?_eq_getElem hn)
    refine ⟨sorted_erase k1 _, fun m => ?_⟩
    rw [mem_erase_sorted k1, k2]
    constructor
    · rintro ⟨h1, h2, c, h3, h4, h5⟩
      exact ⟨h1, ((hc c h3 m h5).resolve_left h2).1, c, h3, h4, h5⟩
    · rintro ⟨h1, h2, h3⟩
      exact ⟨h1, by omega, h3⟩

/-- C69: the neighbour cells through the nodes: for each cell, in increasing order, the other ids of the groups of its nodes. -/
theorem C69_cells_from_nodes {nbNodes : Nat} {conn connI nodeNeigh nodeNeighI : List Int} {cells : List Cell} {N : List (List Int)} (h : IsMesh conn connI cells)
    (hN : IsSky nodeNeigh nodeNeighI N) (hl : N.length = nbNodes) (hc : ∀ c ∈ cells, ∀ n ∈ c.nodes, n < (nbNodes : Int)) :
    ∃ (arr idx : List Int) (G : List (List Int)), computeCellNeighborhoodFromNodesOne nbNodes conn connI nodeNeigh nodeNeighI = .ok (arr, idx) ∧ IsSky arr idx G ∧
      List.Forall₂ (fun (p : Cell × Nat) (g : List Int) => StrictSorted g ∧
        ∀ v : Int, v ∈ g ↔ v ≠ p.2 ∧ ∃ n : Nat, (n : Int) ∈ p.1.nodes ∧ ∃ l, N[n]? = some l ∧ v ∈ l) cells.zipIdx G := by
  have hNl := hN.idx_length
  unfold computeCellNeighborhoodFromNodesOne
  rw [if_neg (by omega)]
  have key := wp_forCells h (s := (([] : List Int), [(0 : Int)])) (E := False)
    (f := fun i c s => do
      let st ← c.nodes.foldlM (fun (st : List Int) (n : Int) => do
        if n ≥ 0 then do
          let g ← revGroup nodeNeigh nodeNeighI n
          .ok (setInsertAll st g)
        else .ok st) ([] : List Int)
      let out := s.1 ++ st.erase (i : Int)
      .ok (out, s.2 ++ [(out.length : Int)]))
    (fun k (s : List Int × List Int) => ∃ G : List (List Int), IsSky s.1 s.2 G ∧ 
      List.Forall₂ (fun (p : Cell × Nat) (g : List Int) => StrictSorted g ∧
        ∀ v : Int, v ∈ g ↔ v ≠ p.2 ∧ ∃ n : Nat, (n : Int) ∈ p.1.nodes ∧ ∃ l, N[n]? = some l ∧ v ∈ l) (cells.take k).zipIdx G)
    ⟨[], ⟨rfl, rfl⟩, by simp⟩ (by
      rintro i hi ⟨a, ix⟩ ⟨G, ⟨g1, g2⟩, g3⟩
      simp only at g1 g2
      have hin := wp_foldlM (l := cells[i].nodes) (s := ([] : List Int)) (E := False)
        (f := fun (st : List Int) (n : Int) => do
          if n ≥ 0 then do
            let g ← revGroup nodeNeigh nodeNeighI n
            .ok (setInsertAll st g)
          else .ok st)
        (fun (pre : List Int) (st : List Int) => StrictSorted st ∧ ∀ v : Int, v ∈ st ↔ ∃ n : Nat, (n : Int) ∈ pre ∧ ∃ l, N[n]? = some l ∧ v ∈ l)
        ⟨List.Pairwise.nil, by simp⟩ (by
          rintro pre x suf e st ⟨t1, t2⟩
          by_cases hx : x ≥ 0
          · have hx1 := hc _ (List.getElem_mem hi) x (by rw [e]; simp)
            lift x to Nat using hx
            have hxl : N[x]? = some (N[x]'(by omega)) := List.getElem?_eq_getElem (by omega)
            rw [if_pos (by omega), revGroup_sky hN hxl, ok_bind]
            refine ⟨sorted_setInsertAll t1, fun v => ?_⟩
            rw [mem_setInsertAll, t2]
            constructor
            · rintro (⟨n, h1, h2⟩ | h)
              · exact ⟨n, by simp [h1], h2⟩
              · exact ⟨x, by simp, _, hxl, h⟩
            · rintro ⟨n, h1, l, h2, h3⟩
              rw [List.mem_append, List.mem_singleton] at h1
              rcases h1 with h1 | h1
              · exact Or.inl ⟨n, h1, l, h2, h3⟩
              · obtain rfl : n = x := by omega
                rw [hxl, Option.some.injEq] at h2
                subst h2
                exact Or.inr h3
          · rw [if_neg hx]
            refine ⟨t1, fun v => ?_⟩
            rw [t2]
            refine exists_congr fun n => and_congr_left fun _ => ?_
            rw [List.mem_append, List.mem_singleton]
            constructor
            · exact Or.inl
            · rintro (h | h)
              · exact h
              · omega)
      obtain ⟨st, s1, s2, s3⟩ := wp_exists hin
      rw [s1, ok_bind]
      refine ⟨G ++ [st.erase (i : Int)], ⟨?_, ?_⟩, ?_⟩
      · simp [g1]
      · dsimp only
        rw [skyIdx_snoc, g2, g1, List.length_append]
      · rw [List.take_succ_eq_append_getElem hi, List.zipIdx_append]
        refine List.rel_append g3 (.cons ⟨sorted_erase s2 _, fun v => ?_⟩ .nil)
        rw [mem_erase_sorted s2, s3]
        simp only [Nat.zero_add, List.length_take]
        rw [Nat.min_eq_left (by omega)])
  obtain ⟨⟨a, ix⟩, e1, G, e2, e3⟩ := wp_exists key
  rw [List.take_length] at e3
  exact ⟨a, ix, G, e1, e2, e3⟩

/-- C69: an index which does not have one group per node is refused. -/
theorem C69_index_length {nbNodes : Nat} {conn connI nodeNeigh nodeNeighI : List Int} (h : nodeNeighI.length ≠ 1 + nbNodes) :
    computeCellNeighborhoodFromNodesOne nbNodes conn connI nodeNeigh nodeNeighI = .error .exn := by
  unfold computeCellNeighborhoodFromNodesOne
  rw [if_pos h]
  rfl

/-- C69: with the cells of each node as groups of the nodes, the neighbours of a cell are the cells that share a node with it. -/
theorem C69_share_node {nbNodes : Nat} {conn connI : List Int} {cells : List Cell} (h : IsMesh conn connI cells)
    (hc : ∀ c ∈ cells, ∀ n ∈ c.nodes, n < (nbNodes : Int)) :
    ∃ (rn rni arr idx : List Int) (G : List (List Int)), getReverseNodalConnectivity nbNodes conn connI = .ok (rn, rni) ∧
      computeCellNeighborhoodFromNodesOne nbNodes conn connI rn rni = .ok (arr, idx) ∧ IsSky arr idx G ∧
      List.Forall₂ (fun (p : Cell × Nat) (g : List Int) => StrictSorted g ∧
        ∀ v : Int, v ∈ g ↔ v ≠ p.2 ∧ ∃ (n : Nat) (j : Nat) (d : Cell), (n : Int) ∈ p.1.nodes ∧ v = j ∧ cells[j]? = some d ∧ (n : Int) ∈ d.nodes) cells.zipIdx G := by
  obtain ⟨rn, rni, r1, r2⟩ := C53_reverse h hc
  obtain ⟨arr, idx, G, e1, e2, e3⟩ := C69_cells_from_nodes h r2 (by simp) hc
  refine ⟨rn, rni, arr, idx, G, r1, e1, e2, ?_⟩
  rw [List.forall₂_iff_get] at e3 ⊢
  refine ⟨e3.1, fun i h1 h2 => ?_⟩
  obtain ⟨k1, k2⟩ := e3.2 i h1 h2
  refine ⟨k1, fun v => ?_⟩
  rw [k2]
  refine and_congr_right fun _ => exists_congr fun n => ?_
  have hcell : (cells.zipIdx.get ⟨i, h1⟩).1 ∈ cells := List.fst_mem_of_mem_zipIdx (List.get_mem ..)
  constructor
  · rintro ⟨q1, l, q2, q3⟩
    rw [range_group q2] at q3
    obtain ⟨p, hp, hv⟩ := List.mem_flatMap.mp q3
    obtain ⟨hcnt, rfl⟩ := List.mem_replicate.mp hv
    have hp' := List.mem_zipIdx_iff_getElem?.mp hp
    exact ⟨p.2, p.1, q1, rfl, hp', List.count_pos_iff.mp (by omega)⟩
  · rintro ⟨j, d, q1, rfl, q3, q4⟩
    have hn := hc _ hcell _ q1
    refine ⟨q1, cellsOfNode cells n, by rw [List.getElem?_map, List.getElem?_range (by omega)]; rfl, ?_⟩
    refine List.mem_flatMap.mpr ⟨(d, j), List.mem_zipIdx_iff_getElem?.mpr q3, List.mem_replicate.mpr ⟨?_, rfl⟩⟩
    have := List.count_pos_iff.mpr q4
    simp only
    omega

example : IsMesh [3, 0, 1, 2, 3, 2, 1, 3, 31, 0, 4, 5, -1, 0] [0, 4, 8, 14] [⟨3, [0, 1, 2]⟩, ⟨3, [2, 1, 3]⟩, ⟨31, [0, 4, 5, -1, 0]⟩] ∧
    computeEnlargedNeighborsOfNodes 7 [3, 0, 1, 2, 3, 2, 1, 3, 31, 0, 4, 5, -1, 0] [0, 4, 8, 14] =
      .ok ([1, 2, 4, 5, 0, 2, 3, 0, 1, 3, 1, 2, 0, 5, 0, 4].map some, [0, 4, 7, 10, 12, 14, 16, 16]) := by
  exact ⟨by decide, by decide⟩

example : (getReverseNodalConnectivity 6 [3, 0, 1, 2, 3, 2, 1, 3, 3, 0, 4, 5] [0, 4, 8, 12]).bind (fun r =>
    computeCellNeighborhoodFromNodesOne 6 [3, 0, 1, 2, 3, 2, 1, 3, 3, 0, 4, 5] [0, 4, 8, 12] r.1 r.2) = .ok ([1, 2, 0, 0], [0, 2, 3, 4]) := by
  decide

end
end MC
