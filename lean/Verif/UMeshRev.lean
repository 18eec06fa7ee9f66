import Verif.UMeshProps

/-!
# C53: reverse nodal connectivity of an unstructured mesh

The two passes of `getReverseNodalConnectivity` (count, then fill the first free slot) are a sort by buckets.
-/

namespace MC
section

/-- Values of the pairs whose key is `n`, in order. -/
def bucket (P : List (Int × Int)) (n : Int) : List Int := (P.filter fun p => decide (p.1 = n)).map Prod.snd

/-- All the buckets `0..nb-1`. -/
def buckets (P : List (Int × Int)) (nb : Nat) : List (List Int) := (List.range nb).map fun n : Nat => bucket P (n : Int)

theorem bucket_snoc (P : List (Int × Int)) (p : Int × Int) (n : Int) :
    bucket (P ++ [p]) n = if p.1 = n then bucket P n ++ [p.2] else bucket P n := by
  unfold bucket
  rw [List.filter_append]
  by_cases h : p.1 = n <;> simp [h]

theorem buckets_getElem? (P : List (Int × Int)) (nb : Nat) {n : Nat} (hn : n < nb) : (buckets P nb)[n]? = some (bucket P n) := by
  simp [buckets, List.getElem?_range hn]

@[simp] theorem buckets_length (P : List (Int × Int)) (nb : Nat) : (buckets P nb).length = nb := by simp [buckets]

theorem count_fold (P : List (Int × Int)) (nb : Nat) (h : ∀ p ∈ P, p.1 < nb) :
    P.foldlM (fun s p => revCountNode s p.1) (0, List.replicate (nb + 1) (0 : Int)) =
      .ok ((buckets P nb).flatten.length, 0 :: (buckets P nb).map fun g => (g.length : Int)) := by
  have : wp (P.foldlM (fun s p => revCountNode s p.1) (0, List.replicate (nb + 1) (0 : Int)))
      (fun s => s = ((buckets P nb).flatten.length, 0 :: (buckets P nb).map fun g => (g.length : Int))) False := by
    refine wp_foldlM (E := False) (fun (Q : List (Int × Int)) s =>
      s = ((buckets Q nb).flatten.length, 0 :: (buckets Q nb).map fun g => (g.length : Int))) ?_ ?_
    · have : buckets [] nb = List.replicate nb [] := by
        rw [buckets, List.eq_replicate_iff]; simp [bucket]
      rw [this]
      simp [List.replicate_succ]
    · rintro Q p suf rfl s rfl
      have hp : p.1 < nb := h p (by simp)
      unfold revCountNode
      by_cases h0 : p.1 ≥ 0
      · rw [if_pos h0]
        obtain ⟨n, hn⟩ := Int.eq_ofNat_of_zero_le h0
        have hnb : n < nb := by omega
        have hget : (0 :: (buckets Q nb).map fun g => (g.length : Int))[n + 1]? = some ((bucket Q n).length : Int) := by
          rw [List.getElem?_cons_succ, List.getElem?_map, buckets_getElem? Q nb hnb]; rfl
        have hset : buckets (Q ++ [p]) nb = (buckets Q nb).set n (bucket Q n ++ [p.2]) := by
          apply List.ext_getElem?
          intro k
          by_cases hk : k < nb
          · rw [buckets_getElem? _ _ hk, bucket_snoc, List.getElem?_set]
            by_cases hkn : n = k
            · subst hkn
              rw [if_pos (by omega), if_pos rfl, if_pos (by simpa using hk)]
            · rw [if_neg (by omega), if_neg hkn, buckets_getElem? _ _ hk]
          · rw [List.getElem?_eq_none (by simp; omega), List.getElem?_eq_none (by simp; omega)]
        rw [wp_bind]
        refine wp_rd' (by omega) (by rw [show (p.1 + 1).toNat = n + 1 by omega]; exact hget) ?_
        rw [wp_bind]
        refine wp_wr (by omega) (by simp; omega) ?_
        show _ = _
        rw [hset]
        refine Prod.ext ?_ ?_
        · simp only
          have h1 : (buckets Q nb) = (buckets Q nb).take n ++ bucket Q n :: (buckets Q nb).drop (n + 1) := by
            conv_lhs => rw [← List.take_append_drop n (buckets Q nb), List.drop_eq_getElem_cons (by simpa using hnb)]
            have := buckets_getElem? Q nb hnb
            rw [List.getElem?_eq_getElem (by simpa using hnb)] at this
            rw [Option.some.inj this]
          rw [List.set_eq_take_append_cons_drop, if_pos (by simpa using hnb)]
          conv_lhs => rw [h1]
          simp only [List.flatten_append, List.flatten_cons, List.length_append, List.length_singleton]
          omega
        · simp only
          rw [show (p.1 + 1).toNat = n + 1 by omega, List.set_cons_succ, List.map_set]
          simp
      · rw [if_neg h0]
        show _ = _
        have : buckets (Q ++ [p]) nb = buckets Q nb := by
          unfold buckets
          apply List.map_congr_left
          intro k _
          rw [bucket_snoc, if_neg (by omega)]
        rw [this]
  obtain ⟨r, h1, h2⟩ := wp_exists this
  rw [h1, h2]

/-- The slots of key `n` after `Q` when `P` is the whole list. -/
def slots (P Q : List (Int × Int)) (n : Int) : List Int :=
  bucket Q n ++ List.replicate ((bucket P n).length - (bucket Q n).length) (-1)

theorem fill_fold (P : List (Int × Int)) (nb : Nat) (h : ∀ p ∈ P, p.1 < nb) (he : ∀ p ∈ P, p.2 ≠ -1) :
    P.foldlM (fun rev p => revFillNode (skyIdx (buckets P nb)) p.2 rev p.1) (List.replicate (buckets P nb).flatten.length (-1)) =
      .ok (buckets P nb).flatten := by
  let W := fun Q : List (Int × Int) => (List.range nb).map fun n : Nat => slots P Q (n : Int)
  have hblen : ∀ (Q R : List (Int × Int)) (n : Int), P = Q ++ R → (bucket Q n).length + (bucket R n).length = (bucket P n).length := by
    rintro Q R n rfl
    simp [bucket, List.filter_append]
  have hWlen : ∀ Q R, P = Q ++ R → ∀ k, ((W Q).take k).flatten.length = ((buckets P nb).take k).flatten.length := by
    intro Q R hQ k
    rw [List.length_flatten, List.length_flatten, buckets, ← List.map_take, ← List.map_take, List.map_map, List.map_map]
    congr 1
    apply List.map_congr_left
    intro n _
    have := hblen Q R n hQ
    simp only [Function.comp_apply, slots, List.length_append, List.length_replicate]
    omega
  have : wp (P.foldlM (fun rev p => revFillNode (skyIdx (buckets P nb)) p.2 rev p.1) (List.replicate (buckets P nb).flatten.length (-1)))
      (fun r => r = (W P).flatten) False := by
    refine wp_foldlM (E := False) (fun (Q : List (Int × Int)) r => r = (W Q).flatten) ?_ ?_
    · rw [eq_comm, List.eq_replicate_iff]
      constructor
      · have := hWlen [] P rfl nb
        rw [List.take_of_length_le (by simp [W]), List.take_of_length_le (by simp)] at this
        exact this
      · intro x hx
        obtain ⟨g, hg, hx⟩ := List.mem_flatten.mp hx
        obtain ⟨n, -, rfl⟩ := List.mem_map.mp hg
        simpa [slots, bucket] using (List.mem_replicate.mp (by simpa [slots, bucket] using hx : x ∈ List.replicate (bucket P (n : Int)).length (-1))).2
    · rintro Q p suf hP r rfl
      have hp : p.1 < nb := h p (by rw [hP]; simp)
      have hpe : p.2 ≠ -1 := he p (by rw [hP]; simp)
      unfold revFillNode
      by_cases h0 : p.1 ≥ 0
      · rw [if_pos h0]
        obtain ⟨n, hn⟩ := Int.eq_ofNat_of_zero_le h0
        have hnb : n < nb := by omega
        have hWn : (W Q)[n]? = some (slots P Q n) := by simp [W, List.getElem?_range hnb]
        have hWl : (W Q).length = nb := by simp [W]
        have hoff : ((W Q).take n).flatten.length = ((buckets P nb).take n).flatten.length := hWlen Q _ hP n
        have hsky : IsSky (W Q).flatten (skyIdx (W Q)) (W Q) := ⟨rfl, rfl⟩
        have hidx : skyIdx (buckets P nb) = skyIdx (W Q) := by
          unfold skyIdx
          rw [hWl, buckets_length]
          apply List.map_congr_left
          intro k _
          rw [hWlen Q _ hP k]
        obtain ⟨k1, k2, k3, k4⟩ := hsky.get (k := n) (by omega)
        have hWn' : (W Q)[n]'(by omega) = slots P Q n := by
          rw [List.getElem?_eq_getElem (by omega)] at hWn; exact Option.some.inj hWn
        rw [hWn'] at k2 k3 k4
        set o : Nat := ((W Q).take n).flatten.length
        rw [hidx, wp_bind]
        refine wp_rd' (by omega) (by rw [hn]; exact k1) ?_
        rw [wp_bind]
        refine wp_rd' (by omega) (by rw [show (p.1 + 1).toNat = n + 1 by omega]; exact k2) ?_
        unfold fillFirst
        rw [if_pos ⟨by omega, by omega, k3⟩, k4]
        have hlt : (bucket Q n).length < (bucket P n).length := by
          have := hblen Q (p :: suf) n hP
          have h2 : 0 < (bucket (p :: suf) n).length := by
            unfold bucket
            rw [List.filter_cons_of_pos (by simp [hn])]
            simp
          omega
        have hidxOf : (slots P Q n).idxOf (-1) = (bucket Q n).length := by
          unfold slots
          rw [List.idxOf_append_of_notMem, List.idxOf_eq_zero_iff_head_eq (List.ne_nil_of_length_pos (by simp; omega)) |>.mpr (by simp)]
          · rfl
          · intro hm
            obtain ⟨q, hq, hqe⟩ := List.mem_map.mp hm
            exact he q (by rw [hP]; exact List.mem_append_left _ (List.mem_filter.mp hq).1) hqe
        rw [hidxOf]
        have hsl : (slots P Q n).length = (bucket P n).length := by
          simp [slots]; omega
        refine wp_wr (by omega) (by omega) ?_
        show _ = _
        have hset : W (Q ++ [p]) = (W Q).set n ((slots P Q n).set (bucket Q n).length p.2) := by
          apply List.ext_getElem?
          intro k
          by_cases hk : k < nb
          · rw [show (W (Q ++ [p]))[k]? = some (slots P (Q ++ [p]) k) by simp [W, List.getElem?_range hk], List.getElem?_set]
            by_cases hkn : n = k
            · subst hkn
              rw [if_pos rfl, if_pos (by omega)]
              congr 1
              unfold slots
              rw [bucket_snoc, if_pos hn, List.set_append_right _ _ (le_refl _), Nat.sub_self, List.length_append, List.length_singleton]
              obtain ⟨r, hr⟩ : ∃ r, (bucket P n).length - (bucket Q n).length = r + 1 := ⟨(bucket P n).length - (bucket Q n).length - 1, by omega⟩
              rw [hr, show (bucket P n).length - ((bucket Q n).length + 1) = r by omega]
              simp [List.replicate_succ]
            · rw [if_neg hkn]
              have : slots P (Q ++ [p]) k = slots P Q k := by
                unfold slots
                rw [bucket_snoc, if_neg (by omega)]
              rw [this]
              simp [W, List.getElem?_range hk]
          · rw [List.getElem?_eq_none (by simp [W]; omega), List.getElem?_eq_none (by simp [W]; omega)]
        rw [hset]
        have hdec : W Q = (W Q).take n ++ slots P Q n :: (W Q).drop (n + 1) := by
          conv_lhs => rw [← List.take_append_drop n (W Q), List.drop_eq_getElem_cons (by omega), hWn']
        rw [List.set_eq_take_append_cons_drop (l := W Q), if_pos (by omega)]
        conv_lhs => rw [hdec]
        rw [List.flatten_append, List.flatten_append, List.flatten_cons, List.flatten_cons]
        rw [show ((o : Int) + ((bucket Q n).length : Int)).toNat = o + (bucket Q n).length by omega,
          List.set_append_right _ _ (by omega), Nat.add_sub_cancel_left, List.set_append_left _ _ (by omega)]
      · rw [if_neg h0]
        show _ = _
        congr 1
        apply List.map_congr_left
        intro k _
        unfold slots
        rw [bucket_snoc, if_neg (by omega)]
  obtain ⟨r, h1, h2⟩ := wp_exists this
  rw [h1, h2]
  congr 2
  apply List.map_congr_left
  intro k _
  simp [slots]

/-! ## Flattening the two nested loops -/

theorem foldlM_flatMap {α β σ : Type} (l : List α) (g : α → List β) (f : σ → β → M σ) (s : σ) :
    (l.flatMap g).foldlM f s = l.foldlM (fun s x => (g x).foldlM f s) s := by
  induction l generalizing s with
  | nil => rfl
  | cons x l ih =>
    rw [List.flatMap_cons, List.foldlM_append, List.foldlM_cons]
    congr 1
    funext s'
    exact ih s'

theorem forCells_eq_zipIdx {σ : Type} {conn connI : List Int} {cells : List Cell} (h : IsMesh conn connI cells) (s : σ)
    (f : Nat → Cell → σ → M σ) : forCells conn connI s f = cells.zipIdx.foldlM (fun s p => f p.2 p.1 s) s := by
  have hl := h.length
  unfold forCells
  rw [show connI.length - 1 = cells.length by omega]
  have : ∀ k, k ≤ cells.length → loop k s (fun i s => do
      let c ← rdCell conn connI i
      f i c s) = (cells.zipIdx.take k).foldlM (fun s p => f p.2 p.1 s) s := by
    intro k
    induction k with
    | zero => intro _; rfl
    | succ k ih =>
      intro hk
      rw [loop_succ, ih (by omega), List.take_succ_eq_append_getElem (by simp; omega), List.foldlM_append]
      congr 1
      funext s'
      rw [rdCell_ok h (show k < cells.length by omega), ok_bind]
      simp
  rw [this _ (le_refl _), List.take_of_length_le (by simp)]

/-- The pairs (node, cell) of the mesh. -/
def nodeCellPairs (cells : List Cell) : List (Int × Int) :=
  cells.zipIdx.flatMap fun p => p.1.nodes.map fun n => (n, (p.2 : Int))

/-- The cells of a node, in increasing order, each one as many times as it holds the node. -/
def cellsOfNode (cells : List Cell) (n : Int) : List Int :=
  cells.zipIdx.flatMap fun p => List.replicate (p.1.nodes.count n) (p.2 : Int)

theorem bucket_nodeCellPairs (cells : List Cell) (n : Int) : bucket (nodeCellPairs cells) n = cellsOfNode cells n := by
  unfold bucket nodeCellPairs cellsOfNode
  rw [List.filter_flatMap, List.map_flatMap]
  apply List.flatMap_congr
  intro p _
  rw [List.filter_map, List.map_map, List.eq_replicate_iff]
  constructor
  · rw [List.length_map, List.count_eq_length_filter]
    congr 1
  · intro b hb
    obtain ⟨x, _, rfl⟩ := List.mem_map.mp hb
    rfl

/-- C53: when the nodes of the cells exist, `getReverseNodalConnectivity` gives one group per node: the increasing list of the
cells which hold the node (a cell which repeats a node appears as many times). -/
theorem C53_reverse {conn connI : List Int} {cells : List Cell} (h : IsMesh conn connI cells) {nbNodes : Nat}
    (hn : ∀ c ∈ cells, ∀ n ∈ c.nodes, n < nbNodes) :
    ∃ rev idx, getReverseNodalConnectivity nbNodes conn connI = .ok (rev, idx) ∧
      IsSky rev idx ((List.range nbNodes).map fun n : Nat => cellsOfNode cells n) := by
  set P := nodeCellPairs cells with hP
  have hp : ∀ p ∈ P, p.1 < nbNodes ∧ p.2 ≠ -1 := by
    intro p hp
    obtain ⟨q, hq, hpq⟩ := List.mem_flatMap.mp hp
    obtain ⟨n, hnn, rfl⟩ := List.mem_map.mp hpq
    exact ⟨hn q.1 (List.fst_mem_of_mem_zipIdx hq) n hnn, by simp only; omega⟩
  have hb : buckets P nbNodes = (List.range nbNodes).map fun n : Nat => cellsOfNode cells n := by
    unfold buckets
    apply List.map_congr_left
    intro n _
    exact bucket_nodeCellPairs cells n
  have e1 := count_fold P nbNodes fun p q => (hp p q).1
  have e2 := fill_fold P nbNodes (fun p q => (hp p q).1) fun p q => (hp p q).2
  refine ⟨(buckets P nbNodes).flatten, skyIdx (buckets P nbNodes), ?_, by rw [hb]; exact ⟨rfl, rfl⟩⟩
  unfold getReverseNodalConnectivity
  rw [forCells_eq_zipIdx h]
  rw [hP, nodeCellPairs, foldlM_flatMap] at e1
  rw [hP, nodeCellPairs, foldlM_flatMap] at e2
  simp only [List.foldlM_map] at e1 e2
  rw [e1, ok_bind]
  have hrun : runningSums ((0 : Int) :: (buckets P nbNodes).map fun g : List Int => (g.length : Int)) = skyIdx (buckets P nbNodes) := scanl_sizes _
  show (do
    let rev ← forCells conn connI (List.replicate (buckets P nbNodes).flatten.length (-1)) _
    Except.ok (rev, runningSums ((0 : Int) :: (buckets P nbNodes).map fun g : List Int => (g.length : Int)))) = _
  rw [forCells_eq_zipIdx h]
  have e3 : (cells.zipIdx.foldlM (fun s p => List.foldlM (revFillNode (runningSums ((0 : Int) :: (buckets P nbNodes).map fun g : List Int => (g.length : Int))) (p.2 : Int)) s p.1.nodes)
      (List.replicate (buckets P nbNodes).flatten.length (-1))) = .ok (buckets P nbNodes).flatten := by
    rw [hrun]; exact e2
  refine (congrArg (· >>= _) e3).trans ?_
  rw [ok_bind, hrun]

/-- C53: on a mesh whose cells do not repeat nodes, the group of a node is the strictly increasing list of exactly the cells
which hold it. -/
theorem C53_reverse_nodup {cells : List Cell} (hd : ∀ c ∈ cells, c.nodes.Nodup) (n : Int) :
    StrictSorted (cellsOfNode cells n) ∧ ∀ x : Int, x ∈ cellsOfNode cells n ↔ ∃ i, ∃ hi : i < cells.length, x = i ∧ n ∈ cells[i].nodes := by
  have key : ∀ (l : List Cell) (k : Nat), (∀ c ∈ l, c.nodes.Nodup) →
      StrictSorted ((l.zipIdx k).flatMap fun p => List.replicate (p.1.nodes.count n) (p.2 : Int)) ∧
      ∀ x : Int, x ∈ ((l.zipIdx k).flatMap fun p => List.replicate (p.1.nodes.count n) (p.2 : Int)) ↔
        ∃ i, ∃ hi : i < l.length, x = ((k + i : Nat) : Int) ∧ n ∈ l[i].nodes := by
    intro l
    induction l with
    | nil => intro k _; exact ⟨List.Pairwise.nil, by simp⟩
    | cons c l ih =>
      intro k hd
      obtain ⟨i1, i2⟩ := ih (k + 1) fun c hc => hd c (by simp [hc])
      have hc1 := List.nodup_iff_count_le_one.mp (hd c (by simp)) n
      rw [List.zipIdx_cons, List.flatMap_cons]
      constructor
      · rw [StrictSorted, List.pairwise_append]
        refine ⟨?_, i1, fun x hx y hy => ?_⟩
        · rcases Nat.le_one_iff_eq_zero_or_eq_one.mp hc1 with h | h <;> simp [h]
        · have hx := (List.mem_replicate.mp hx).2
          obtain ⟨i, _, hy, _⟩ := (i2 y).mp hy
          simp only at hx
          omega
      · intro x
        rw [List.mem_append, i2 x, List.mem_replicate]
        constructor
        · rintro (⟨h1, h2⟩ | ⟨i, hi, h1, h2⟩)
          · exact ⟨0, by simp, by simpa using h2, by simpa using List.count_pos_iff.mp (Nat.pos_of_ne_zero h1)⟩
          · exact ⟨i + 1, by simpa using hi, by omega, by simpa using h2⟩
        · rintro ⟨i, hi, h1, h2⟩
          cases i with
          | zero => exact Or.inl ⟨Nat.pos_iff_ne_zero.mp (List.count_pos_iff.mpr (by simpa using h2)), by simpa using h1⟩
          | succ i => exact Or.inr ⟨i, by simpa using hi, by omega, by simpa using h2⟩
  obtain ⟨h1, h2⟩ := key cells 0 hd
  refine ⟨h1, fun x => (h2 x).trans ?_⟩
  simp only [Nat.zero_add]

example : IsMesh [3, 0, 1, 2, 4, 1, 2, 3, 4] [0, 4, 9] [⟨3, [0, 1, 2]⟩, ⟨4, [1, 2, 3, 4]⟩] ∧
    getReverseNodalConnectivity 6 [3, 0, 1, 2, 4, 1, 2, 3, 4] [0, 4, 9] = .ok ([0, 0, 1, 0, 1, 1, 1], [0, 1, 3, 5, 6, 7, 7]) ∧
    (∀ c ∈ ([⟨3, [0, 1, 2]⟩, ⟨4, [1, 2, 3, 4]⟩] : List Cell), c.nodes.Nodup ∧ ∀ n ∈ c.nodes, n < 6) := by decide

/-- C53, finding: the node ids are not checked; a node id which does not exist makes the function write outside its array. -/
theorem C53_unchecked_node {conn connI : List Int} {cells : List Cell} (h : IsMesh conn connI cells) {nbNodes : Nat}
    (hn : ∃ c ∈ cells, ∃ n ∈ c.nodes, (nbNodes : Int) ≤ n) : getReverseNodalConnectivity nbNodes conn connI = .error .ub := by
  have inner : ∀ (l : List Int) (s : Nat × List Int), s.2.length = nbNodes + 1 →
      (∃ s', l.foldlM revCountNode s = .ok s' ∧ s'.2.length = nbNodes + 1 ∧ ∀ n ∈ l, n < nbNodes) ∨ l.foldlM revCountNode s = .error .ub := by
    intro l
    induction l with
    | nil => intro s hs; exact Or.inl ⟨s, rfl, hs, by simp⟩
    | cons x l ih =>
      intro s hs
      rw [List.foldlM_cons]
      by_cases h1 : x < nbNodes
      · have : ∃ s1, revCountNode s x = .ok s1 ∧ s1.2.length = nbNodes + 1 := by
          unfold revCountNode
          by_cases h0 : x ≥ 0
          · rw [if_pos h0, rd_ok (by omega) (by omega), ok_bind, wr_ok (by omega) (by omega), ok_bind]
            exact ⟨_, rfl, by simpa using hs⟩
          · rw [if_neg h0]; exact ⟨s, rfl, hs⟩
        obtain ⟨s1, e1, l1⟩ := this
        rw [e1, ok_bind]
        rcases ih s1 l1 with ⟨s', h2, h3, h4⟩ | h2
        · exact Or.inl ⟨s', h2, h3, by simp [h1]; exact h4⟩
        · exact Or.inr h2
      · right
        have : revCountNode s x = .error .ub := by
          unfold revCountNode
          rw [if_pos (by omega)]
          have : rd s.2 (x + 1) = .error .ub := by
            unfold rd
            rw [if_pos (by omega)]
            rw [List.getElem?_eq_none (by omega)]
          rw [this]; rfl
        rw [this]; rfl
  have outer : ∀ (l : List Cell) (s : Nat × List Int), s.2.length = nbNodes + 1 →
      (∃ s', l.foldlM (fun s c => c.nodes.foldlM revCountNode s) s = .ok s' ∧ s'.2.length = nbNodes + 1 ∧ ∀ c ∈ l, ∀ n ∈ c.nodes, n < nbNodes) ∨
        l.foldlM (fun s c => c.nodes.foldlM revCountNode s) s = .error .ub := by
    intro l
    induction l with
    | nil => intro s hs; exact Or.inl ⟨s, rfl, hs, by simp⟩
    | cons x l ih =>
      intro s hs
      rw [List.foldlM_cons]
      rcases inner x.nodes s hs with ⟨s1, h1, h2, h3⟩ | h1
      · rw [h1, ok_bind]
        rcases ih s1 h2 with ⟨s', k2, k3, k4⟩ | k2
        · refine Or.inl ⟨s', k2, k3, fun c hc => ?_⟩
          rcases List.mem_cons.mp hc with rfl | hc
          · exact h3
          · exact k4 c hc
        · exact Or.inr k2
      · rw [h1]; exact Or.inr rfl
  unfold getReverseNodalConnectivity
  rw [forCells_eq_foldlM h _ (fun c s => c.nodes.foldlM revCountNode s)]
  rcases outer cells (0, List.replicate (nbNodes + 1) 0) (by simp) with ⟨s', _, _, h3⟩ | h1
  · obtain ⟨c, hc, n, hnn, hlt⟩ := hn
    have := h3 c hc n hnn
    omega
  · rw [h1]; rfl

example : IsMesh [3, 0, 1, 7] [0, 4] [⟨3, [0, 1, 7]⟩] ∧ getReverseNodalConnectivity 3 [3, 0, 1, 7] [0, 4] = .error .ub := by decide

end
end MC
