import Verif.SkinProps

/-!
# C68, C69: neighbours of the nodes
-/

namespace MC
section

/-- The end of a segment other than `n`, if `n` is an end of it. -/
def oppositeOf (n : Int) (e : Cell) : Option Int :=
  match e.nodes with
  | [a, b] => if a = n then some b else if b = n then some a else none
  | _ => none

/-- A linear segment between two different nodes which exist. -/
def IsSeg (nbNodes : Nat) (e : Cell) : Prop := ∃ a b, e = ⟨1, [a, b]⟩ ∧ a ≠ b ∧ (0 ≤ a ∧ a < nbNodes) ∧ 0 ≤ b ∧ b < nbNodes

theorem flat3 {edges : List Cell} (h : ∀ e ∈ edges, ∃ a b, e = ⟨1, [a, b]⟩) {k : Nat} {a b : Int} (hk : edges[k]? = some ⟨1, [a, b]⟩) :
    (edges.map Cell.row).flatten[3 * k + 1]? = some a ∧ (edges.map Cell.row).flatten[3 * k + 2]? = some b := by
  induction edges generalizing k with
  | nil => simp at hk
  | cons e edges ih =>
    obtain ⟨x, y, rfl⟩ := h e (by simp)
    rw [List.map_cons, List.flatten_cons]
    rcases k with _ | k
    · simp only [List.getElem?_cons_zero, Option.some.injEq, Cell.mk.injEq, true_and, List.cons.injEq, and_true] at hk
      obtain ⟨rfl, rfl⟩ := hk
      exact ⟨rfl, rfl⟩
    · obtain ⟨h1, h2⟩ := ih (fun e he => h e (by simp [he])) (k := k) (by simpa using hk)
      rw [List.getElem?_append_right (by simp [Cell.row]; omega), List.getElem?_append_right (by simp [Cell.row]; omega)]
      refine ⟨?_, ?_⟩
      · rw [show 3 * (k + 1) + 1 - (Cell.row ⟨1, [x, y]⟩).length = 3 * k + 1 by simp [Cell.row]; omega]; exact h1
      · rw [show 3 * (k + 1) + 2 - (Cell.row ⟨1, [x, y]⟩).length = 3 * k + 2 by simp [Cell.row]; omega]; exact h2

theorem opposite_groups {edges : List Cell} {nbNodes : Nat} (he : ∀ e ∈ edges, IsSeg nbNodes e) (n : Int) :
    List.Forall₂ (fun (cell v : Int) => ∃ (k : Nat) (e : Cell), cell = k ∧ edges[k]? = some e ∧ oppositeOf n e = some v) (cellsOfNode edges n) (edges.filterMap (oppositeOf n)) := by
  unfold cellsOfNode
  have key : ∀ (l : List Cell) (k : Nat), (∀ e ∈ l, IsSeg nbNodes e) → (∀ j, l[j]? = edges[k + j]?) →
      List.Forall₂ (fun (cell v : Int) => ∃ (k : Nat) (e : Cell), cell = k ∧ edges[k]? = some e ∧ oppositeOf n e = some v)
        ((l.zipIdx k).flatMap fun p => List.replicate (p.1.nodes.count n) (p.2 : Int)) (l.filterMap (oppositeOf n)) := by
    intro l
    induction l with
    | nil => intro k _ _; exact .nil
    | cons e l ih =>
      intro k hs hj
      have hrec := ih (k + 1) (fun e he => hs e (by simp [he])) (fun j => by have := hj (j + 1); rw [show k + (j + 1) = k + 1 + j by omega] at this; simpa using this)
      have hk : edges[k]? = some e := by have := hj 0; simpa using this.symm
      obtain ⟨a, b, rfl, hab, -, -⟩ := hs e (by simp)
      rw [List.zipIdx_cons, List.flatMap_cons]
      by_cases ha : a = n
      · subst ha
        have ho : oppositeOf a ⟨1, [a, b]⟩ = some b := by simp [oppositeOf]
        rw [List.filterMap_cons_some ho]
        have hc : ([a, b] : List Int).count a = 1 := by simp [List.count_cons]; exact fun e => hab e.symm
        simp only [hc, List.replicate_one, List.singleton_append]
        exact .cons ⟨k, _, rfl, hk, ho⟩ hrec
      · by_cases hb : b = n
        · subst hb
          have ho : oppositeOf b ⟨1, [a, b]⟩ = some a := by simp [oppositeOf, hab]
          rw [List.filterMap_cons_some ho]
          have hc : ([a, b] : List Int).count b = 1 := by simp [hab]
          simp only [hc, List.replicate_one, List.singleton_append]
          exact .cons ⟨k, _, rfl, hk, ho⟩ hrec
        · have ho : oppositeOf n ⟨1, [a, b]⟩ = none := by simp [oppositeOf, ha, hb]
          rw [List.filterMap_cons_none ho]
          have hc : ([a, b] : List Int).count n = 0 := by simp [ha, hb]
          simp only [hc, List.replicate_zero, List.nil_append]
          exact hrec
  exact key edges 0 he fun j => by rw [Nat.zero_add]

theorem neighborsOfNodesIn_spec {nbNodes : Nat} {conn connI : List Int} {edges : List Cell} (h : IsMesh conn connI edges) (he : ∀ e ∈ edges, IsSeg nbNodes e) :
    ∃ arr idx : List Int, neighborsOfNodesIn nbNodes conn connI = .ok (arr.map some, idx) ∧
      IsSky arr idx ((List.range nbNodes).map fun n : Nat => edges.filterMap (oppositeOf (n : Int))) := by
  obtain ⟨rn, rni, e1, e2⟩ := C53_reverse h (nbNodes := nbNodes) fun c hc n hn => by
    obtain ⟨a, b, rfl, -, ha, hb⟩ := he c hc
    simp only [List.mem_cons, List.not_mem_nil, or_false] at hn
    rcases hn with rfl | rfl
    · exact ha.2
    · exact hb.2
  have hlenG : ∀ k : Nat, k ≤ nbNodes → (((List.range k).map fun n : Nat => edges.filterMap (oppositeOf (n : Int))).map List.length) =
      (((List.range k).map fun n : Nat => cellsOfNode edges n).map List.length) := by
    intro k _
    rw [List.map_map, List.map_map]
    apply List.map_congr_left
    intro n _
    exact (opposite_groups he n).length_eq.symm
  have hflen : ∀ k : Nat, k ≤ nbNodes → ((List.range k).map fun n : Nat => edges.filterMap (oppositeOf (n : Int))).flatten.length =
      ((List.range k).map fun n : Nat => cellsOfNode edges n).flatten.length := by
    intro k hk
    rw [List.length_flatten, List.length_flatten, hlenG k hk]
  have hrn : rn.length = ((List.range nbNodes).map fun n : Nat => edges.filterMap (oppositeOf (n : Int))).flatten.length := by
    rw [hflen _ (le_refl _), e2.1]
  have main : wp (loop nbNodes (newCur Int rn.length) fun i r0 => do
      let g ← revGroup rn rni i
      g.foldlM (fun (r0 : Cur Int) (cell : Int) => do
        let v ← otherEnd conn i cell
        emit r0 v) r0) (fun s => s = filled ((List.range nbNodes).map fun n : Nat => edges.filterMap (oppositeOf (n : Int))).flatten rn.length) False := by
    refine wp_loop (fun k (s : Cur Int) => s = filled ((List.range k).map fun n : Nat => edges.filterMap (oppositeOf (n : Int))).flatten rn.length) (newCur_eq _) ?_
    rintro i hi s rfl
    rw [revGroup_sky e2 (k := i) (l := cellsOfNode edges i) (by rw [List.getElem?_map, List.getElem?_range hi]; rfl), ok_bind]
    have hpre : ((List.range (i + 1)).map fun n : Nat => edges.filterMap (oppositeOf (n : Int))).flatten.length ≤ rn.length := by
      rw [hrn]
      have : List.range nbNodes = List.range (i + 1) ++ (List.range (nbNodes - (i + 1))).map (i + 1 + ·) := by
        rw [← List.range_add]; congr 1; omega
      rw [this, List.map_append, List.flatten_append, List.length_append]
      omega
    have inner : ∀ (cs vs : List Int), List.Forall₂ (fun (cell v : Int) => ∃ (k : Nat) (e : Cell), cell = k ∧ edges[k]? = some e ∧ oppositeOf (i : Int) e = some v) cs vs →
        ∀ pre : List Int, pre.length + vs.length ≤ rn.length → cs.foldlM (fun (r0 : Cur Int) (cell : Int) => do
          let v ← otherEnd conn i cell
          emit r0 v) (filled pre rn.length) = .ok (filled (pre ++ vs) rn.length) := by
      intro cs vs hcv
      induction hcv with
      | nil => intro pre _; simp; rfl
      | @cons cell v cs vs h1 _ ih =>
        intro pre hp
        simp only [List.length_cons] at hp
        obtain ⟨k, e, rfl, hk, ho⟩ := h1
        obtain ⟨a, b, rfl, hab, -, -⟩ := he e (List.mem_of_getElem? hk)
        obtain ⟨f1, f2⟩ := flat3 (fun e he' => by obtain ⟨a, b, h, -⟩ := he e he'; exact ⟨a, b, h⟩) hk
        have hconn : conn = (edges.map Cell.row).flatten := h.1
        rw [← hconn] at f1 f2
        have r1 : rd conn (3 * (k : Int) + 1) = .ok a := rd_of_getElem? (by omega) (by rw [show (3 * (k : Int) + 1).toNat = 3 * k + 1 by omega]; exact f1)
        have r2 : rd conn (3 * (k : Int) + 2) = .ok b := rd_of_getElem? (by omega) (by rw [show (3 * (k : Int) + 2).toNat = 3 * k + 2 by omega]; exact f2)
        have hv : otherEnd conn i k = .ok v := by
          unfold otherEnd
          rw [r1, ok_bind, r2]
          unfold oppositeOf at ho
          simp only at ho
          split at ho
          · rw [if_pos ‹_›, Option.some.inj ho]
          · rw [if_neg ‹_›]
            split at ho
            · rw [Option.some.inj ho]
            · cases ho
        rw [List.foldlM_cons, hv, ok_bind, emit_filled (by omega), ok_bind, ih (pre ++ [v]) (by simp; omega)]
        simp
    have hlast : ((List.range (i + 1)).map fun n : Nat => edges.filterMap (oppositeOf (n : Int))).flatten =
        ((List.range i).map fun n : Nat => edges.filterMap (oppositeOf (n : Int))).flatten ++ edges.filterMap (oppositeOf (i : Int)) := by
      rw [List.range_succ, List.map_append, List.flatten_append]; simp
    rw [hlast, List.length_append] at hpre
    rw [inner _ _ (opposite_groups he i) _ hpre, wp_ok, hlast]
  obtain ⟨s, s1, rfl⟩ := wp_exists main
  refine ⟨((List.range nbNodes).map fun n : Nat => edges.filterMap (oppositeOf (n : Int))).flatten, rni, ?_, rfl, ?_⟩
  · unfold neighborsOfNodesIn
    rw [e1, ok_bind]
    simp only
    rw [s1, ok_bind, hrn, filled_full rfl]
  · rw [e2.2]
    exact skyIdx_congr (hlenG nbNodes (le_refl _)).symm

theorem mem_opposite {nbNodes : Nat} {edges : List Cell} (he : ∀ e ∈ edges, IsSeg nbNodes e) {n m : Int} :
    m ∈ edges.filterMap (oppositeOf n) ↔ ∃ e ∈ edges, e.nodes = [n, m] ∨ e.nodes = [m, n] := by
  rw [List.mem_filterMap]
  constructor
  · rintro ⟨e, hm, ho⟩
    obtain ⟨a, b, rfl, hab, -⟩ := he e hm
    refine ⟨_, hm, ?_⟩
    simp only [oppositeOf] at ho
    split at ho
    · rename_i h1; subst h1; rw [Option.some.inj ho]; exact Or.inl rfl
    · split at ho
      · rename_i h1; subst h1; rw [Option.some.inj ho]; exact Or.inr rfl
      · cases ho
  · rintro ⟨e, hm, h⟩
    obtain ⟨a, b, rfl, hab, -⟩ := he e hm
    refine ⟨_, hm, ?_⟩
    rcases h with h | h
    · simp only [List.cons.injEq, and_true] at h
      obtain ⟨rfl, rfl⟩ := h
      simp [oppositeOf]
    · simp only [List.cons.injEq, and_true] at h
      obtain ⟨rfl, rfl⟩ := h
      simp [oppositeOf, hab]

theorem nodup_opposite {nbNodes : Nat} {edges : List Cell} (he : ∀ e ∈ edges, IsSeg nbNodes e) (hd : edges.Pairwise fun c d => ¬ SameCell 3 c d) (n : Int) :
    (edges.filterMap (oppositeOf n)).Nodup := by
  have hd' : edges.Pairwise fun c d => c ∈ edges ∧ d ∈ edges ∧ ¬ SameCell 3 c d :=
    List.Pairwise.imp_of_mem (fun ha hb h => ⟨ha, hb, h⟩) hd
  refine List.pairwise_filterMap.mpr (hd'.imp ?_)
  rintro c d ⟨hc, hdm, hns⟩ x hx y hy rfl
  apply hns
  obtain ⟨e1, m1, h1⟩ := (mem_opposite (n := n) (m := x) (edges := [c]) (fun e hm => he e (by rw [List.mem_singleton.mp hm]; exact hc))).mp (by simp [hx])
  obtain ⟨e2, m2, h2⟩ := (mem_opposite (n := n) (m := x) (edges := [d]) (fun e hm => he e (by rw [List.mem_singleton.mp hm]; exact hdm))).mp (by simp [hy])
  rw [List.mem_singleton] at m1 m2
  subst m1 m2
  rw [sameCell3]
  rcases h1 with h1 | h1 <;> rcases h2 with h2 | h2 <;> rw [h1, h2] <;> simp [or_comm]

/-! ## Linear cells -/

/-- `b` comes after `a` in the ring `l`. -/
def Follows (l : List Int) (a b : Int) : Prop := ∃ k, l[k]? = some a ∧ l[(k + 1) % l.length]? = some b

theorem mem_edgesOf_linear {t : Int} {f : List Int} (h : nbCorners t f.length = f.length) {e : Int × Int × Option Int} :
    e ∈ edgesOf t f ↔ e.2.2 = none ∧ Follows f e.1 e.2.1 := by
  unfold edgesOf
  rw [h, List.mem_filterMap]
  constructor
  · rintro ⟨i, hi, he⟩
    split at he
    · rename_i a b h1 h2
      rw [Option.some.injEq] at he
      subst he
      refine ⟨List.getElem?_eq_none (by omega), i, h1, h2⟩
    · cases he
  · rintro ⟨h0, k, h1, h2⟩
    obtain ⟨a, b, c⟩ := e
    simp only at h0 h1 h2
    subst h0
    have hk := (List.getElem?_eq_some_iff.mp h1).1
    refine ⟨k, List.mem_range.mpr hk, ?_⟩
    rw [h1, h2, List.getElem?_eq_none (i := f.length + k) (by omega)]

theorem linear_corners {dim : Int} {nbNodes : Nat} {c : Cell} (hc : CellOk dim nbNodes c) (ht : c.type = 3 ∨ c.type = 4 ∨ c.type = 5) :
    nbCorners c.type c.nodes.length = c.nodes.length := by
  obtain ⟨cm, h1, h4, h5⟩ := hc
  obtain ⟨hm, hcode⟩ := getCellModel_mem h1
  have tab : ∀ cm ∈ cellModels, (cm.code = 3 → cm.nbPts = 3) ∧ (cm.code = 4 → cm.nbPts = 4) := by decide
  obtain ⟨q2, q3⟩ := tab cm hm
  rcases h5 with ⟨hdyn, h, hn⟩ | ⟨h, h2, hn⟩ | ⟨h, -⟩
  · rcases ht with e | e | e
    · rw [e, h, q2 (by omega)]; decide
    · rw [e, h, q3 (by omega)]; decide
    · have := (cellModel_polygons h1 (Or.inl e)).2.1
      rw [hdyn] at this; cases this
  · have e : c.type = 5 := by omega
    rw [e]; rfl
  · omega

/-- The neighbours read from the edges of the cells. -/
theorem opposite_desc {nbNodes : Nat} {S : List (List Cell)} {faces : List Cell} {D : List (List Int)} (h : IsDescending S faces D)
    (hseg : ∀ s ∈ S.flatten, IsSeg nbNodes s) :
    (∀ e ∈ faces, IsSeg nbNodes e) ∧ ∀ n : Int, (faces.filterMap (oppositeOf n)).Nodup ∧
      ∀ m, m ∈ faces.filterMap (oppositeOf n) ↔ ∃ s ∈ S.flatten, s.nodes = [n, m] ∨ s.nodes = [m, n] := by
  have hfS : ∀ e ∈ faces, e ∈ S.flatten := by
    intro e hm
    obtain ⟨k, hk, rfl⟩ := List.mem_iff_getElem.mp hm
    obtain ⟨i, hi, -⟩ := h.first k _ (List.getElem?_eq_getElem hk)
    exact List.mem_of_getElem? hi
  have hfaces : ∀ e ∈ faces, IsSeg nbNodes e := fun e hm => hseg e (hfS e hm)
  refine ⟨hfaces, fun n => ⟨nodup_opposite hfaces h.distinct _, fun m => ?_⟩⟩
  rw [mem_opposite hfaces]
  constructor
  · rintro ⟨e, hm, he⟩
    exact ⟨e, hfS e hm, he⟩
  · rintro ⟨s, hs, hs'⟩
    obtain ⟨v, hv, f, d, rfl, hf', hsame⟩ := forall₂_mem_left (forall₂_flatten h.faceOf) hs
    have hd := List.mem_of_getElem? hf'
    refine ⟨d, hd, ?_⟩
    obtain ⟨a, b, rfl, hab, -⟩ := hfaces d hd
    obtain ⟨a', b', rfl, hab', -⟩ := hseg s hs
    have hm := ((sameCell3 _ _).mp hsame).2
    have ha := (hm a).mpr (by simp)
    have hb := (hm b).mpr (by simp)
    simp only [List.mem_cons, List.not_mem_nil, or_false, List.cons.injEq, and_true] at ha hb hs' ⊢
    omega

theorem range_group {nbNodes : Nat} {F : Nat → List Int} {n : Nat} {g : List Int} (hg : ((List.range nbNodes).map F)[n]? = some g) : g = F n := by
  rw [List.getElem?_map] at hg
  have hn : n < nbNodes := by
    by_contra hge
    rw [List.getElem?_eq_none (by simp; omega)] at hg
    cases hg
  rw [List.getElem?_range hn] at hg
  simp only [Option.map_some, Option.some.injEq] at hg
  exact hg.symm

theorem cell_pair_injective : Function.Injective fun s : Cell => (s.type, s.nodes) := by
  intro a b hab
  cases a
  cases b
  simp only [Prod.mk.injEq] at hab
  rw [hab.1, hab.2]

/-- C68: the neighbours of the nodes of a 1D mesh of linear segments: the other ends of the segments, in the order of the segments. -/
theorem C68_neighbours_1D {nbNodes : Nat} {conn connI : List Int} {cells : List Cell} (h : IsMesh conn connI cells) (hc : ∀ c ∈ cells, IsSeg nbNodes c) :
    ∃ (arr idx : List Int) (G : List (List Int)), computeNeighborsOfNodes 1 nbNodes conn connI = .ok (arr.map some, idx) ∧ IsSky arr idx G ∧
      G.length = nbNodes ∧ ∀ (n : Nat) (g : List Int), G[n]? = some g → g = cells.filterMap (oppositeOf n) ∧
        ∀ m : Int, m ∈ g ↔ ∃ c ∈ cells, c.nodes = [(n : Int), m] ∨ c.nodes = [m, (n : Int)] := by
  obtain ⟨arr, idx, n1, n2⟩ := neighborsOfNodesIn_spec h hc
  refine ⟨arr, idx, _, ?_, n2, by simp, ?_⟩
  · unfold computeNeighborsOfNodes
    rw [if_neg (by omega), if_neg (by omega), if_pos rfl, n1]
  · intro n g hg
    rw [range_group hg]
    exact ⟨rfl, fun m => mem_opposite hc⟩

/-- C68: the neighbours of the nodes of a 2D mesh of linear cells: two nodes are neighbours when they are at the ends of an edge of a cell;
each neighbour is given once. -/
theorem C68_neighbours_2D {nbNodes : Nat} {conn connI : List Int} {cells : List Cell} (h : IsMesh conn connI cells)
    (hc : ∀ c ∈ cells, CellOk 2 nbNodes c ∧ (c.type = 3 ∨ c.type = 4 ∨ c.type = 5)) :
    ∃ (arr idx : List Int) (G : List (List Int)), computeNeighborsOfNodes 2 nbNodes conn connI = .ok (arr.map some, idx) ∧ IsSky arr idx G ∧
      G.length = nbNodes ∧ ∀ (n : Nat) (g : List Int), G[n]? = some g → g.Nodup ∧
        ∀ m : Int, m ∈ g ↔ ∃ c ∈ cells, Follows c.nodes n m ∨ Follows c.nodes m n := by
  obtain ⟨S, r, faces, D, a1, a2, a3, -, a5, a6, a7⟩ := C63_descending h (by omega) fun c hcc => (hc c hcc).1
  -- the edges of the cells
  have hsons : ∀ (c : Cell) (sons : List Cell), c ∈ cells → BoundaryOf c sons → sons = (edgesOf c.type c.nodes).map (fun e => (⟨1, [e.1, e.2.1]⟩ : Cell)) := by
    rintro c sons hcc ⟨cm, h1, h2⟩
    obtain ⟨⟨cm', h3, h4, h5⟩, ht⟩ := hc c hcc
    rw [h1] at h3
    cases h3
    obtain ⟨hm, hcode⟩ := getCellModel_mem h1
    have tab : ∀ cm ∈ cellModels, (cm.code = 3 ∨ cm.code = 4 ∨ cm.code = 5) → cm.quad = false := by decide
    have q1 := tab cm hm (by rw [hcode]; exact ht)
    have hlen : cm.dyn = false → c.nodes.length = cm.nbPts := by
      intro hdyn
      rcases h5 with ⟨-, h, -⟩ | ⟨h, -, -⟩ | ⟨h, -⟩
      · exact h
      · have := (cellModel_polygons h1 h).2.1
        rw [hdyn] at this; cases this
      · omega
    rw [(C47_edges_2D h1 (by omega) hlen).1] at h2
    have h6 := Except.ok.inj h2
    rw [← toCells (edgesOf c.type c.nodes |>.map (segOf cm.quad))] at h6
    rw [← List.map_injective_iff.mpr cell_pair_injective h6, List.map_map]
    apply List.map_congr_left
    intro e he
    obtain ⟨e0, -⟩ := (mem_edgesOf_linear (linear_corners (hc c hcc).1 ht)).mp he
    simp [segOf, q1, e0]
  have hmemS : ∀ s : Cell, s ∈ S.flatten ↔ ∃ c ∈ cells, ∃ a b, s = ⟨1, [a, b]⟩ ∧ Follows c.nodes a b := by
    intro s
    rw [List.mem_flatten]
    constructor
    · rintro ⟨l, hl, hs⟩
      obtain ⟨c, hcc, hb⟩ := forall₂_mem_right a1 hl
      rw [hsons c l hcc hb] at hs
      obtain ⟨e, he, rfl⟩ := List.mem_map.mp hs
      exact ⟨c, hcc, _, _, rfl, ((mem_edgesOf_linear (linear_corners (hc c hcc).1 (hc c hcc).2)).mp he).2⟩
    · rintro ⟨c, hcc, a, b, rfl, hf⟩
      obtain ⟨l, hl, hb⟩ := forall₂_mem_left a1 hcc
      refine ⟨l, hl, ?_⟩
      rw [hsons c l hcc hb]
      exact List.mem_map.mpr ⟨(a, b, none), (mem_edgesOf_linear (linear_corners (hc c hcc).1 (hc c hcc).2)).mpr ⟨rfl, hf⟩, rfl⟩
  have hseg : ∀ e ∈ S.flatten, IsSeg nbNodes e := by
    intro e hm
    obtain ⟨c, hcc, a, b, rfl, hf⟩ := (hmemS e).mp hm
    have hab : a ≠ b := by
      obtain ⟨l, hl, hb⟩ := forall₂_mem_left a1 hcc
      have hin : (⟨1, [a, b]⟩ : Cell) ∈ l := by
        rw [hsons c l hcc hb]
        exact List.mem_map.mpr ⟨(a, b, none), (mem_edgesOf_linear (linear_corners (hc c hcc).1 (hc c hcc).2)).mpr ⟨rfl, hf⟩, rfl⟩
      obtain ⟨a', b', e1, e2⟩ := linear_edges hb (hc c hcc).1 (hc c hcc).2 _ hin
      cases e1
      exact e2
    have hno : ∀ x ∈ c.nodes, 0 ≤ x ∧ x < nbNodes := by
      obtain ⟨⟨cm, -, -, h5⟩, ht⟩ := hc c hcc
      rcases h5 with ⟨-, -, hn⟩ | ⟨-, -, hn⟩ | ⟨h, -⟩
      · exact hn.2
      · exact hn.2
      · omega
    obtain ⟨k, k1, k2⟩ := hf
    exact ⟨a, b, rfl, hab, hno a (List.mem_of_getElem? k1), hno b (List.mem_of_getElem? k2)⟩
  obtain ⟨hfaces, hop⟩ := opposite_desc a5 hseg
  obtain ⟨arr, idx, n1, n2⟩ := neighborsOfNodesIn_spec a3 hfaces
  refine ⟨arr, idx, _, ?_, n2, by simp, ?_⟩
  · unfold computeNeighborsOfNodes
    rw [if_neg (by omega), if_pos rfl, a2, ok_bind, n1]
  · intro n g hg
    rw [range_group hg]
    refine ⟨(hop n).1, fun m => ((hop n).2 m).trans ?_⟩
    constructor
    · rintro ⟨e, hm, he⟩
      obtain ⟨c, hcc, a, b, rfl, hf⟩ := (hmemS e).mp hm
      simp only [List.cons.injEq, and_true] at he
      rcases he with ⟨rfl, rfl⟩ | ⟨rfl, rfl⟩
      · exact ⟨c, hcc, Or.inl hf⟩
      · exact ⟨c, hcc, Or.inr hf⟩
    · rintro ⟨c, hcc, hf⟩
      rcases hf with hf | hf
      · exact ⟨⟨1, [n, m]⟩, (hmemS _).mpr ⟨c, hcc, _, _, rfl, hf⟩, Or.inl rfl⟩
      · exact ⟨⟨1, [m, n]⟩, (hmemS _).mpr ⟨c, hcc, _, _, rfl, hf⟩, Or.inr rfl⟩

theorem mem_ringPairs {f : List Int} {p : Int × Int} : p ∈ ringPairs f ↔ Follows f p.1 p.2 := by
  unfold ringPairs
  rw [List.mem_iff_getElem?]
  constructor
  · rintro ⟨k, hk⟩
    rw [List.getElem?_zip_eq_some] at hk
    have hlt := (List.getElem?_eq_some_iff.mp hk.1).1
    refine ⟨k, hk.1, ?_⟩
    rw [← hk.2, List.getElem?_rotate hlt]
  · rintro ⟨k, h1, h2⟩
    have hlt := (List.getElem?_eq_some_iff.mp h1).1
    refine ⟨k, ?_⟩
    rw [List.getElem?_zip_eq_some, List.getElem?_rotate hlt]
    exact ⟨h1, h2⟩

/-- C68: the neighbours of the nodes of a 3D mesh of linear cells and polyhedra: two nodes are neighbours when they are at the ends of a side
of a face of a cell; each neighbour is given once. -/
theorem C68_neighbours_3D {nbNodes : Nat} {conn connI : List Int} {cells : List Cell} (h : IsMesh conn connI cells)
    (hc : ∀ c ∈ cells, CellOk3D nbNodes c ∧ c.type ∈ ([14, 15, 16, 18, 22, 31] : List Int)) :
    ∃ (arr idx : List Int) (G : List (List Int)), computeNeighborsOfNodes 3 nbNodes conn connI = .ok (arr.map some, idx) ∧ IsSky arr idx G ∧
      G.length = nbNodes ∧ ∀ (n : Nat) (g : List Int), G[n]? = some g → g.Nodup ∧
        ∀ m : Int, m ∈ g ↔ ∃ c ∈ cells, ∃ sons, BoundaryOf c sons ∧ ∃ s ∈ sons, Follows s.nodes n m ∨ Follows s.nodes m n := by
  obtain ⟨S, hS⟩ := forall₂_of_forall fun c hcc => hasSons_minusTwo (hc c hcc).1
  have h1 : List.Forall₂ (HasSons minusTwoGen (3 - minusTwoGen.delta) nbNodes) cells S := hS.imp fun _ _ h => h.1
  obtain ⟨r, faces, D, V, e1, e2, -, e4, -, -, -, -⟩ := descending_spec (oriented := false) h (by decide) h1 (fun hh => by cases hh)
  have hexp : explode3DMeshTo1D 3 nbNodes conn connI = .ok r := by
    unfold explode3DMeshTo1D
    rw [if_neg (by omega), e1]
  -- each cell: its edges are segments, and they are the sides of its faces
  have hcell : ∀ (c : Cell) (edges : List Cell), c ∈ cells → HasSons minusTwoGen (3 - minusTwoGen.delta) nbNodes c edges ∧ EdgesOf3D c edges →
      (∀ s ∈ edges, IsSeg nbNodes s) ∧ ∀ n m : Int, (∃ s ∈ edges, s.nodes = [n, m] ∨ s.nodes = [m, n]) ↔
        ∃ sons, BoundaryOf c sons ∧ ∃ s ∈ sons, Follows s.nodes n m ∨ Follows s.nodes m n := by
    rintro c edges hcc ⟨hs, he⟩
    obtain ⟨-, ht⟩ := hc c hcc
    have hty : ∀ s ∈ edges, s.type = 1 := by
      intro s hsm
      rcases he with ⟨cm, sons, k1, k2, k3, k4, -⟩ | ⟨-, fs, E, -, -, -, -, rfl⟩
      · obtain ⟨hm, hcode⟩ := getCellModel_mem k1
        have tab : ∀ cm ∈ cellModels, cm.code ∈ ([14, 15, 16, 18, 22, 31] : List Int) → cm.quad = false := by decide
        have hq := tab cm hm (by rw [hcode]; exact ht)
        have := k4 s hsm
        rw [hq] at this
        exact this
      · obtain ⟨p, -, rfl⟩ := List.mem_map.mp hsm
        rfl
    have hseg : ∀ s ∈ edges, IsSeg nbNodes s := by
      intro s hsm
      obtain ⟨⟨⟨cm, k1, -, k3⟩, -, k4, k5⟩, -⟩ := hs.2 s hsm
      rw [hty s hsm, getCellModel_seg.1] at k1
      cases k1
      have hlen : s.nodes.length = 2 := k3 rfl
      obtain ⟨a, b, hab⟩ := List.length_eq_two.mp hlen
      rw [hab] at k4 k5
      refine ⟨a, b, ?_, by simpa using k4, k5 a (by simp), k5 b (by simp)⟩
      rw [← hab, ← hty s hsm]
    refine ⟨hseg, fun n m => ?_⟩
    rcases he with ⟨cm, sons, k1, k2, k3, k4, k5⟩ | ⟨k1, fs, E, k2, k3, k4, k5, rfl⟩
    · obtain ⟨hm, hcode⟩ := getCellModel_mem k1
      have tab : ∀ cm ∈ cellModels, cm.code ∈ ([14, 15, 16, 18, 22, 31] : List Int) → cm.dyn = false → cm.dim = 3 ∧ ∀ e ∈ cm.sons, nbCorners e.1 e.2.length = e.2.length := by decide
      obtain ⟨hdim, hcor⟩ := tab cm hm (by rw [hcode]; exact ht) k2
      have hlen : c.nodes.length = cm.nbPts := by
        obtain ⟨⟨cm', q1, q2, q3⟩, -⟩ := hc c hcc
        rw [k1] at q1
        cases q1
        rcases q3 with ⟨-, -, q, -⟩ | ⟨q, -⟩
        · exact q
        · have : ∀ cm ∈ cellModels, cm.code = 31 → cm.dyn = true := by decide
          rw [this cm hm (by omega)] at k2; cases k2
      have hsons : ∀ s ∈ sons, nbCorners s.1 s.2.length = s.2.length := by
        rw [allSons_static k1 k2 (by omega) hlen] at k3
        rw [← Except.ok.inj k3]
        intro s hsm
        obtain ⟨e, hem, rfl⟩ := List.mem_map.mp hsm
        simp only [pick, List.length_map]
        exact hcor e hem
      have hboth : ∀ s ∈ edges, ∀ x y : Int, (x, y, none) ∈ bothWays s.nodes ↔ s.nodes = [x, y] ∨ s.nodes = [y, x] := by
        intro s hsm x y
        obtain ⟨a, b, rfl, -⟩ := hseg s hsm
        simp only [bothWays, List.mem_cons, Prod.mk.injEq, and_true, List.not_mem_nil, or_false, List.cons.injEq]
        constructor
        · rintro (⟨rfl, rfl⟩ | ⟨rfl, rfl⟩)
          · exact Or.inl ⟨rfl, rfl⟩
          · exact Or.inr ⟨rfl, rfl⟩
        · rintro (⟨rfl, rfl⟩ | ⟨rfl, rfl⟩)
          · exact Or.inl ⟨rfl, rfl⟩
          · exact Or.inr ⟨rfl, rfl⟩
      have hsurf : ∀ x y : Int, (x, y, none) ∈ surfaceEdges sons ↔ ∃ s ∈ sons, Follows s.2 x y := by
        intro x y
        unfold surfaceEdges
        rw [List.mem_flatMap]
        refine exists_congr fun s => and_congr_right fun hsm => ?_
        rw [mem_edgesOf_linear (hsons s hsm)]
        simp
      have hiff : ∀ x y : Int, (∃ s ∈ edges, s.nodes = [x, y] ∨ s.nodes = [y, x]) ↔ ∃ s ∈ sons, Follows s.2 x y := by
        intro x y
        rw [← hsurf, k5.mem_iff, List.mem_flatMap]
        exact exists_congr fun s => and_congr_right fun hsm => (hboth s hsm x y).symm
      constructor
      · intro hex
        obtain ⟨s, hsm, hf⟩ := (hiff n m).mp hex
        exact ⟨sons.map fun p => ⟨p.1, p.2⟩, ⟨cm, k1, by rw [toCells]; exact k3⟩, ⟨s.1, s.2⟩, List.mem_map.mpr ⟨s, hsm, rfl⟩, Or.inl hf⟩
      · rintro ⟨sons', ⟨cm', q1, q2⟩, s, hsm, hf⟩
        rw [k1] at q1
        cases q1
        rw [k3] at q2
        have hs2 : (s.type, s.nodes) ∈ sons := by
          rw [Except.ok.inj q2]
          exact List.mem_map.mpr ⟨s, hsm, rfl⟩
        rcases hf with hf | hf
        · exact (hiff n m).mpr ⟨_, hs2, hf⟩
        · obtain ⟨e, he1, he2⟩ := (hiff m n).mpr ⟨_, hs2, hf⟩
          exact ⟨e, he1, he2.symm⟩
    · have hcm : getCellModel 31 = .ok cm_polyhed := by decide
      have hsons := C47_polyhedron_sons fs k2 fun f hf => (k3 f hf).1
      have hiff : (∃ s ∈ (E.map fun p => (⟨1, [p.1, p.2]⟩ : Cell)), s.nodes = [n, m] ∨ s.nodes = [m, n]) ↔ ∃ f ∈ fs, Follows f n m ∨ Follows f m n := by
        constructor
        · rintro ⟨s, hsm, hn⟩
          obtain ⟨p, hp, rfl⟩ := List.mem_map.mp hsm
          obtain ⟨f, hf, hpf⟩ := List.mem_flatMap.mp (k5.sub.mem hp)
          rw [mem_ringPairs] at hpf
          simp only [List.cons.injEq, and_true] at hn
          refine ⟨f, hf, ?_⟩
          rcases hn with ⟨rfl, rfl⟩ | ⟨rfl, rfl⟩
          · exact Or.inl hpf
          · exact Or.inr hpf
        · rintro ⟨f, hf, hfol⟩
          have : ∃ q ∈ E, SameEdge q (n, m) := by
            rcases hfol with hfol | hfol
            · exact k5.complete (n, m) (List.mem_flatMap.mpr ⟨f, hf, mem_ringPairs.mpr hfol⟩)
            · obtain ⟨q, hq, hsame⟩ := k5.complete (m, n) (List.mem_flatMap.mpr ⟨f, hf, mem_ringPairs.mpr hfol⟩)
              exact ⟨q, hq, hsame.symm⟩
          obtain ⟨q, hq, hsame⟩ := this
          refine ⟨_, List.mem_map.mpr ⟨q, hq, rfl⟩, ?_⟩
          rcases hsame with rfl | rfl
          · exact Or.inl rfl
          · exact Or.inr rfl
      rw [hiff]
      constructor
      · rintro ⟨f, hf, hfol⟩
        refine ⟨fs.map fun f => ⟨5, f⟩, ⟨cm_polyhed, by rw [k1, hcm], ?_⟩, ⟨5, f⟩, List.mem_map.mpr ⟨f, hf, rfl⟩, hfol⟩
        rw [k4, hsons, List.map_map]
        rfl
      · rintro ⟨sons', ⟨cm', q1, q2⟩, s, hsm, hf⟩
        rw [k1, hcm] at q1
        cases q1
        rw [k4, hsons] at q2
        have hs2 : (s.type, s.nodes) ∈ fs.map fun f => ((5 : Int), f) := by
          rw [Except.ok.inj q2]
          exact List.mem_map.mpr ⟨s, hsm, rfl⟩
        obtain ⟨f, hf1, hf2⟩ := List.mem_map.mp hs2
        exact ⟨f, hf1, by rw [(Prod.mk.inj hf2).2]; exact hf⟩
  have hseg : ∀ s ∈ S.flatten, IsSeg nbNodes s := by
    intro s hs
    obtain ⟨l, hl, hsl⟩ := List.mem_flatten.mp hs
    obtain ⟨c, hcm, hr⟩ := forall₂_mem_right (l := cells.attach) (R := fun c l => HasSons minusTwoGen (3 - minusTwoGen.delta) nbNodes c.1 l ∧ EdgesOf3D c.1 l) (r := S) (by
      rw [List.forall₂_iff_get] at hS ⊢
      exact ⟨by simpa using hS.1, fun i h1 h2 => by simpa using hS.2 i (by simpa using h1) h2⟩) hl
    exact (hcell c.1 l c.2 hr).1 s hsl
  obtain ⟨hfaces, hop⟩ := opposite_desc e4 hseg
  obtain ⟨arr, idx, n1, n2⟩ := neighborsOfNodesIn_spec e2 hfaces
  refine ⟨arr, idx, _, ?_, n2, by simp, ?_⟩
  · unfold computeNeighborsOfNodes
    rw [if_pos rfl, hexp, ok_bind, n1]
  · intro n g hg
    rw [range_group hg]
    refine ⟨(hop n).1, fun m => ((hop n).2 m).trans ?_⟩
    constructor
    · rintro ⟨s, hs, hn⟩
      obtain ⟨l, hl, hsl⟩ := List.mem_flatten.mp hs
      obtain ⟨c, hcm, hr⟩ := forall₂_mem_right hS hl
      exact ⟨c, hcm, ((hcell c l hcm hr).2 n m).mp ⟨s, hsl, hn⟩⟩
    · rintro ⟨c, hcm, hex⟩
      obtain ⟨l, hl, hr⟩ := forall₂_mem_left hS hcm
      obtain ⟨s, hsl, hn⟩ := ((hcell c l hcm hr).2 n m).mpr hex
      exact ⟨s, List.mem_flatten.mpr ⟨l, hl, hsl⟩, hn⟩

/-- C68: any other dimension is refused. -/
theorem C68_dimension (dim : Int) (hd : dim ≠ 1 ∧ dim ≠ 2 ∧ dim ≠ 3) (nbNodes : Nat) (conn connI : List Int) :
    computeNeighborsOfNodes dim nbNodes conn connI = .error .exn := by
  unfold computeNeighborsOfNodes
  rw [if_neg hd.2.2, if_neg hd.2.1, if_neg hd.1]
  rfl

example : (∀ c ∈ ([⟨3, [0, 1, 2]⟩, ⟨3, [2, 1, 3]⟩] : List Cell), CellOk 2 5 c ∧ (c.type = 3 ∨ c.type = 4 ∨ c.type = 5)) ∧
    IsMesh [3, 0, 1, 2, 3, 2, 1, 3] [0, 4, 8] [⟨3, [0, 1, 2]⟩, ⟨3, [2, 1, 3]⟩] ∧
    computeNeighborsOfNodes 2 5 [3, 0, 1, 2, 3, 2, 1, 3] [0, 4, 8] = .ok ([1, 2, 0, 2, 3, 1, 0, 3, 1, 2].map some, [0, 2, 5, 8, 10, 10]) := by
  refine ⟨?_, by decide, by decide⟩
  intro c hc
  simp only [List.mem_cons, List.not_mem_nil, or_false] at hc
  rcases hc with rfl | rfl <;> exact ⟨tri_ok _ _ _ _ (by unfold NodesOk; decide), by decide⟩

example : (∀ c ∈ ([⟨14, [0, 1, 2, 3]⟩] : List Cell), CellOk3D 4 c ∧ c.type ∈ ([14, 15, 16, 18, 22, 31] : List Int)) ∧
    computeNeighborsOfNodes 3 4 [14, 0, 1, 2, 3] [0, 5] = .ok ([1, 2, 3, 0, 2, 3, 1, 0, 3, 0, 1, 2].map some, [0, 3, 6, 9, 12]) := by
  refine ⟨?_, by decide⟩
  intro c hc
  rw [List.mem_singleton] at hc
  subst hc
  exact ⟨⟨cm_tetra4, by decide, by decide, Or.inl ⟨by decide, by decide, by decide, by unfold NodesOk; decide⟩⟩, by decide⟩

/-- C68, finding: the code reads three values per edge, which is right for linear edges only.  In a mesh of one quadratic triangle, node 4, the
middle of the edge opposite to node 0, is given as a neighbour of node 0 and node 2 is not. -/
theorem C68_quadratic :
    (computeNeighborsOfNodes 2 6 [6, 0, 1, 2, 3, 4, 5] [0, 7]).toOption.map (fun r => (r.1.take 2, r.2.take 2)) = some ([some 1, some 4], [0, 2]) := by decide

end
end MC
