import Verif.NeighProps

/-!
# C67: skin and boundary
-/

namespace MC
section
open Classical

/-- Exactly one sub cell of the whole mesh has the nodes of `s`. -/
def IsFree (S : List (List Cell)) (s : Cell) : Prop := S.flatten.countP (fun s' => decide (SameCell 3 s s')) = 1

theorem ownersOf_length (D : List (List Int)) (f : Int) : (ownersOf D f).length = D.flatten.count f := by
  unfold ownersOf
  have key : ∀ (D : List (List Int)) (k : Nat), ((D.zipIdx k).flatMap fun p => List.replicate (p.1.count f) (p.2 : Int)).length = D.flatten.count f := by
    intro D
    induction D with
    | nil => intro k; rfl
    | cons d D ih => intro k; rw [List.zipIdx_cons, List.flatMap_cons, List.length_append, ih, List.flatten_cons, List.count_append]; simp
  exact key D 0

theorem delta_sky {arr idx : List Int} {G : List (List Int)} (h : IsSky arr idx G) : deltaShiftIndex idx = .ok (G.map fun g => (g.length : Int)) := by
  have hl := h.idx_length
  unfold deltaShiftIndex
  rw [if_neg (by omega)]
  congr 1
  apply List.ext_getElem?
  intro k
  by_cases hk : k < G.length
  · obtain ⟨a1, a2, -, -⟩ := h.get hk
    rw [List.getElem?_zipWith, List.getElem?_tail, a1, a2, List.getElem?_map, List.getElem?_eq_getElem hk]
    simp
  · rw [List.getElem?_eq_none (by simp; omega), List.getElem?_eq_none (by simp; omega)]

/-- The number of sub cells with the number `f` is the number of those with the nodes of face `f`. -/
theorem IsDescending.count {S : List (List Cell)} {faces : List Cell} {D : List (List Int)} (h : IsDescending S faces D) {s : Cell} {v : Int}
    (h1 : ∃ (f : Nat) (c : Cell), v = f ∧ faces[f]? = some c ∧ SameCell 3 s c) :
    D.flatten.count v = S.flatten.countP fun s' => decide (SameCell 3 s s') := by
  rw [List.count]
  refine (countP_forall₂ (forall₂_flatten h.faceOf) fun s' w hr => ?_).symm
  rw [Bool.eq_iff_iff, decide_eq_true_iff, beq_iff_eq, ← h.same h1 hr]
  exact eq_comm

/-- The faces with one owner, in order. -/
def freeIds (faces : List Cell) (D : List (List Int)) : List Int :=
  findIdsEqual (((List.range faces.length).map fun f : Nat => ownersOf D (f : Int)).map fun g => (g.length : Int)) 1

theorem mem_freeIds {faces : List Cell} {D : List (List Int)} {x : Int} :
    x ∈ freeIds faces D ↔ ∃ f : Nat, x = f ∧ f < faces.length ∧ D.flatten.count (f : Int) = 1 := by
  unfold freeIds
  rw [(C36_ids_equal _ _).2]
  constructor
  · rintro ⟨f, rfl, hf⟩
    rw [List.getElem?_map, List.getElem?_map] at hf
    have hlt : f < faces.length := by
      by_contra hge
      rw [List.getElem?_eq_none (by simp; omega)] at hf
      cases hf
    rw [List.getElem?_range hlt] at hf
    simp only [Option.map_some, Option.some.injEq] at hf
    rw [ownersOf_length] at hf
    exact ⟨f, rfl, hlt, by omega⟩
  · rintro ⟨f, rfl, hlt, hc⟩
    refine ⟨f, rfl, ?_⟩
    rw [List.getElem?_map, List.getElem?_map, List.getElem?_range hlt]
    simp only [Option.map_some, Option.some.injEq]
    rw [ownersOf_length, hc]
    rfl

theorem count_one_index {l : List Int} {x : Int} (h : l.count x = 1) {i j : Nat} (hi : l[i]? = some x) (hj : l[j]? = some x) : i = j := by
  have key : ∀ (l : List Int) (i j : Nat), l.count x ≤ 1 → l[i]? = some x → l[j]? = some x → i ≤ j := by
    intro l
    induction l with
    | nil => intro i j _ hi; simp at hi
    | cons a l ih =>
      intro i j hc hi hj
      rcases i with _ | i
      · omega
      · rcases j with _ | j
        · rw [List.getElem?_cons_zero, Option.some.injEq] at hj
          subst hj
          rw [List.count_cons_self] at hc
          have hm := List.mem_of_getElem? (by simpa using hi : l[i]? = some a)
          have := List.count_pos_iff.mpr hm
          omega
        · have := ih i j (le_trans (by rw [List.count_cons]; omega) hc) (by simpa using hi) (by simpa using hj)
          omega
  have := key l i j (by omega) hi hj
  have := key l j i (by omega) hj hi
  omega

theorem filter_forall₂ {α β : Type} {R : α → β → Prop} {l : List α} {r : List β} (h : List.Forall₂ R l r) {p : α → Bool} {q : β → Bool}
    (hpq : ∀ a b, R a b → p a = q b) : List.Forall₂ R (l.filter p) (r.filter q) := by
  induction h with
  | nil => exact .nil
  | cons h1 _ ih =>
    rw [List.filter_cons, List.filter_cons, hpq _ _ h1]
    split
    · exact .cons h1 ih
    · exact ih

/-- The faces with one owner are the free sub cells, in the order of the cells. -/
theorem IsDescending.free {S : List (List Cell)} {faces : List Cell} {D : List (List Int)} (h : IsDescending S faces D) :
    List.Forall₂ (fun (s : Cell) (v : Int) => ∃ f : Nat, v = f ∧ faces[f]? = some s) (S.flatten.filter fun s => decide (IsFree S s)) (freeIds faces D) := by
  have hflat := forall₂_flatten h.faceOf
  -- relation with the position
  have hpos : List.Forall₂ (fun (s : Cell) (v : Int) => (∃ (f : Nat) (c : Cell), v = f ∧ faces[f]? = some c ∧ SameCell 3 s c) ∧
      (D.flatten.count v = 1 → ∃ f : Nat, v = f ∧ faces[f]? = some s)) S.flatten D.flatten := by
    refine List.forall₂_iff_get.mpr ⟨hflat.length_eq, fun k h1 h2 => ?_⟩
    have hr := (List.forall₂_iff_get.mp hflat).2 k h1 h2
    refine ⟨hr, fun hc => ?_⟩
    obtain ⟨f, c, hv, hf, -⟩ := hr
    obtain ⟨i, i1, i2, -⟩ := h.first f c hf
    rw [← hv] at i2
    have hk : D.flatten[k]? = some (D.flatten.get ⟨k, h2⟩) := List.getElem?_eq_getElem h2
    have := count_one_index hc i2 hk
    subst this
    rw [List.getElem?_eq_getElem h1, Option.some.injEq] at i1
    exact ⟨f, hv, by rw [hf, ← i1]; rfl⟩
  have hfil := filter_forall₂ hpos (p := fun s => decide (IsFree S s)) (q := fun v => decide (D.flatten.count v = 1)) fun s v hr => by
    rw [decide_eq_decide, IsFree, h.count hr.1]
  have heq : D.flatten.filter (fun v => decide (D.flatten.count v = 1)) = freeIds faces D := by
    refine StrictSorted.ext ?_ (C36_ids_equal _ _).1 ?_
    · refine List.pairwise_filter.mpr ?_
      rw [List.pairwise_iff_getElem]
      intro i j hi hj hij c1 c2
      rw [decide_eq_true_iff] at c1 c2
      obtain ⟨f, c, hv, hf, -⟩ := (List.forall₂_iff_get.mp hflat).2 j (by rw [hflat.length_eq]; exact hj) hj
      have hv' : D.flatten[j] = (f : Int) := hv
      obtain ⟨i0, i1, i2, i3⟩ := h.first f c hf
      have : i0 = j := count_one_index (by rw [← hv']; exact c2) i2 (by rw [List.getElem?_eq_getElem hj, hv'])
      subst this
      rw [hv']
      exact i3 i _ hij (List.getElem?_eq_getElem hi)
    · intro x
      rw [List.mem_filter, decide_eq_true_iff, mem_freeIds]
      constructor
      · rintro ⟨hx, hc⟩
        obtain ⟨s, hs, f, c, hv, hf, -⟩ := forall₂_mem_right hflat hx
        exact ⟨f, hv, (List.getElem?_eq_some_iff.mp hf).1, by rw [← hv]; exact hc⟩
      · rintro ⟨f, rfl, -, hc⟩
        exact ⟨List.count_pos_iff.mp (by omega), hc⟩
  rw [heq] at hfil
  refine List.forall₂_iff_get.mpr ⟨hfil.length_eq, fun k h1 h2 => ?_⟩
  refine ((List.forall₂_iff_get.mp hfil).2 k h1 h2).2 ?_
  have : (freeIds faces D).get ⟨k, h2⟩ ∈ D.flatten.filter fun v => decide (D.flatten.count v = 1) := by
    rw [heq]; exact List.get_mem _ _
  have := (List.mem_filter.mp this).2
  rwa [decide_eq_true_iff] at this

theorem buildPartKeep_spec {dim : Int} (hd : dim ≠ -1) {conn connI : List Int} {faces : List Cell} (h : IsMesh conn connI faces) {ids : List Int} {skin : List Cell}
    (hs : List.Forall₂ (fun (s : Cell) (v : Int) => ∃ f : Nat, v = f ∧ faces[f]? = some s) skin ids) :
    ∃ conn' connI', buildPartOfMySelfKeep dim conn connI ids = .ok (conn', connI') ∧ IsMesh conn' connI' skin := by
  obtain ⟨conn', connI', types, cells', e1, e2, e3, e4, -, -⟩ := (C56_buildPart h ids).1 fun v hv => by
    obtain ⟨s, -, f, rfl, hf⟩ := forall₂_mem_right hs hv
    have := (List.getElem?_eq_some_iff.mp hf).1
    omega
  refine ⟨conn', connI', ?_, ?_⟩
  · unfold buildPartOfMySelfKeep
    rw [if_pos hd, e1, ok_bind, initialised_map_some, ok_bind]
  · have : cells' = skin := by
      apply List.ext_getElem?
      intro k
      by_cases hk : k < ids.length
      · have hk' : k < skin.length := by rw [hs.length_eq]; exact hk
        obtain ⟨f, hv, hf⟩ := (List.forall₂_iff_get.mp hs).2 k hk' hk
        have hv' : ids[k] = (f : Int) := hv
        rw [e4 k _ (List.getElem?_eq_getElem hk), hv', Int.toNat_natCast, hf, List.getElem?_eq_getElem hk']
        rfl
      · rw [List.getElem?_eq_none (by omega), List.getElem?_eq_none (by rw [hs.length_eq]; omega)]
    rw [← this]
    exact e2

/-- C67: the skin of any mesh, `S` being the sub cells of its cells: the sub cells whose nodes are those of no other one, in the order of the
cells.  The boundary nodes are their nodes, each once in increasing order.  `buildBoundaryMesh` gives the same mesh, but its behaviour
is not defined when there is no boundary. -/
theorem C67_skin {dim : Int} {nbNodes : Nat} {conn connI : List Int} {cells : List Cell} (h : IsMesh conn connI cells)
    (hd : 1 ≤ dim ∧ dim ≤ 3) (hc : ∀ c ∈ cells, CellOk dim nbNodes c) :
    ∃ (S : List (List Cell)) (conn' connI' nodes : List Int), List.Forall₂ BoundaryOf cells S ∧
      computeSkin dim nbNodes conn connI = .ok (conn', connI') ∧ IsMesh conn' connI' (S.flatten.filter fun s => decide (IsFree S s)) ∧
      (findBoundaryNodes dim nbNodes conn connI = .ok (nodes.map some) ∧ StrictSorted nodes ∧
        ∀ n, n ∈ nodes ↔ 0 ≤ n ∧ ∃ s ∈ S.flatten, IsFree S s ∧ n ∈ s.nodes) ∧
      buildBoundaryMesh dim nbNodes conn connI = if ∃ s ∈ S.flatten, IsFree S s then .ok (conn', connI') else .error .ub := by
  obtain ⟨S, r, faces, D, a1, a2, a3, -, a5, a6, a7⟩ := C63_descending h (by omega) hc
  obtain ⟨conn', connI', b1, b2⟩ := buildPartKeep_spec (dim := dim - 1) (by omega) a3 a5.free
  have hskin : computeSkin dim nbNodes conn connI = .ok (conn', connI') := by
    unfold computeSkin
    rw [a2, ok_bind, delta_sky a7, ok_bind]
    exact b1
  obtain ⟨nodes, n1, n2, n3⟩ := C54_computeFetchedNodeIds b2
  refine ⟨S, conn', connI', nodes, a1, hskin, b2, ⟨?_, n2, ?_⟩, ?_⟩
  · unfold findBoundaryNodes
    rw [hskin, ok_bind, n1]
  · intro n
    rw [n3, UsedNode]
    constructor
    · rintro ⟨h0, c, hcm, hn⟩
      rw [List.mem_filter, decide_eq_true_iff] at hcm
      exact ⟨h0, c, hcm.1, hcm.2, hn⟩
    · rintro ⟨h0, c, h1, h2, hn⟩
      exact ⟨h0, c, by rw [List.mem_filter, decide_eq_true_iff]; exact ⟨h1, h2⟩, hn⟩
  · have hloop : loop (r.connI.length - 1) ([] : List Int) (fun i b => do
        let y ← rd r.revDescIndx ((i : Int) + 1)
        let x ← rd r.revDescIndx i
        .ok (if y - x = 1 then b ++ [(i : Int)] else b)) = .ok (freeIds faces D) := by
      have hfl := a3.length
      rw [show r.connI.length - 1 = faces.length by omega]
      have key : wp (loop faces.length ([] : List Int) (fun i b => do
          let y ← rd r.revDescIndx ((i : Int) + 1)
          let x ← rd r.revDescIndx i
          .ok (if y - x = 1 then b ++ [(i : Int)] else b))) (fun b => StrictSorted b ∧ ∀ x : Int, x ∈ b ↔ ∃ f : Nat, x = f ∧ f < faces.length ∧ D.flatten.count (f : Int) = 1) False := by
        refine wp_loop (fun k (b : List Int) => StrictSorted b ∧ ∀ x : Int, x ∈ b ↔ ∃ f : Nat, x = f ∧ f < k ∧ D.flatten.count (f : Int) = 1) ⟨List.Pairwise.nil, by simp⟩ ?_
        rintro i hi b ⟨i1, i2⟩
        obtain ⟨g1, g2, -, -⟩ := a7.get (k := i) (by simpa using hi)
        rw [rd_of_getElem? (by omega) (by rw [show ((i : Int) + 1).toNat = i + 1 by omega]; exact g2), ok_bind,
          rd_of_getElem? (by omega) (by rw [Int.toNat_natCast]; exact g1), ok_bind, wp_ok]
        simp only [List.getElem_map, List.getElem_range, ownersOf_length]
        by_cases hone : D.flatten.count (i : Int) = 1
        · rw [if_pos (by omega)]
          refine ⟨List.pairwise_append.mpr ⟨i1, List.pairwise_singleton _ _, ?_⟩, ?_⟩
          · intro a ha c hc'
            rw [List.mem_singleton] at hc'
            obtain ⟨f, rfl, hf, -⟩ := (i2 a).mp ha
            rw [hc']; omega
          · intro x
            rw [List.mem_append, i2, List.mem_singleton]
            constructor
            · rintro (⟨f, h1, h2, h3⟩ | rfl)
              · exact ⟨f, h1, by omega, h3⟩
              · exact ⟨i, rfl, by omega, hone⟩
            · rintro ⟨f, h1, h2, h3⟩
              by_cases hfi : f = i
              · exact Or.inr (by rw [h1, hfi])
              · exact Or.inl ⟨f, h1, by omega, h3⟩
        · rw [if_neg (by omega)]
          refine ⟨i1, fun x => ?_⟩
          rw [i2]
          constructor
          · rintro ⟨f, h1, h2, h3⟩
            exact ⟨f, h1, by omega, h3⟩
          · rintro ⟨f, h1, h2, h3⟩
            have : f ≠ i := fun e => hone (e ▸ h3)
            exact ⟨f, h1, by omega, h3⟩
      obtain ⟨b, e1, e2, e3⟩ := wp_exists key
      rw [e1]
      congr 1
      exact StrictSorted.ext e2 (C36_ids_equal _ _).1 fun x => by rw [e3]; exact mem_freeIds.symm
    unfold buildBoundaryMesh
    rw [a2, ok_bind, hloop, ok_bind]
    have hemp : freeIds faces D = [] ↔ ¬ ∃ s ∈ S.flatten, IsFree S s := by
      rw [← List.length_eq_zero_iff, ← a5.free.length_eq, List.length_eq_zero_iff, List.filter_eq_nil_iff]
      simp
    by_cases hex : ∃ s ∈ S.flatten, IsFree S s
    · rw [if_pos hex, if_neg (fun e => hemp.mp e hex), b1]
    · rw [if_neg hex, if_pos (hemp.mpr hex)]
      rfl

/-- C67: the cells on the boundary are those which have a sub cell whose nodes are those of no other one, in increasing order. -/
theorem C67_cells_on_boundary {dim : Int} {nbNodes : Nat} {conn connI : List Int} {cells : List Cell} (h : IsMesh conn connI cells)
    (hd : 0 ≤ dim ∧ dim ≤ 3) (hc : ∀ c ∈ cells, CellOk dim nbNodes c) :
    ∃ (S : List (List Cell)) (ids : List Int), List.Forall₂ BoundaryOf cells S ∧
      findCellIdsOnBoundary dim nbNodes conn connI = .ok (ids.map some) ∧ StrictSorted ids ∧
      ∀ x : Int, x ∈ ids ↔ ∃ (i : Nat) (si : List Cell), x = i ∧ S[i]? = some si ∧ ∃ s ∈ si, IsFree S s := by
  obtain ⟨S, r, faces, D, a1, a2, a3, -, a5, a6, a7⟩ := C63_descending h hd hc
  have hl := h.length
  have hDS : D.length = S.length := a5.faceOf.length_eq.symm
  have hSc : S.length = cells.length := a1.length_eq.symm
  by_cases h0 : connI.length - 1 = 0
  · refine ⟨S, [], a1, ?_, List.Pairwise.nil, ?_⟩
    · unfold findCellIdsOnBoundary
      rw [if_pos h0]; rfl
    · intro x
      constructor
      · intro hx; cases hx
      · rintro ⟨i, si, -, hi, -⟩
        have := (List.getElem?_eq_some_iff.mp hi).1
        omega
  · have key : wp ((freeIds faces D).foldlM (fun (ret1 : List Bool) (f : Int) => do
        let a ← rd r.revDescIndx f
        let c ← rd r.revDesc a
        let b ← rd ret1 c
        if b then .ok ret1 else wr ret1 c true) (List.replicate (connI.length - 1) false))
        (fun l => ∀ x, On l x ↔ ∃ f ∈ freeIds faces D, x ∈ ownersOf D f) False := by
      refine wp_mono (wp_foldlM (fun pre (l : List Bool) => l.length = cells.length ∧ ∀ x, On l x ↔ ∃ f ∈ pre, x ∈ ownersOf D f)
        ⟨by simp; omega, fun x => by simp [not_on_replicate]⟩ ?_) (fun l hl => hl.2) id
      rintro pre f suf hpre l ⟨i1, i2⟩
      have hfm : f ∈ freeIds faces D := by rw [hpre]; simp
      obtain ⟨k, rfl, hk, hcnt⟩ := mem_freeIds.mp hfm
      obtain ⟨g1, g2, g3, g4⟩ := a7.get (k := k) (by simpa using hk)
      simp only [List.getElem_map, List.getElem_range] at g2 g3 g4
      have hlen : (ownersOf D (k : Int)).length = 1 := by rw [ownersOf_length, hcnt]
      obtain ⟨c, hcc⟩ := List.length_eq_one_iff.mp hlen
      rw [hcc] at g2 g3 g4
      rw [rd_of_getElem? (by omega) (by rw [Int.toNat_natCast]; exact g1), ok_bind]
      have hrd : rd r.revDesc (((List.take k ((List.range faces.length).map fun f : Nat => ownersOf D (f : Int))).flatten.length : Int)) = .ok c := by
        refine rd_of_getElem? (by omega) ?_
        rw [Int.toNat_natCast]
        unfold slice at g4
        rw [Int.toNat_natCast] at g4
        have := congrArg (fun l => l[0]?) g4
        simpa using this
      rw [hrd, ok_bind]
      have hcin : c ∈ ownersOf D (k : Int) := by rw [hcc]; simp
      obtain ⟨i, d, rfl, hdi, -⟩ := mem_ownersOf.mp hcin
      have hil := (List.getElem?_eq_some_iff.mp hdi).1
      have hmem : ∀ x, x ∈ ownersOf D (k : Int) ↔ x = (i : Int) := by intro x; rw [hcc]; simp
      by_cases hon : On l (i : Int)
      · rw [(rd_on (by omega) (by omega)).1 hon, ok_bind, if_pos rfl, wp_ok]
        refine ⟨i1, fun x => ?_⟩
        rw [i2]
        constructor
        · rintro ⟨f, hf, hx⟩
          exact ⟨f, by simp [hf], hx⟩
        · rintro ⟨f, hf, hx⟩
          rw [List.mem_append, List.mem_singleton] at hf
          rcases hf with hf | rfl
          · exact ⟨f, hf, hx⟩
          · rw [hmem] at hx
            subst hx
            exact (i2 _).mp hon
      · rw [(rd_on (by omega) (by omega)).2 hon, ok_bind, if_neg (by simp)]
        obtain ⟨l', w1, w2, w3, -⟩ := wr_on (l := l) (x := (i : Int)) (by omega) (by omega)
        rw [w1, wp_ok]
        refine ⟨by omega, fun x => ?_⟩
        rw [w3, i2]
        constructor
        · rintro (⟨f, hf, hx⟩ | rfl)
          · exact ⟨f, by simp [hf], hx⟩
          · exact ⟨k, by simp, hcin⟩
        · rintro ⟨f, hf, hx⟩
          rw [List.mem_append, List.mem_singleton] at hf
          rcases hf with hf | rfl
          · exact Or.inl ⟨f, hf, hx⟩
          · exact Or.inr ((hmem x).mp hx)
    obtain ⟨l, e1, e2⟩ := wp_exists key
    obtain ⟨ids, s1, s2, s3⟩ := C35_switched true l
    refine ⟨S, ids, a1, ?_, s2, ?_⟩
    · unfold findCellIdsOnBoundary
      rw [if_neg h0, a2, ok_bind, delta_sky a7, ok_bind]
      show ((freeIds faces D).foldlM _ _ >>= _) = _
      rw [e1, ok_bind, s1]
    · intro x
      rw [s3]
      show On l x ↔ _
      rw [e2]
      constructor
      · rintro ⟨f, hf, hx⟩
        obtain ⟨i, d, rfl, hdi, hfd⟩ := mem_ownersOf.mp hx
        obtain ⟨k, rfl, -, hcnt⟩ := mem_freeIds.mp hf
        have hil := (List.getElem?_eq_some_iff.mp hdi).1
        have hSi : S[i]? = some (S[i]'(by omega)) := List.getElem?_eq_getElem (by omega)
        obtain ⟨dd, q1, q2⟩ := forall₂_at a5.faceOf hSi
        rw [hdi, Option.some.injEq] at q1
        subst q1
        obtain ⟨s, hs, hr⟩ := forall₂_mem_right q2 hfd
        exact ⟨i, _, rfl, hSi, s, hs, by rw [IsFree, ← a5.count hr]; exact hcnt⟩
      · rintro ⟨i, si, rfl, hsi, s, hs, hfree⟩
        obtain ⟨dd, q1, q2⟩ := forall₂_at a5.faceOf hsi
        obtain ⟨v, hv, hr⟩ := forall₂_mem_left q2 hs
        have hcnt := a5.count hr
        have hr' := hr
        obtain ⟨k, c, rfl, hk, -⟩ := hr'
        exact ⟨k, mem_freeIds.mpr ⟨k, rfl, (List.getElem?_eq_some_iff.mp hk).1, by rw [hcnt]; exact hfree⟩, mem_ownersOf.mpr ⟨i, dd, rfl, q1, hv⟩⟩

/- Four triangles around node 4: the skin is the square, the boundary nodes its corners; the middle triangle of three in a strip is on it too. -/
example : (∀ c ∈ ([⟨3, [0, 1, 4]⟩, ⟨3, [1, 2, 4]⟩, ⟨3, [2, 3, 4]⟩, ⟨3, [3, 0, 4]⟩] : List Cell), CellOk 2 5 c) ∧
    IsMesh [3, 0, 1, 4, 3, 1, 2, 4, 3, 2, 3, 4, 3, 3, 0, 4] [0, 4, 8, 12, 16] [⟨3, [0, 1, 4]⟩, ⟨3, [1, 2, 4]⟩, ⟨3, [2, 3, 4]⟩, ⟨3, [3, 0, 4]⟩] ∧
    computeSkin 2 5 [3, 0, 1, 4, 3, 1, 2, 4, 3, 2, 3, 4, 3, 3, 0, 4] [0, 4, 8, 12, 16] = .ok ([1, 0, 1, 1, 1, 2, 1, 2, 3, 1, 3, 0], [0, 3, 6, 9, 12]) ∧
    findBoundaryNodes 2 5 [3, 0, 1, 4, 3, 1, 2, 4, 3, 2, 3, 4, 3, 3, 0, 4] [0, 4, 8, 12, 16] = .ok [some 0, some 1, some 2, some 3] ∧
    findCellIdsOnBoundary 2 5 [3, 0, 1, 4, 3, 1, 2, 4, 3, 2, 3, 4, 3, 3, 0, 4] [0, 4, 8, 12, 16] = .ok [some 0, some 1, some 2, some 3] := by
  refine ⟨?_, by decide, by decide, by decide, by decide⟩
  intro c hc
  simp only [List.mem_cons, List.not_mem_nil, or_false] at hc
  rcases hc with rfl | rfl | rfl | rfl <;> exact tri_ok _ _ _ _ (by unfold NodesOk; decide)

/-- C67, finding: a closed surface (here the four faces of a tetrahedron) has an empty skin, and `buildBoundaryMesh` takes the address of
the first element of an empty vector. -/
theorem C67_closed_surface : computeSkin 2 4 [3, 0, 1, 2, 3, 0, 3, 1, 3, 1, 3, 2, 3, 2, 3, 0] [0, 4, 8, 12, 16] = .ok ([], [0]) ∧
    buildBoundaryMesh 2 4 [3, 0, 1, 2, 3, 0, 3, 1, 3, 1, 3, 2, 3, 2, 3, 0] [0, 4, 8, 12, 16] = .error .ub := by decide

end
end MC
