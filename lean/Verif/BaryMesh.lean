import Verif.BarySurf
import Verif.UMeshProps

/-! C102: the centers of mass and the means of the nodes of the cells of a mesh. -/

namespace MC

/-- A loop on the cells which appends one value for each cell. -/
theorem forCells_collect {α : Type} {conn connI : List Int} {cells : List Cell} (h : IsMesh conn connI cells) (f : Cell → M α) :
    forCells conn connI [] (fun _ c out => do
      let v ← f c
      .ok (out ++ [v])) = cells.mapM f := by
  rw [forCells_eq_foldlM h]
  have : ∀ (cells : List Cell) (out : List α), cells.foldlM (fun out c => (do
      let v ← f c
      .ok (out ++ [v]) : M (List α))) out = (cells.mapM f).map (out ++ ·) := by
    intro cells
    induction cells with
    | nil => intro out; simp [Except.map, pure, Except.pure]
    | cons c cells ih =>
      intro out
      rw [List.foldlM_cons, List.mapM_cons]
      cases f c with
      | error e => rfl
      | ok v =>
        simp only [ok_bind]
        rw [ih]
        cases cells.mapM f with
        | error e => rfl
        | ok r => simp [Except.map, pure, Except.pure, ok_bind]
  rw [this]
  cases cells.mapM f <;> simp [Except.map]

theorem mapM_ok_iff {α β : Type} (f : α → M β) (l : List α) (vs : List β) :
    l.mapM f = .ok vs ↔ vs.length = l.length ∧ ∀ (i : Nat) (c : α), l[i]? = some c → ∃ v, f c = .ok v ∧ vs[i]? = some v := by
  induction l generalizing vs with
  | nil =>
    constructor
    · intro h
      have : vs = [] := by simpa [pure, Except.pure, eq_comm] using h
      simp [this]
    · intro h
      have : vs = [] := by simpa using h.1
      subst this
      rfl
  | cons c cells ih =>
    rw [List.mapM_cons]
    constructor
    · intro h
      cases hc : f c with
      | error e => rw [hc] at h; cases h
      | ok v =>
        rw [hc] at h
        simp only [ok_bind] at h
        cases hr : cells.mapM f with
        | error e => rw [hr] at h; cases h
        | ok r =>
          rw [hr] at h
          have hv : vs = v :: r := by simpa [pure, Except.pure, ok_bind, eq_comm] using h
          subst hv
          have := (ih r).mp hr
          refine ⟨by simp [this.1], ?_⟩
          intro i d hi
          cases i with
          | zero =>
            have : c = d := by simpa using hi
            subst this
            exact ⟨v, hc, by simp⟩
          | succ i =>
            have := this.2 i d (by simpa using hi)
            simpa using this
    · rintro ⟨hl, hv⟩
      cases vs with
      | nil => simp at hl
      | cons w vs =>
        obtain ⟨v, hv0, hw⟩ := hv 0 c (by simp)
        have hr := (ih vs).mpr ⟨by simpa using hl, fun i d hi => by simpa using hv (i + 1) d (by simpa using hi)⟩
        rw [hr, hv0]
        have : w = v := by simpa using hw
        rw [this]
        rfl

section
variable {K : Type} [Field K] [LinearOrder K] [IsStrictOrderedRing K]

omit [IsStrictOrderedRing K] in
/-- **C102.** The array of the centers of mass has one tuple for each cell, which is the center of this cell; the method
succeeds exactly if the center of each cell can be computed. -/
theorem C102_array_of_centers (arcs : BaryArcs K) (s : K → K) (tiny eps : K) (sd : Nat) (coords : List (List K))
    (conn connI : List Int) (cells : List Cell) (h : IsMesh conn connI cells) (vs : List (List K)) :
    centersOfMass arcs s tiny eps sd coords conn connI = .ok vs ↔
      vs.length = cells.length ∧ ∀ (i : Nat) (c : Cell), cells[i]? = some c → ∃ v,
        cellBary arcs s tiny eps sd coords c.type c.nodes = .ok v ∧ vs[i]? = some v := by
  unfold centersOfMass
  rw [forCells_collect h]
  exact mapM_ok_iff _ _ _

omit [IsStrictOrderedRing K] in
/-- **C102.** The centers of a part of the mesh are those of the cells of the part, in the order of the given ids. -/
theorem C102_centers_of_a_part (arcs : BaryArcs K) (s : K → K) (tiny eps : K) (sd : Nat) (coords : List (List K))
    (conn connI : List Int) (cells : List Cell) (h : IsMesh conn connI cells) (vs : List (List K))
    (hf : centersOfMass arcs s tiny eps sd coords conn connI = .ok vs) (ids : List Int)
    (hi : ∀ i ∈ ids, 0 ≤ i ∧ i < cells.length) :
    partCenters arcs s tiny eps sd coords conn connI ids = .ok (ids.map fun i => vs.getD i.toNat []) := by
  unfold partCenters
  refine mapM_ok_map fun i hm => ?_
  obtain ⟨h0, h1⟩ := hi i hm
  obtain ⟨m, rfl⟩ := Int.eq_ofNat_of_zero_le h0
  have hm' : m < cells.length := by omega
  obtain ⟨v, hv, hvs⟩ := ((C102_array_of_centers arcs s tiny eps sd coords conn connI cells h vs).mp hf).2 m cells[m]
    (by simp [hm'])
  rw [rdCell_ok h hm', ok_bind, hv]
  simp [List.getD_eq_getElem?_getD, hvs]

/-! ## Means of the nodes -/

/-- The mean of the points of nodes -/
def meanOf (sd : Nat) (coords : List (List K)) (l : List Int) : List K :=
  (List.range sd).map fun k => (l.map fun n => ptNode coords n k).sum / (l.length : K)

omit [IsStrictOrderedRing K] in
theorem nodesSum_eq (sd : Nat) (coords : List (List K)) (l : List Int) (acc : List K) (ha : acc.length = sd) :
    nodesSum sd coords l acc = if ValidNodes coords l then
      .ok ((List.range sd).map fun k => (l.map fun n => ptNode coords n k).sum + acc.getD k 0) else throwX := by
  induction l generalizing acc with
  | nil =>
    rw [if_pos (show ValidNodes coords [] from fun c hc => by simp at hc)]
    unfold nodesSum
    congr 1
    apply List.ext_getElem (by simp [ha])
    intro k h1 h2
    simp [List.getD_eq_getElem?_getD, h1]
  | cons n l ih =>
    unfold nodesSum
    by_cases hn : 0 ≤ n ∧ n < coords.length
    · rw [if_pos hn, nodePt_char, if_pos hn, ok_bind, ih _ (by simp)]
      by_cases hl : ValidNodes coords l
      · rw [if_pos hl, if_pos (show ValidNodes coords (n :: l) from fun c hc => by
          rcases List.mem_cons.mp hc with rfl | hc
          · exact hn
          · exact hl c hc)]
        congr 1
        apply List.map_congr_left
        intro k hk
        have hk' : k < sd := List.mem_range.mp hk
        simp only [List.map_cons, List.sum_cons, List.getD_eq_getElem?_getD, List.getElem?_map, List.getElem?_range hk',
          Option.map_some, Option.getD_some]
        ring
      · rw [if_neg hl, if_neg (fun h => hl fun c hc => h c (by simp [hc]))]
    · rw [if_neg hn, if_neg (fun h => hn (h n (by simp)))]

omit [IsStrictOrderedRing K] in
theorem isoBary_eq (sd : Nat) (coords : List (List K)) (c : Cell) :
    isoBary sd coords c = if ValidNodes coords (isoNodes c) ∧ isoNodes c ≠ [] then .ok (meanOf sd coords (isoNodes c))
      else throwX := by
  unfold isoBary
  rw [nodesSum_eq sd coords _ _ (by simp)]
  by_cases hv : ValidNodes coords (isoNodes c)
  · rw [if_pos hv, ok_bind]
    by_cases he : isoNodes c = []
    · simp [he]
    · rw [if_pos (List.length_pos_iff.mpr he), if_pos ⟨hv, he⟩]
      congr 1
      unfold meanOf
      rw [List.map_map]
      apply List.map_congr_left
      intro k hk
      have hk' : k < sd := List.mem_range.mp hk
      simp only [Function.comp, List.getD_eq_getElem?_getD, List.getElem?_replicate, hk', if_true, Option.getD_some]
      ring
  · rw [if_neg hv, if_neg fun h => hv h.1]
    rfl

theorem mem_isoNodes_polyh (c : Cell) (hc : c.type = 31) (n : Int) : n ∈ isoNodes c ↔ n ∈ c.nodes ∧ n ≠ -1 := by
  unfold isoNodes
  rw [if_neg (not_not.mpr hc)]
  simp [List.mem_insertionSort]

theorem nodup_isoNodes_polyh (c : Cell) (hc : c.type = 31) : (isoNodes c).Nodup := by
  unfold isoNodes
  rw [if_neg (not_not.mpr hc)]
  exact (List.nodup_dedup _).filter _

omit [IsStrictOrderedRing K] in
/-- **C102.** The means of the nodes: one tuple for each cell. For a cell which is not a polyhedron it is the mean of the points
of all its nodes; for a polyhedron it is the mean of the points of its distinct nodes, whatever the faces on which they are and
without the separators. The method throws, and does not read out of the array of coordinates, exactly if a node of a cell is
not a node of the mesh or if a cell has no node. -/
theorem C102_means_of_the_nodes (sd : Nat) (coords : List (List K)) (conn connI : List Int) (cells : List Cell)
    (h : IsMesh conn connI cells) (nd : Cell → List Int)
    (h1 : ∀ c ∈ cells, c.type ≠ 31 → nd c = c.nodes)
    (h2 : ∀ c ∈ cells, c.type = 31 → (nd c).Nodup ∧ ∀ n, n ∈ nd c ↔ n ∈ c.nodes ∧ n ≠ -1) :
    isoBarys sd coords conn connI =
      if ∀ c ∈ cells, nd c ≠ [] ∧ ValidNodes coords (nd c) then
        .ok (cells.map fun c => (List.range sd).map fun k =>
          ((nd c).map fun n => ptNode coords n k).sum / ((nd c).length : K))
      else throwX := by
  unfold isoBarys
  rw [forCells_collect h]
  clear h
  have key : ∀ c ∈ cells, isoBary sd coords c = if nd c ≠ [] ∧ ValidNodes coords (nd c) then
      .ok (meanOf sd coords (nd c)) else throwX := by
    intro c hc
    rw [isoBary_eq]
    by_cases ht : c.type = 31
    · obtain ⟨g1, g2⟩ := h2 c hc ht
      have hp : (isoNodes c).Perm (nd c) := (List.perm_ext_iff_of_nodup (nodup_isoNodes_polyh c ht) g1).mpr fun n => by
        rw [mem_isoNodes_polyh c ht, g2]
      have e1 : meanOf sd coords (isoNodes c) = meanOf sd coords (nd c) := by
        unfold meanOf
        apply List.map_congr_left
        intro k _
        rw [(hp.map _).sum_eq, hp.length_eq]
      have e2 : (ValidNodes coords (isoNodes c) ∧ isoNodes c ≠ []) ↔ (nd c ≠ [] ∧ ValidNodes coords (nd c)) := by
        constructor
        · rintro ⟨a, b⟩
          exact ⟨fun e => b (by rw [e] at hp; exact hp.eq_nil), fun n hn => a n (hp.mem_iff.mpr hn)⟩
        · rintro ⟨a, b⟩
          exact ⟨fun n hn => b n (hp.mem_iff.mp hn), fun e => a (by rw [e] at hp; exact hp.symm.eq_nil)⟩
      rw [e1]
      simp only [e2]
    · have : isoNodes c = nd c := by
        rw [h1 c hc ht]
        unfold isoNodes
        rw [if_pos ht]
      rw [this]
      simp only [and_comm]
  clear h1 h2
  induction cells with
  | nil => simp; rfl
  | cons c cells ih =>
    rw [List.mapM_cons, key c (by simp), ih fun d hd => key d (by simp [hd])]
    by_cases hc : nd c ≠ [] ∧ ValidNodes coords (nd c)
    · rw [if_pos hc, ok_bind]
      by_cases hr : ∀ c ∈ cells, nd c ≠ [] ∧ ValidNodes coords (nd c)
      · rw [if_pos hr, ok_bind, if_pos (by simpa [hc] using hr)]
        rfl
      · rw [if_neg hr, if_neg fun hh => hr fun d hd => hh d (by simp [hd])]
        rfl
    · rw [if_neg hc, if_neg (fun hh => hc (hh c List.mem_cons_self) : ¬ ∀ d ∈ c :: cells, nd d ≠ [] ∧ ValidNodes coords (nd d))]
      rfl

/-- **C102.** For segments, triangles and tetrahedra the mean of the nodes is the center of mass. -/
theorem C102_means_of_simplices (arcs : BaryArcs K) (s : K → K) (tiny eps : K) (sd : Nat) (hsd : sd = 1 ∨ sd = 2 ∨ sd = 3)
    (coords : List (List K)) (conn connI : List Int) (cells : List Cell) (h : IsMesh conn connI cells)
    (hc : ∀ c ∈ cells, ValidNodes coords c.nodes ∧ (c.type = 1 ∧ c.nodes.length = 2 ∨ c.type = 3 ∧ c.nodes.length = 3 ∨
      c.type = 14 ∧ sd = 3 ∧ c.nodes.length = 4)) :
    isoBarys sd coords conn connI = centersOfMass arcs s tiny eps sd coords conn connI := by
  rw [C102_means_of_the_nodes sd coords conn connI cells h (fun c => c.nodes) (fun _ _ _ => rfl)
    (fun c hm ht => by have := (hc c hm).2; omega)]
  unfold centersOfMass
  rw [forCells_collect h, if_pos fun c hm => ⟨by
    intro e
    have := (hc c hm).2
    simp [e] at this, (hc c hm).1⟩]
  symm
  refine mapM_ok_map fun c hm => ?_
  obtain ⟨hv, ht⟩ := hc c hm
  rw [C102_centers_of_simplices arcs s tiny eps sd hsd coords c.type c.nodes c.nodes.length (by
    rcases ht with ⟨a, b⟩ | ⟨a, b⟩ | ⟨a, b, d⟩
    · exact Or.inl ⟨Or.inl a, b⟩
    · exact Or.inr (Or.inr (Or.inl ⟨Or.inl a, b⟩))
    · exact Or.inr (Or.inr (Or.inr ⟨a, b, d⟩))) le_rfl hv]
  simp [List.take_length]

/-- The types whose centers are computed -/
def centerTypes : List Int := [1, 2, 3, 4, 5, 6, 7, 8, 10, 14, 15, 16, 18, 22, 31, 32]

omit [IsStrictOrderedRing K] in
/-- **C102.** A mesh which has a cell of another type (QUAD9, TETRA10, PYRA13, PENTA15, PENTA18, HEXA20, HEXA27, POINT1,
quadratic polyhedra...) has no centers of mass: the method throws if the cells before this one have a center. -/
theorem C102_refused_types (arcs : BaryArcs K) (s : K → K) (tiny eps : K) (sd : Nat) (coords : List (List K))
    (conn connI : List Int) (l1 l2 : List Cell) (c : Cell) (h : IsMesh conn connI (l1 ++ c :: l2)) (hc : c.type ∉ centerTypes)
    (h1 : ∀ d ∈ l1, ∃ v, cellBary arcs s tiny eps sd coords d.type d.nodes = .ok v) :
    centersOfMass arcs s tiny eps sd coords conn connI = throwX := by
  have hthrow : cellBary arcs s tiny eps sd coords c.type c.nodes = throwX := by
    simp only [centerTypes, List.mem_cons, List.not_mem_nil, or_false, not_or] at hc
    unfold cellBary cellBaryF
    obtain ⟨_, _, _, _, _, _, _, _, _, _, _, _, _, _, _, _⟩ := hc
    simp_all
    rfl
  unfold centersOfMass
  rw [forCells_collect h]
  clear h
  induction l1 with
  | nil =>
    rw [List.nil_append, List.mapM_cons, hthrow]
    rfl
  | cons d l1 ih =>
    obtain ⟨v, hv⟩ := h1 d (by simp)
    rw [List.cons_append, List.mapM_cons, hv, ok_bind, ih fun e he => h1 e (by simp [he])]
    rfl

end

end MC
