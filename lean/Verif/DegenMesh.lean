import Verif.DegenMain

/-!
# C105: `convertDegeneratedCells`, `convertDegeneratedCellsAndRemoveFlatOnes`, `unPolyze` and `removeDegenerated1DCells` on meshes
-/

namespace MC

/-! ## Degenerated cells of dimension 3 -/

theorem zipFace_dups (f acc : List Int) :
    f.foldl (fun acc x => if x ∈ acc then acc else acc ++ [x]) acc = acc ++ (f.filter fun x => decide (x ∉ acc)).eraseDups := by
  induction f generalizing acc with
  | nil => simp
  | cons x f ih =>
    rw [List.foldl_cons]
    by_cases hx : x ∈ acc
    · rw [if_pos hx, ih, List.filter_cons_of_neg (by simpa using hx)]
    · rw [if_neg hx, ih, List.filter_cons_of_pos (by simpa using hx), List.eraseDups_cons, List.filter_filter, List.append_assoc, List.singleton_append]
      congr 4
      funext y
      simp only [List.mem_append, List.mem_cons, List.not_mem_nil, or_false, not_or, Bool.decide_and]
      rw [Bool.and_comm]
      congr 1
      by_cases hy : y = x <;> simp [hy]

theorem zipFace_eq (f : List Int) : zipFace f = f.eraseDups := by
  unfold zipFace
  rw [zipFace_dups]
  simp

/-- The faces of a cell, without repeated nodes, which still have three nodes -/
def trueFaces (cm : CellModel) (ns : List Int) : List (List Int) := ((sonsOf cm ns).map List.eraseDups).filter fun f => decide (3 ≤ f.length)

theorem fullPolyh_static {cm : CellModel} (hcm : cm ∈ usualTypes) {ns : List Int} (hl : ns.length = cm.nbPts) (hne : trueFaces cm ns ≠ []) :
    getFullPolyh3DCell ⟨cm.code, ns⟩ = .ok (typed (trueFaces cm ns)) := by
  have tab : ∀ cm ∈ usualTypes, cm.dyn = false ∧ cm.dim = 3 ∧ ∀ s ∈ cm.sons, (s.1 = 3 ∨ s.1 = 4 ∨ s.1 = 5) ∧ s.2 ≠ [] := by decide
  have hget : getCellModel cm.code = .ok cm := by
    have hc : cm = cm_tetra4 ∨ cm = cm_pyra5 ∨ cm = cm_penta6 ∨ cm = cm_hexa8 ∨ cm = cm_hexgp12 := by simpa [usualTypes] using hcm
    rcases hc with rfl | rfl | rfl | rfl | rfl <;> rfl
  obtain ⟨t1, t2, t3⟩ := tab cm hcm
  unfold getFullPolyh3DCell
  rw [hget, ok_bind]
  dsimp only
  rw [allSons_static hget t1 (by omega) hl, ok_bind]
  have hm : (cm.sons.map fun s => (s.1, pick ns s.2)).mapM zipSon = .ok ((cm.sons.map fun s => (s.1, pick ns s.2)).map fun s =>
      if s.2.eraseDups.length < 3 then none else some (unPoly2DType false s.2.eraseDups.length, s.2.eraseDups)) := by
    apply mapM_ok_map
    intro s hs
    obtain ⟨s0, h0, rfl⟩ := List.mem_map.mp hs
    obtain ⟨t4, t5⟩ := t3 s0 h0
    unfold zipSon
    dsimp only
    rw [zipFace_eq, if_neg (by simpa [pick] using t5)]
    split_ifs with h3
    · rfl
    · rcases t4 with e | e | e <;> (rw [e]; rfl)
  have hf : ((cm.sons.map fun s => (s.1, pick ns s.2)).map fun s =>
      if s.2.eraseDups.length < 3 then none else some (unPoly2DType false s.2.eraseDups.length, s.2.eraseDups)).filterMap id =
      typed (trueFaces cm ns) := by
    unfold trueFaces sonsOf typed
    generalize cm.sons = L
    induction L with
    | nil => rfl
    | cons s L ih =>
      simp only [List.map_cons, List.filterMap_cons, id] at ih ⊢
      by_cases h3 : (pick ns s.2).eraseDups.length < 3
      · rw [if_pos h3, List.filter_cons_of_neg (by simpa using h3)]
        exact ih
      · rw [if_neg h3, List.filter_cons_of_pos (by simpa using h3), List.map_cons]
        exact congrArg _ ih
  rw [hm, ok_bind, hf, if_neg]
  simpa [typed] using hne

/-- **C105.** A cell of dimension 3 with different nodes is left; if nodes are repeated and the faces which remain are those of a usual cell,
it becomes this cell, with these faces. -/
theorem C105_degenerated_solid {cm cm' : CellModel} (hcm : cm ∈ usualTypes) (hcm' : cm' ∈ usualTypes) {ns nodes : List Int} (hl : ns.length = cm.nbPts)
    (h1 : -1 ∉ ns) (hn : nodes.Nodup) (hl' : nodes.length = cm'.nbPts) (h1' : -1 ∉ nodes) :
    (ns.Nodup → simplifyCell ⟨cm.code, ns⟩ = .ok ⟨cm.code, ns⟩) ∧
    (¬ ns.Nodup → SameFaces (trueFaces cm ns) (sonsOf cm' nodes) →
      ∃ r, simplifyCell ⟨cm.code, ns⟩ = .ok ⟨cm'.code, r⟩ ∧ SameFaces (sonsOf cm' r) (trueFaces cm ns) ∧ r.length = cm'.nbPts) := by
  have tab : ∀ cm ∈ usualTypes, cm.quad = false ∧ cm.dim = 3 := by decide
  have hget : getCellModel cm.code = .ok cm := by
    have hc : cm = cm_tetra4 ∨ cm = cm_pyra5 ∨ cm = cm_penta6 ∨ cm = cm_hexa8 ∨ cm = cm_hexgp12 := by simpa [usualTypes] using hcm
    rcases hc with rfl | rfl | rfl | rfl | rfl <;> rfl
  obtain ⟨t1, t2⟩ := tab cm hcm
  have hfil : ns.dedup.filter (fun x => decide (x ≠ -1)) = ns.dedup := by
    rw [List.filter_eq_self]
    intro x hx
    have : x ≠ -1 := fun e => h1 (e ▸ List.mem_dedup.mp hx)
    simpa using this
  have hd : nbDistinct ns = ns.dedup.length := by unfold nbDistinct; rw [hfil]
  have hiff : nbDistinct ns = ns.length ↔ ns.Nodup := by
    rw [hd]
    constructor
    · intro h
      have := (List.dedup_sublist ns).eq_of_length h
      rw [← this]
      exact List.nodup_dedup ns
    · intro h
      rw [h.dedup]
  unfold simplifyCell
  dsimp only
  rw [hget, ok_bind]
  constructor
  · intro h
    rw [if_pos (Or.inr (hiff.mpr h))]
  · intro h hs
    obtain ⟨r, e, h2, h3⟩ := unPoly3D_usual hcm' hn hl' h1' hs
    refine ⟨r, ?_, h2, h3⟩
    rw [if_neg (by rw [t1, hiff]; simp [h]), if_neg (by omega), if_pos t2,
      fullPolyh_static hcm hl (usual_faces_proper hcm' hn hl' h1' hs).1.1, ok_bind, e]

/-! ## Meshes -/

theorem endDeg_spec (u : UMesh) {conn connI : List Int} {newPos : Int} {outs : List Cell} (hm : IsMesh (conn.take newPos.toNat) connI outs) :
    ∃ u', u.endDeg conn connI newPos = .ok u' ∧ HoldsCells u' outs ∧ u'.dim = u.dim ∧ u'.nbNodes = u.nbNodes := by
  obtain ⟨ts, t1, t2, t3⟩ := (C51_observers hm).2.2.2.2
  unfold UMesh.endDeg
  rw [t1, ok_bind]
  exact ⟨_, rfl, ⟨⟨_, _, rfl, hm⟩, t2, t3⟩, rfl, rfl⟩

/-- The loop, on the mesh `u`: any function applied to the cells which does not lengthen them -/
theorem convert_spec (u : UMesh) {cells outs : List Cell} (hu : HoldsCells u cells) (hd : 2 ≤ u.dim) (hn : u.nbNodes ≠ none)
    (hf : List.Forall₂ (fun c c' => simplifyCell c = .ok c' ∧ c'.nodes.length ≤ c.nodes.length) cells outs) :
    ∃ u', u.convertDegeneratedCells = .ok u' ∧ HoldsCells u' outs ∧ u'.dim = u.dim ∧ u'.nbNodes = u.nbNodes := by
  obtain ⟨⟨conn, connI, ha, hm⟩, hs, ht⟩ := hu
  obtain ⟨nn, hnn⟩ := Option.ne_none_iff_exists'.mp hn
  have hl := hm.length
  unfold UMesh.convertDegeneratedCells
  rw [hnn, ha]
  dsimp only
  rw [if_neg (by omega)]
  by_cases h0 : connI.length - 1 < 1
  · rw [if_pos h0]
    have hc : cells = [] := List.eq_nil_of_length_eq_zero (by omega)
    subst hc
    cases hf
    exact ⟨u, rfl, ⟨⟨conn, connI, ha, hm⟩, hs, ht⟩, rfl, hnn⟩
  · rw [if_neg h0]
    obtain ⟨s, s1, s2, -⟩ := degLoop_spec hm hf
    obtain ⟨u', e1, e2, e3, e4⟩ := endDeg_spec u s2
    rw [s1, ok_bind]
    exact ⟨u', e1, e2, e3, by rw [e4, hnn]⟩

/-- A cell of dimension 2 without its sides reduced to a point: the other sides stay, in order; a changed cell has the usual type of its
number of nodes, or is a polygon. -/
def Simplified (c c' : Cell) : Prop :=
  edgesOf c'.type c'.nodes = (edgesOf c.type c.nodes).filter (fun e => decide (¬ NullSide e)) ∧ RightSize c' ∧ quadType c'.type = quadType c.type ∧
    (c' ≠ c → c'.type = if quadType c.type then (if c'.nodes.length = 6 then 6 else if c'.nodes.length = 8 then 8 else 32)
        else (if c'.nodes.length = 3 then 3 else if c'.nodes.length = 4 then 4 else 5))

theorem simplified_all {cells : List Cell} (hc : ∀ c ∈ cells, RightSize c ∧ c.nodes.length ≠ 1) :
    ∃ outs, List.Forall₂ (fun c c' => simplifyCell c = .ok c' ∧ c'.nodes.length ≤ c.nodes.length) cells outs ∧ List.Forall₂ Simplified cells outs ∧
      List.Forall₂ (fun c c' => simplifyCell c = .ok c' ∧ (∃ cm, getCellModel c'.type = .ok cm) ∧ c'.nodes.length ≤ c.nodes.length) cells outs := by
  induction cells with
  | nil => exact ⟨[], .nil, .nil, .nil⟩
  | cons c cells ih =>
    obtain ⟨outs, h1, h2, h3⟩ := ih fun c hc' => hc c (by simp [hc'])
    obtain ⟨r1, r2⟩ := hc c (by simp)
    obtain ⟨c', e1, e2, e3, e4, e5, e6⟩ := C105_sides c r1 r2
    obtain ⟨cm, hcm, -⟩ := rightSize_cases e3
    exact ⟨c' :: outs, .cons ⟨e1, e5⟩ h1, .cons ⟨e2, e3, e4, fun h => congrArg Cell.type (e6 h)⟩ h2, .cons ⟨e1, ⟨cm, hcm⟩, e5⟩ h3⟩

/-- **C105.** On a mesh of dimension 2, `convertDegeneratedCells` removes from each cell the sides reduced to a point and keeps the others, in
order; the order of the cells, the number of nodes and the dimension do not change. -/
theorem C105_degenerated_mesh (u : UMesh) {cells : List Cell} (hu : HoldsCells u cells) (hd : u.dim = 2) (hn : u.nbNodes ≠ none)
    (hc : ∀ c ∈ cells, RightSize c ∧ c.nodes.length ≠ 1) :
    ∃ u' outs, u.convertDegeneratedCells = .ok u' ∧ HoldsCells u' outs ∧ List.Forall₂ Simplified cells outs ∧ u'.dim = u.dim ∧
      u'.nbNodes = u.nbNodes := by
  obtain ⟨outs, h1, h2, -⟩ := simplified_all hc
  obtain ⟨u', e1, e2, e3, e4⟩ := convert_spec u hu (by omega) hn h1
  exact ⟨u', outs, e1, e2, h2, e3, e4⟩

/-- **C105.** `convertDegeneratedCellsAndRemoveFlatOnes` also removes the simplified cells without surface: those with at most two nodes, and the
quadratic ones whose two sides have the same middle.  It returns the numbers of the cells removed. -/
theorem C105_flat_cells_removed (u : UMesh) {cells : List Cell} (hu : HoldsCells u cells) (hd : u.dim = 2) (hn : u.nbNodes ≠ none)
    (hc : ∀ c ∈ cells, RightSize c ∧ c.nodes.length ≠ 1) :
    ∃ u' outs, List.Forall₂ Simplified cells outs ∧
      u.convertDegeneratedAndRemoveFlat = .ok (u', (outs.zipIdx.filter fun x => decide (IsThin x.1)).map fun x => (x.2 : Int)) ∧
      HoldsCells u' (outs.filter fun c => !decide (IsThin c)) ∧ u'.dim = u.dim ∧ u'.nbNodes = u.nbNodes := by
  obtain ⟨outs, -, h2, h3⟩ := simplified_all hc
  obtain ⟨⟨conn, connI, ha, hm⟩, hs, ht⟩ := hu
  obtain ⟨nn, hnn⟩ := Option.ne_none_iff_exists'.mp hn
  have hl := hm.length
  unfold UMesh.convertDegeneratedAndRemoveFlat
  rw [hnn, ha]
  dsimp only
  rw [if_neg (by omega)]
  by_cases h0 : connI.length - 1 < 1
  · rw [if_pos h0]
    have hc : cells = [] := List.eq_nil_of_length_eq_zero (by omega)
    subst hc
    cases h2
    exact ⟨u, [], .nil, rfl, ⟨⟨conn, connI, ha, hm⟩, hs, ht⟩, rfl, hnn⟩
  · rw [if_neg h0]
    obtain ⟨s, s1, s2, s3⟩ := flatLoop_spec hm h3
    obtain ⟨u', e1, e2, e3, e4⟩ := endDeg_spec u s2
    refine ⟨u', outs, h2, ?_, e2, e3, by rw [e4, hnn]⟩
    rw [s1, ok_bind, e1, ok_bind, s3]
    rfl

/-- The cells which `unPolyze` is made for: cells of static types, polygons and polyhedra with proper faces -/
def PolyReady (c : Cell) : Prop :=
  (∃ cm, getCellModel c.type = .ok cm ∧ cm.dyn = false) ∨ c.type = 5 ∨ c.type = 32 ∨ ∃ faces, ProperFaces faces ∧ c = ⟨31, joinFaces faces⟩

/-- What becomes of a cell: cells of static types stay; polygons get the usual type of their number of nodes; polyhedra stay or become usual
cells with the same nodes, and those which have the faces of a usual cell become one with these faces. -/
def Unpolyzed (c c' : Cell) : Prop :=
  (∃ cm, getCellModel c.type = .ok cm ∧ cm.dyn = false) ∧ c' = c ∨
  c.type = 5 ∧ c' = ⟨if c.nodes.length = 3 then 3 else if c.nodes.length = 4 then 4 else 5, c.nodes⟩ ∨
  c.type = 32 ∧ c' = ⟨if c.nodes.length = 6 then 6 else if c.nodes.length = 8 then 8 else 32, c.nodes⟩ ∨
  ∃ faces, c = ⟨31, joinFaces faces⟩ ∧
    (c' = c ∨ (∃ cm ∈ usualTypes, c'.type = cm.code ∧ c'.nodes.length = cm.nbPts) ∧ c'.nodes.Nodup ∧ ∀ x, x ∈ c'.nodes ↔ x ∈ faces.flatten) ∧
    ∀ cm ∈ usualTypes, ∀ nodes : List Int, nodes.Nodup → nodes.length = cm.nbPts → -1 ∉ nodes → SameFaces faces (sonsOf cm nodes) →
      c'.type = cm.code ∧ SameFaces (sonsOf cm c'.nodes) faces

theorem unpoly_cell {c : Cell} (hc : PolyReady c) : ∃ c', unPolyCell c = .ok c' ∧ c'.nodes.length ≤ c.nodes.length ∧ Unpolyzed c c' := by
  rcases hc with ⟨cm, h1, h2⟩ | h | h | ⟨faces, hp, rfl⟩
  · refine ⟨c, ?_, le_rfl, Or.inl ⟨⟨cm, h1, h2⟩, rfl⟩⟩
    unfold unPolyCell
    rw [h1, ok_bind, h2]
    rfl
  · obtain ⟨t, ns⟩ := c
    dsimp only at h
    subst h
    exact ⟨_, rfl, le_rfl, Or.inr (Or.inl ⟨rfl, rfl⟩)⟩
  · obtain ⟨t, ns⟩ := c
    dsimp only at h
    subst h
    exact ⟨_, rfl, le_rfl, Or.inr (Or.inr (Or.inl ⟨rfl, rfl⟩))⟩
  · obtain ⟨c', e1, e2, e3⟩ := C105_polyhedron_keeps_nodes hp
    refine ⟨c', e1, e2, Or.inr (Or.inr (Or.inr ⟨faces, rfl, e3, ?_⟩))⟩
    intro cm hcm nodes hn hl hno hf
    obtain ⟨r, g1, g2, -⟩ := C105_usual_cell_recognized hcm hn hl hno hf
    rw [e1] at g1
    cases g1
    exact ⟨rfl, g2⟩

theorem unpolyze_spec (u : UMesh) {cells outs : List Cell} (hu : HoldsCells u cells) (hd : 2 ≤ u.dim) (hn : u.nbNodes ≠ none)
    (h1 : List.Forall₂ (fun c c' => unPolyCell c = .ok c' ∧ c'.nodes.length ≤ c.nodes.length) cells outs) :
    ∃ u' b, u.unPolyze = .ok (u', b) ∧ HoldsCells u' outs ∧
      (b = true ↔ cells.map Cell.type ≠ outs.map Cell.type) ∧ u'.dim = u.dim ∧ u'.nbNodes = u.nbNodes := by
  obtain ⟨⟨conn, connI, ha, hm⟩, hs, ht⟩ := hu
  obtain ⟨nn, hnn⟩ := Option.ne_none_iff_exists'.mp hn
  have hl := hm.length
  unfold UMesh.unPolyze
  rw [hnn, ha]
  dsimp only
  rw [if_neg (by omega), if_neg (by omega)]
  by_cases h0 : connI.length - 1 < 1
  · rw [if_pos h0]
    have hc : cells = [] := List.eq_nil_of_length_eq_zero (by omega)
    subst hc
    cases h1
    exact ⟨u, false, rfl, ⟨⟨conn, connI, ha, hm⟩, hs, ht⟩, by simp, rfl, hnn⟩
  · rw [if_neg h0]
    obtain ⟨s, s1, s2, s3⟩ := degLoop_spec hm h1
    rw [s1, ok_bind]
    by_cases hch : s.chg = true
    · rw [if_pos hch]
      obtain ⟨u', e1, e2, e3, e4⟩ := endDeg_spec u s2
      rw [e1, ok_bind]
      exact ⟨u', true, rfl, e2, by simpa using s3.mp hch, e3, by rw [e4, hnn]⟩
    · rw [if_neg hch]
      have hsame : cells.map Cell.type = outs.map Cell.type := by
        by_contra h
        exact hch (s3.mpr h)
      refine ⟨_, false, rfl, ⟨⟨_, _, rfl, s2⟩, hs, ?_⟩, by simp [hsame], rfl, rfl⟩
      intro t
      dsimp only
      rw [ht t]
      constructor
      · rintro ⟨c, hc1, hc2⟩
        have : t ∈ outs.map Cell.type := by rw [← hsame]; exact List.mem_map.mpr ⟨c, hc1, hc2⟩
        exact List.mem_map.mp this
      · rintro ⟨c, hc1, hc2⟩
        have : t ∈ cells.map Cell.type := by rw [hsame]; exact List.mem_map.mpr ⟨c, hc1, hc2⟩
        exact List.mem_map.mp this

/-- **C105.** `unPolyze` on a mesh of dimension 2 or 3, and what it returns: has a type changed. -/
theorem C105_unpolyzed_mesh (u : UMesh) {cells : List Cell} (hu : HoldsCells u cells) (hd : 2 ≤ u.dim) (hn : u.nbNodes ≠ none)
    (hc : ∀ c ∈ cells, PolyReady c) :
    ∃ u' b outs, u.unPolyze = .ok (u', b) ∧ HoldsCells u' outs ∧ List.Forall₂ Unpolyzed cells outs ∧
      (b = true ↔ cells.map Cell.type ≠ outs.map Cell.type) ∧ u'.dim = u.dim ∧ u'.nbNodes = u.nbNodes := by
  have hall : ∃ outs, List.Forall₂ (fun c c' => unPolyCell c = .ok c' ∧ c'.nodes.length ≤ c.nodes.length) cells outs ∧
      List.Forall₂ Unpolyzed cells outs := by
    clear hu
    induction cells with
    | nil => exact ⟨[], .nil, .nil⟩
    | cons c cells ih =>
      obtain ⟨outs, h1, h2⟩ := ih fun c hc' => hc c (by simp [hc'])
      obtain ⟨c', e1, e2, e3⟩ := unpoly_cell (hc c (by simp))
      exact ⟨c' :: outs, .cons ⟨e1, e2⟩ h1, .cons e3 h2⟩
  obtain ⟨outs, h1, h2⟩ := hall
  obtain ⟨u', b, e1, e2, e3, e4, e5⟩ := unpolyze_spec u hu hd hn h1
  exact ⟨u', b, outs, e1, e2, h2, e3, e4, e5⟩

/-- The faces of a usual cell, in the order of its type -/
theorem usual_in_order : ∀ cm ∈ usualTypes, tryUsual cm.nbPts (typed (cm.sons.map Prod.snd)) = some (cm.code, List.range cm.nbPts) := by
  decide +kernel

/-- A usual cell made a polyhedron of its faces and back is the same cell. -/
theorem unpoly_back {cm : CellModel} (hcm : cm ∈ usualTypes) {nodes : List Int} (hn : nodes.Nodup) (hl : nodes.length = cm.nbPts)
    (h1 : -1 ∉ nodes) : unPolyCell ⟨31, joinFaces (sonsOf cm nodes)⟩ = .ok ⟨cm.code, nodes⟩ := by
  obtain ⟨f, hfi, hfn⟩ := exists_numbering nodes hn
  obtain ⟨t1, t2⟩ := usual_table cm hcm
  have hnodes : (List.range cm.nbPts).map f = nodes := by rw [← hl]; exact map_sons_nodes hfn
  have hsons : sonsOf cm nodes = (cm.sons.map Prod.snd).map (List.map f) := by
    rw [← hnodes, sonsOf_map f cm _ (fun s hs k hk => by simpa using (t1 s hs).2.2 k hk), sonsOf_range cm fun s hs k hk => (t1 s hs).2.2 k hk]
  have hp := usual_faces_proper hcm hn hl h1 (faces := sonsOf cm nodes) (List.Perm.refl _)
  rw [unPolyCell_polyhed hp.1]
  unfold tryToUnPoly3D
  rw [typed_flat, hp.2]
  have hty : typed (sonsOf cm nodes) = mapFaces f (typed (cm.sons.map Prod.snd)) := by
    rw [hsons]
    simp [typed, mapFaces, Function.comp_def]
  rw [hty, tryUsual_map hfi, usual_in_order cm hcm]
  simp only [Option.map_some, hnodes]

/-- **C105.** On a mesh of tetrahedra, pyramids, pentahedra, hexahedra and hexagonal prisms, `convertToPolyTypes` of any cells followed by
`unPolyze` gives the mesh back. -/
theorem C105_round_trip (u : UMesh) {cells : List Cell} (hu : HoldsCells u cells) (hd : u.dim = 3) (hn : u.nbNodes ≠ none)
    (hc : ∀ c ∈ cells, (∃ cm ∈ usualTypes, c.type = cm.code ∧ c.nodes.length = cm.nbPts) ∧ c.nodes.Nodup ∧ -1 ∉ c.nodes)
    (ids : List Int) (hids : ∀ id ∈ ids, 0 ≤ id ∧ id < (cells.length : Int)) :
    ∃ u1 u2 b, u.convertToPolyTypes ids = .ok (u1, true) ∧ u1.unPolyze = .ok (u2, b) ∧ HoldsCells u2 cells ∧ u2.dim = u.dim ∧
      u2.nbNodes = u.nbNodes := by
  have tab : ∀ cm ∈ usualTypes, getCellModel cm.code = .ok cm ∧ cm.dim = 3 ∧ cm.dyn = false := by
    intro cm hcm
    have hc : cm = cm_tetra4 ∨ cm = cm_pyra5 ∨ cm = cm_penta6 ∨ cm = cm_hexa8 ∨ cm = cm_hexgp12 := by simpa [usualTypes] using hcm
    rcases hc with rfl | rfl | rfl | rfl | rfl <;> exact ⟨rfl, rfl, rfl⟩
  have hfaces : ∀ c ∈ cells, ∀ fs, HasFaces c fs → ∃ cm ∈ usualTypes, c = ⟨cm.code, c.nodes⟩ ∧ c.nodes.length = cm.nbPts ∧ fs = sonsOf cm c.nodes := by
    intro c hcm fs hfs
    obtain ⟨⟨cm, m1, m2, m3⟩, -, -⟩ := hc c hcm
    obtain ⟨t1, t2, t3⟩ := tab cm m1
    obtain ⟨-, -, cm', sons, g1, g2, rfl⟩ := hfs
    rw [m2, t1] at g1
    cases g1
    rw [allSons_static t1 t3 (by omega) m3] at g2
    cases g2
    refine ⟨cm, m1, by rw [← m2], m3, ?_⟩
    rw [List.map_map]
    rfl
  obtain ⟨u1, cells', e1, e2, e3, e4, e5⟩ := (C99_cells_as_polyhedra u cells hu hd hn ids).1 hids (by
    intro i c hi _
    obtain ⟨⟨cm, m1, m2, m3⟩, -, -⟩ := hc c (List.mem_of_getElem? hi)
    obtain ⟨t1, t2, t3⟩ := tab cm m1
    exact ⟨_, (C99_cells_with_faces c).1 cm (by rw [m2]; exact t1) t2 t3 m3⟩)
  have hall : List.Forall₂ (fun c c' => unPolyCell c = .ok c' ∧ c'.nodes.length ≤ c.nodes.length) cells' cells := by
    rw [List.forall₂_iff_get]
    refine ⟨e3.1, ?_⟩
    intro i hi hi'
    have hmem : cells[i] ∈ cells := List.getElem_mem hi'
    have := e3.2 i cells[i] cells'[i] (List.getElem?_eq_getElem hi') (List.getElem?_eq_getElem hi)
    simp only [List.get_eq_getElem]
    obtain ⟨⟨cm0, k1, k2, k3⟩, hnd, hno⟩ := hc _ hmem
    split_ifs at this with hid
    · obtain ⟨fs, hfs, hcc⟩ := this
      obtain ⟨cm, m1, m2, m3, rfl⟩ := hfaces _ hmem fs hfs
      rw [hcc]
      refine ⟨?_, ?_⟩
      · conv_rhs => rw [m2]
        exact unpoly_back m1 hnd m3 hno
      · obtain ⟨c', g1, g2, -⟩ := C105_polyhedron_keeps_nodes (usual_faces_proper m1 hnd m3 hno (List.Perm.refl _)).1
        rw [unpoly_back m1 hnd m3 hno] at g1
        cases g1
        exact g2
    · rw [this]
      refine ⟨?_, le_rfl⟩
      unfold unPolyCell
      rw [k2, (tab cm0 k1).1, ok_bind, (tab cm0 k1).2.2]
      rfl
  obtain ⟨u2, b, g1, g2, -, g4, g5⟩ := unpolyze_spec u1 e2 (by omega) (by rw [e5]; exact hn) hall
  exact ⟨u1, u2, b, e1, g1, g2, by rw [g4, e4], by rw [g5, e5]⟩

/-! ## Segments -/

/-- The ends of a segment are different. -/
def EndsDiffer (c : Cell) : Prop := c.nodes[0]? ≠ c.nodes[1]?

instance (c : Cell) : Decidable (EndsDiffer c) := by unfold EndsDiffer; infer_instance

theorem keepsSeg_spec {c : Cell} (h : (c.type = 1 ∨ c.type = 2) ∧ 2 ≤ c.nodes.length) : keepsSeg c = .ok (decide (EndsDiffer c)) := by
  obtain ⟨h1, h2⟩ := h
  unfold keepsSeg
  rw [if_pos h1, show (0 : Int) = ((0 : Nat) : Int) from rfl, rd_natCast (by omega), ok_bind, show (1 : Int) = ((1 : Nat) : Int) from rfl,
    rd_natCast (by omega), ok_bind]
  congr 1
  rw [decide_eq_decide, EndsDiffer, List.getElem?_eq_getElem (by omega), List.getElem?_eq_getElem (by omega)]
  simp

/-- **C105.** `removeDegenerated1DCells` removes the segments whose two ends are the same node, keeps the others in order, and returns true if and
only if a segment has been removed; it throws if a cell is no segment of two or three nodes. -/
theorem C105_segments (u : UMesh) {cells : List Cell} (hu : HoldsCells u cells) :
    (u.dim = 1 → (∀ c ∈ cells, (c.type = 1 ∨ c.type = 2) ∧ 2 ≤ c.nodes.length) →
      ∃ u' b, u.removeDegenerated1DCells = .ok (u', b) ∧ HoldsCells u' (cells.filter fun c => decide (EndsDiffer c)) ∧
        (b = true ↔ ∃ c ∈ cells, ¬ EndsDiffer c) ∧ u'.dim = u.dim ∧ u'.nbNodes = u.nbNodes) ∧
    (u.dim ≠ 1 → u.removeDegenerated1DCells = .error .exn) := by
  obtain ⟨⟨conn, connI, ha, hm⟩, hs, ht⟩ := hu
  have hl := hm.length
  unfold UMesh.removeDegenerated1DCells
  rw [ha]
  dsimp only
  constructor
  · intro hd hc
    rw [if_neg (by omega)]
    have hn : ∀ (l : List Cell) (n : Nat), (∀ c ∈ l, (c.type = 1 ∨ c.type = 2) ∧ 2 ≤ c.nodes.length) →
        l.foldlM (fun n c => do
          let k ← keepsSeg c
          .ok (if k then n + 1 else n) : Nat → Cell → M Nat) n = .ok (n + (l.filter fun c => decide (EndsDiffer c)).length) := by
      intro l
      induction l with
      | nil => intro n _; rfl
      | cons c l ih =>
        intro n h
        rw [List.foldlM_cons, keepsSeg_spec (h c (by simp)), ok_bind, ok_bind, ih _ fun c hc => h c (by simp [hc])]
        by_cases hk : EndsDiffer c
        · rw [List.filter_cons_of_pos (by simpa using hk)]
          simp [hk]
          omega
        · rw [List.filter_cons_of_neg (by simpa using hk)]
          simp [hk]
    have hw : ∀ (l done : List Cell) (s : List Int × List Int), IsMesh s.1 s.2 done →
        (∀ c ∈ l, (c.type = 1 ∨ c.type = 2) ∧ 2 ≤ c.nodes.length) →
        ∃ s', l.foldlM (fun s c => do
          let k ← keepsSeg c
          .ok (if k then (s.1 ++ c.row, s.2 ++ [s.2.getLastD 0 + c.row.length]) else s) : List Int × List Int → Cell → M (List Int × List Int)) s = .ok s' ∧
          IsMesh s'.1 s'.2 (done ++ l.filter fun c => decide (EndsDiffer c)) := by
      intro l
      induction l with
      | nil => intro done s h _; exact ⟨s, rfl, by simpa using h⟩
      | cons c l ih =>
        intro done s h hcs
        rw [List.foldlM_cons, keepsSeg_spec (hcs c (by simp)), ok_bind, ok_bind]
        by_cases hk : EndsDiffer c
        · obtain ⟨s', g1, g2⟩ := ih (done ++ [c]) (s.1 ++ c.row, s.2 ++ [s.2.getLastD 0 + c.row.length])
            (CutSt.push_mesh (s := ⟨s.1, s.2, []⟩) h 0 c) fun c hc => hcs c (by simp [hc])
          refine ⟨s', by simpa [hk] using g1, ?_⟩
          rw [List.filter_cons_of_pos (by simpa using hk)]
          simpa using g2
        · obtain ⟨s', g1, g2⟩ := ih done s h fun c hc => hcs c (by simp [hc])
          refine ⟨s', by simpa [hk] using g1, ?_⟩
          rw [List.filter_cons_of_neg (by simpa using hk)]
          exact g2
    rw [forCells_eq_foldlM hm, hn cells 0 hc, ok_bind, Nat.zero_add]
    have hlen : (cells.filter fun c => decide (EndsDiffer c)).length = connI.length - 1 ↔ ∀ c ∈ cells, EndsDiffer c := by
      rw [show connI.length - 1 = cells.length by omega, List.length_filter_eq_length_iff]
      simp
    by_cases hk : (cells.filter fun c => decide (EndsDiffer c)).length = connI.length - 1
    · rw [if_pos hk]
      have hall := hlen.mp hk
      have hfe : cells.filter (fun c => decide (EndsDiffer c)) = cells := List.filter_eq_self.mpr fun c hc => by simpa using hall c hc
      refine ⟨u, false, rfl, ?_, ?_, rfl, rfl⟩
      · rw [hfe]
        exact ⟨⟨conn, connI, ha, hm⟩, hs, ht⟩
      · constructor
        · intro h; cases h
        · rintro ⟨c, hc1, hc2⟩
          exact absurd (hall c hc1) hc2
    · rw [if_neg hk]
      obtain ⟨s', g1, g2⟩ := hw cells [] ([], [0]) ⟨rfl, rfl⟩ hc
      rw [forCells_eq_foldlM hm, g1, ok_bind]
      obtain ⟨ts, t1, t2, t3⟩ := (C51_observers g2).2.2.2.2
      rw [t1, ok_bind]
      refine ⟨_, true, rfl, ⟨⟨_, _, rfl, g2⟩, t2, t3⟩, ?_, rfl, rfl⟩
      constructor
      · intro _
        by_contra h
        push Not at h
        exact hk (hlen.mpr h)
      · intro _; rfl
  · intro hd
    rw [if_pos hd]
    rfl

/-- **C105.** Meshes of dimension at most 1: the two conversions throw, `unPolyze` does nothing. -/
theorem C105_low_dimensions (u : UMesh) (hd : u.dim ≤ 1) :
    u.convertDegeneratedCells = .error .exn ∧ u.convertDegeneratedAndRemoveFlat = .error .exn ∧
    (0 ≤ u.dim → u.nbNodes ≠ none → u.arrays ≠ none → u.unPolyze = .ok (u, false)) := by
  refine ⟨?_, ?_, ?_⟩
  · unfold UMesh.convertDegeneratedCells
    split
    · rw [if_pos hd]; rfl
    · rfl
  · unfold UMesh.convertDegeneratedAndRemoveFlat
    split
    · rw [if_pos hd]; rfl
    · rfl
  · intro h0 hn ha
    obtain ⟨nn, hnn⟩ := Option.ne_none_iff_exists'.mp hn
    obtain ⟨⟨conn, connI⟩, haa⟩ := Option.ne_none_iff_exists'.mp ha
    unfold UMesh.unPolyze
    rw [hnn, haa]
    dsimp only
    rw [if_neg (by omega), if_pos hd]

end MC
