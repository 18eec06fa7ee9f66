import Verif.CellCutMain
import Verif.UMeshNodes

/-!
# Cells turned into polygons and polyhedra (C99)
-/

namespace MC

/-- Some of the cells changed by `f`, the others left. -/
def changeAt (f : Cell → Cell) (ids : List Int) (cells : List Cell) : List Cell :=
  cells.mapIdx fun i c => if (i : Int) ∈ ids then f c else c

/-- A cell of dimension 2 as a polygon: the nodes stay. -/
def asPolygon (c : Cell) : Cell := ⟨if c.type ∈ ([6, 7, 8, 9, 32] : List Int) then 32 else 5, c.nodes⟩

/-- The types of dimension 2 -/
def IsFlat (c : Cell) : Prop := c.type ∈ ([3, 4, 5, 6, 7, 8, 9, 32] : List Int)

theorem flat_model (c : Cell) (h : IsFlat c) :
    ∃ cm, getCellModel c.type = .ok cm ∧ (if cm.quad then (32 : Int) else 5) = (asPolygon c).type := by
  unfold IsFlat at h
  obtain ⟨t, nodes⟩ := c
  simp only [List.mem_cons, List.not_mem_nil, or_false] at h
  rcases h with rfl | rfl | rfl | rfl | rfl | rfl | rfl | rfl <;> exact ⟨_, rfl, rfl⟩

theorem asPolygon_flat (c : Cell) : IsFlat (asPolygon c) := by
  unfold IsFlat asPolygon
  dsimp only
  split <;> decide

theorem asPolygon_twice (c : Cell) : asPolygon (asPolygon c) = asPolygon c := by
  unfold asPolygon
  dsimp only
  split <;> rfl

theorem changeAt_snoc (f : Cell → Cell) (hf : ∀ c, f (f c) = f c) (ids : List Int) (k : Nat) (cells : List Cell)
    (hk : k < cells.length) :
    (changeAt f ids cells).set k (f ((changeAt f ids cells)[k]'(by simpa [changeAt] using hk))) = changeAt f (ids ++ [(k : Int)]) cells := by
  apply List.ext_getElem?
  intro i
  rw [List.getElem?_set]
  by_cases h : k = i
  · subst h
    rw [if_pos rfl, if_pos (by simpa [changeAt] using hk)]
    simp only [changeAt, List.getElem_mapIdx, List.getElem?_mapIdx, List.getElem?_eq_getElem hk, Option.map_some, List.mem_append,
      List.mem_singleton, or_true, if_true]
    split
    · rw [hf]
    · rfl
  · rw [if_neg h]
    simp only [changeAt, List.getElem?_mapIdx, List.mem_append, List.mem_singleton]
    have : ¬ (i : Int) = (k : Int) := by omega
    simp only [this, or_false]

theorem IsMesh.set_type {conn connI : List Int} {cells : List Cell} (h : IsMesh conn connI cells) {i : Nat} (hi : i < cells.length)
    (t : Int) : ∃ a, rd connI (i : Int) = .ok a ∧ rd conn a = .ok cells[i].type ∧
      ∃ conn', wr conn a t = .ok conn' ∧ IsMesh conn' connI (cells.set i ⟨t, cells[i].nodes⟩) := by
  obtain ⟨a, b, h0, h1, h2, h3, -, h5, -, -, h7, -⟩ := h.get hi
  refine ⟨a, h3, h5, conn.set a.toNat t, ?_, ?_, ?_⟩
  · exact wr_ok h0 (by omega)
  · rw [h.1, h7]
    have e : cells = cells.take i ++ cells[i] :: cells.drop (i + 1) := by
      rw [List.getElem_cons_drop, List.take_append_drop]
    have e2 : cells.set i ⟨t, cells[i].nodes⟩ = cells.take i ++ ⟨t, cells[i].nodes⟩ :: cells.drop (i + 1) := by
      rw [List.set_eq_take_append_cons_drop, if_pos hi]
    have e3 : cells.map Cell.row = (cells.map Cell.row).take i ++ cells[i].row :: (cells.map Cell.row).drop (i + 1) := by
      conv_lhs => rw [e]
      rw [List.map_append, List.map_cons, List.map_take, List.map_drop]
    rw [e2, List.map_append, List.map_cons, List.map_take, List.map_drop, List.flatten_append, List.flatten_cons]
    conv_lhs => rw [e3]
    rw [List.flatten_append, List.flatten_cons]
    simp only [Int.toNat_natCast]
    rw [← e3, List.set_append_right _ _ (by simp)]
    simp [Cell.row]
  · rw [h.2]
    apply skyIdx_congr
    rw [List.map_map, List.map_map, List.map_set]
    apply List.ext_getElem?
    intro j
    rw [List.getElem?_set]
    split
    · rename_i e
      subst e
      rw [if_pos (by simpa using hi), List.getElem?_map, List.getElem?_eq_getElem hi]
      simp [Cell.row]
    · rfl

theorem mem_changeAt {f : Cell → Cell} {ids : List Int} {cells : List Cell} {c : Cell} (h : c ∈ changeAt f ids cells) :
    ∃ d ∈ cells, c = d ∨ c = f d := by
  unfold changeAt at h
  rw [List.mem_mapIdx] at h
  obtain ⟨i, hi, rfl⟩ := h
  refine ⟨cells[i], List.getElem_mem _, ?_⟩
  split
  · exact Or.inr rfl
  · exact Or.inl rfl

theorem polyLoop2_spec {conn connI : List Int} {cells : List Cell} (hf : ∀ c ∈ cells, IsFlat c) (done ids : List Int)
    (h : IsMesh conn connI (changeAt asPolygon done cells)) (hin : ∀ id ∈ ids, 0 ≤ id ∧ id < (cells.length : Int)) (rest : List Int)
    (hrest : rest = [] ∨ ∃ bad tl, rest = bad :: tl ∧ ¬ (0 ≤ bad ∧ bad < (cells.length : Int))) :
    ∃ conn', polyLoop2 connI (ids ++ rest) conn = .ok (conn', decide (rest = [])) ∧
      IsMesh conn' connI (changeAt asPolygon (done ++ ids) cells) := by
  have hl : connI.length = cells.length + 1 := by
    have := h.length
    simpa [changeAt] using this
  induction ids generalizing conn done with
  | nil =>
    rw [List.nil_append, List.append_nil]
    rcases hrest with rfl | ⟨bad, tl, rfl, hbad⟩
    · exact ⟨conn, rfl, h⟩
    · refine ⟨conn, ?_, h⟩
      unfold polyLoop2
      rw [if_neg (by omega)]
      simp
  | cons id ids ih =>
    have hid := hin id (by simp)
    obtain ⟨k, rfl⟩ : ∃ k : Nat, id = k := ⟨id.toNat, by omega⟩
    have hk : k < cells.length := by omega
    have hk' : k < (changeAt asPolygon done cells).length := by simpa [changeAt] using hk
    obtain ⟨a, r1, r2, conn', r3, r4⟩ := h.set_type hk' (asPolygon (changeAt asPolygon done cells)[k]).type
    have hflat : IsFlat (changeAt asPolygon done cells)[k] := by
      obtain ⟨d, hd, e⟩ := mem_changeAt (List.getElem_mem hk')
      rcases e with e | e
      · rw [e]; exact hf d hd
      · rw [e]; exact asPolygon_flat d
    obtain ⟨cm, hcm, hq⟩ := flat_model _ hflat
    rw [List.cons_append]
    unfold polyLoop2
    rw [if_pos (by omega), r1, ok_bind, r2, ok_bind]
    simp only [hcm]
    rw [hq, r3, ok_bind]
    have hset : (changeAt asPolygon done cells).set k ⟨(asPolygon (changeAt asPolygon done cells)[k]).type,
        (changeAt asPolygon done cells)[k].nodes⟩ = changeAt asPolygon (done ++ [(k : Int)]) cells :=
      changeAt_snoc asPolygon asPolygon_twice done k cells hk
    rw [hset] at r4
    have := ih (done ++ [(k : Int)]) r4 (fun id hm => hin id (by simp [hm]))
    rwa [List.append_assoc] at this

theorem changeAt_nil (f : Cell → Cell) (cells : List Cell) : changeAt f [] cells = cells := by
  apply List.ext_getElem?
  intro i
  simp [changeAt]

/-- **C99.** On a mesh of dimension 2, `convertToPolyTypes` turns the cells asked for into polygons (quadratic polygons for
quadratic cells) on the same nodes, and leaves the others.  If a number is not that of a cell, the call throws, and the cells
of the numbers before it are converted. -/
theorem C99_cells_as_polygons (u : UMesh) (cells : List Cell) (hu : HoldsCells u cells) (hd : u.dim = 2) (hn : u.nbNodes ≠ none)
    (hf : ∀ c ∈ cells, IsFlat c) (ids : List Int) :
    ((∀ id ∈ ids, 0 ≤ id ∧ id < (cells.length : Int)) → ∃ u', u.convertToPolyTypes ids = .ok (u', true) ∧
      HoldsCells u' (changeAt asPolygon ids cells) ∧ u'.dim = u.dim ∧ u'.nbNodes = u.nbNodes) ∧
    (∀ good bad rest, ids = good ++ bad :: rest → (∀ id ∈ good, 0 ≤ id ∧ id < (cells.length : Int)) →
      ¬ (0 ≤ bad ∧ bad < (cells.length : Int)) → ∃ u' conn connI, u.convertToPolyTypes ids = .ok (u', false) ∧
        u'.arrays = some (conn, connI) ∧ IsMesh conn connI (changeAt asPolygon good cells) ∧ u'.types = u.types) := by
  obtain ⟨⟨conn, connI, ha, hm⟩, hs, ht⟩ := hu
  obtain ⟨nn, hnn⟩ := Option.ne_none_iff_exists'.mp hn
  have e0 : IsMesh conn connI (changeAt asPolygon [] cells) := by rw [changeAt_nil]; exact hm
  constructor
  · intro hin
    obtain ⟨conn', r1, r2⟩ := polyLoop2_spec hf [] ids e0 hin [] (Or.inl rfl)
    rw [List.append_nil] at r1
    rw [List.nil_append] at r2
    obtain ⟨ts, t1, t2, t3⟩ := (C51_observers r2).2.2.2.2
    unfold UMesh.convertToPolyTypes
    rw [hnn, ha]
    dsimp only
    rw [if_neg (by omega), if_pos hd, r1, ok_bind]
    simp only [decide_true, if_true]
    rw [t1, ok_bind]
    exact ⟨_, rfl, ⟨⟨_, _, rfl, r2⟩, t2, t3⟩, rfl, rfl⟩
  · rintro good bad rest rfl hin hbad
    obtain ⟨conn', r1, r2⟩ := polyLoop2_spec hf [] good e0 hin (bad :: rest) (Or.inr ⟨_, _, rfl, hbad⟩)
    rw [List.nil_append] at r2
    unfold UMesh.convertToPolyTypes
    rw [hnn, ha]
    dsimp only
    rw [if_neg (by omega), if_pos hd, r1, ok_bind]
    exact ⟨_, _, _, rfl, rfl, r2, rfl⟩

/-! ## Polyhedra -/

theorem polyMarks_spec (n : Nat) (ids : List Int) :
    polyMarks n ids = if ∀ id ∈ ids, 0 ≤ id ∧ id < (n : Int) then .ok ((List.range n).map fun (i : Nat) => decide ((i : Int) ∈ ids)) else throwX := by
  have gen : ∀ (ids done : List Int), ids.foldlM (fun toBeDone id => if id ≥ 0 ∧ id < (n : Int) then wr toBeDone id true else throwX)
      ((List.range n).map fun (i : Nat) => decide ((i : Int) ∈ done)) =
      if ∀ id ∈ ids, 0 ≤ id ∧ id < (n : Int) then .ok ((List.range n).map fun (i : Nat) => decide ((i : Int) ∈ done ++ ids)) else throwX := by
    intro ids
    induction ids with
    | nil =>
      intro done
      rw [if_pos (by simp), List.append_nil]
      rfl
    | cons id ids ih =>
      intro done
      rw [List.foldlM_cons]
      by_cases h : 0 ≤ id ∧ id < (n : Int)
      · rw [if_pos (by omega), wr_ok h.1 (by simp; omega), ok_bind]
        have e : ((List.range n).map fun (i : Nat) => decide ((i : Int) ∈ done)).set id.toNat true =
            (List.range n).map fun (i : Nat) => decide ((i : Int) ∈ done ++ [id]) := by
          apply List.ext_getElem?
          intro i
          rw [List.getElem?_set]
          split
          · rename_i e
            subst e
            rw [if_pos (by simp; omega), List.getElem?_map, List.getElem?_range (by omega), Option.map_some]
            simp [h.1]
          · rename_i e
            have : ¬ ((i : Int) = id) := by omega
            by_cases hi : i < n
            · simp [List.getElem?_range hi, this]
            · rw [List.getElem?_eq_none (by simp; omega), List.getElem?_eq_none (by simp; omega)]
        rw [e, ih, List.append_assoc]
        simp only [List.mem_cons, forall_eq_or_imp, h, true_and, List.singleton_append]
      · rw [if_neg (by omega), if_neg (by simp [h])]
        rfl
  have e0 : List.replicate n false = (List.range n).map fun (i : Nat) => decide ((i : Int) ∈ ([] : List Int)) := by
    simp
  unfold polyMarks
  rw [e0, gen]
  simp

theorem flatMap_joinFaces (fs : List (List Int)) (hne : fs ≠ []) :
    (fs.flatMap fun f => f ++ [-1]) = joinFaces fs ++ [-1] := by
  induction fs with
  | nil => exact absurd rfl hne
  | cons f fs ih =>
    cases fs with
    | nil => simp [joinFaces]
    | cons g fs =>
      rw [List.flatMap_cons, ih (by simp)]
      show f ++ [-1] ++ (joinFaces (g :: fs) ++ [-1]) = (f ++ -1 :: joinFaces (g :: fs)) ++ [-1]
      simp

/-- The faces of a cell, all of them with fewer nodes than the cell (this is so for all the cells but a polyhedron with one face). -/
def HasFaces (c : Cell) (fs : List (List Int)) : Prop :=
  fs ≠ [] ∧ (∀ f ∈ fs, f.length < c.nodes.length) ∧ ∃ cm sons, getCellModel c.type = .ok cm ∧ cm.allSons c.nodes = .ok sons ∧
    sons.map Prod.snd = fs

theorem polyRow_spec (c : Cell) (fs : List (List Int)) (h : HasFaces c fs) : polyRow c = .ok (31 :: joinFaces fs) := by
  obtain ⟨hne, hlt, cm, sons, h1, h2, rfl⟩ := h
  have e : (sons.flatMap fun f => f.2 ++ [-1]) = joinFaces (sons.map Prod.snd) ++ [-1] := by
    rw [← flatMap_joinFaces _ hne, List.flatMap_map]
  have hlen : (sons.flatMap fun f => f.2 ++ [-1]).length ≤ sons.length * c.nodes.length := by
    clear * - hlt
    induction sons with
    | nil => simp
    | cons f sons ih =>
      have := ih (fun g hg => hlt g (by simp at hg ⊢; tauto))
      have h1 := hlt f.2 (by simp)
      rw [List.flatMap_cons, List.length_append, List.length_cons, Nat.add_mul]
      simp only [List.length_append, List.length_singleton]
      omega
  unfold polyRow
  rw [h1, ok_bind, h2, ok_bind]
  dsimp only
  rw [if_pos (by rw [List.length_cons]; omega), e, List.length_cons, Nat.add_sub_cancel, List.length_append, List.length_singleton,
    List.take_succ_cons, List.take_left]

/-- Cell by cell, what the cells are after the call. -/
def ChangedTo (ids : List Int) (cells cells' : List Cell) : Prop :=
  cells'.length = cells.length ∧ ∀ (i : Nat) (c c' : Cell), cells[i]? = some c → cells'[i]? = some c' →
    if (i : Int) ∈ ids then ∃ fs, HasFaces c fs ∧ c' = ⟨31, joinFaces fs⟩ else c' = c

theorem polyLoop3_spec {conn connI : List Int} {cells : List Cell} (h : IsMesh conn connI cells) (ids : List Int)
    (hf : ∀ (i : Nat) (c : Cell), cells[i]? = some c → (i : Int) ∈ ids → ∃ fs, HasFaces c fs) :
    ∃ s cells', forCells conn connI ([], [0]) (polyStep3 ((List.range cells.length).map fun (i : Nat) => decide ((i : Int) ∈ ids))) = .ok s ∧
      IsMesh s.1 s.2 cells' ∧ ChangedTo ids cells cells' := by
  have := wp_forCells (E := False) (s := (([], [0]) : List Int × List Int))
    (f := polyStep3 ((List.range cells.length).map fun (i : Nat) => decide ((i : Int) ∈ ids))) h
    (fun i s => ∃ cells', IsMesh s.1 s.2 cells' ∧ ChangedTo ids (cells.take i) cells')
    ⟨[], ⟨rfl, rfl⟩, by simp, by simp⟩ (fun i hi s hI => by
      obtain ⟨cells', h1, h2, h3⟩ := hI
      have htake : cells.take (i + 1) = cells.take i ++ [cells[i]] := List.take_succ_eq_append_getElem hi
      have hlen : (cells.take i).length = i := List.length_take_of_le (by omega)
      have key : ∀ c' : Cell, (if (i : Int) ∈ ids then ∃ fs, HasFaces cells[i] fs ∧ c' = ⟨31, joinFaces fs⟩ else c' = cells[i]) →
          ∃ cells'', IsMesh (s.1 ++ c'.row) (s.2 ++ [s.2.getLastD 0 + c'.row.length]) cells'' ∧ ChangedTo ids (cells.take (i + 1)) cells'' := by
        intro c' hc'
        have := CutSt.push_mesh (s := ⟨s.1, s.2, []⟩) h1 0 c'
        refine ⟨cells' ++ [c'], this, ?_, ?_⟩
        · rw [htake, List.length_append, List.length_append, h2]
          rfl
        · intro j d d' hd hd'
          rw [htake] at hd
          by_cases hj : j < i
          · rw [List.getElem?_append_left (by omega)] at hd hd'
            exact h3 j d d' hd hd'
          · have hj2 : j = i := by
              by_contra hne
              rw [List.getElem?_eq_none (by simp; omega)] at hd
              cases hd
            subst hj2
            rw [List.getElem?_append_right (by omega)] at hd hd'
            rw [hlen, Nat.sub_self] at hd
            rw [h2, hlen, Nat.sub_self] at hd'
            simp only [List.getElem?_cons_zero, Option.some.injEq] at hd hd'
            subst hd hd'
            exact hc'
      unfold polyStep3
      rw [rd_natCast (by simpa using hi), ok_bind]
      simp only [List.getElem_map, List.getElem_range]
      by_cases hm : (i : Int) ∈ ids
      · obtain ⟨fs, hfs⟩ := hf i cells[i] (List.getElem?_eq_getElem hi) hm
        simp only [hm, decide_true, if_true]
        rw [polyRow_spec _ _ hfs, ok_bind]
        exact key ⟨31, joinFaces fs⟩ (by rw [if_pos hm]; exact ⟨fs, hfs, rfl⟩)
      · simp only [hm, decide_false, Bool.false_eq_true, if_false]
        rw [ok_bind]
        exact key cells[i] (by rw [if_neg hm]))
  cases hr : forCells conn connI ([], [0]) (polyStep3 ((List.range cells.length).map fun (i : Nat) => decide ((i : Int) ∈ ids))) with
  | error e => rw [hr] at this; cases e <;> exact this.elim
  | ok s =>
    rw [hr] at this
    obtain ⟨cells', h1, h2⟩ := this
    rw [List.take_length] at h2
    exact ⟨s, cells', rfl, h1, h2⟩

/-- **C99.** On a mesh of dimension 3, `convertToPolyTypes` turns the cells asked for into polyhedra made of their faces, and leaves the
others.  If a number is not that of a cell, the call throws and nothing is changed. -/
theorem C99_cells_as_polyhedra (u : UMesh) (cells : List Cell) (hu : HoldsCells u cells) (hd : u.dim = 3) (hn : u.nbNodes ≠ none)
    (ids : List Int) :
    ((∀ id ∈ ids, 0 ≤ id ∧ id < (cells.length : Int)) →
      (∀ (i : Nat) (c : Cell), cells[i]? = some c → (i : Int) ∈ ids → ∃ fs, HasFaces c fs) →
      ∃ u' cells', u.convertToPolyTypes ids = .ok (u', true) ∧ HoldsCells u' cells' ∧ ChangedTo ids cells cells' ∧ u'.dim = u.dim ∧
        u'.nbNodes = u.nbNodes) ∧
    ((∃ id ∈ ids, ¬ (0 ≤ id ∧ id < (cells.length : Int))) → u.convertToPolyTypes ids = .ok (u, false)) := by
  obtain ⟨⟨conn, connI, ha, hm⟩, hs, ht⟩ := hu
  obtain ⟨nn, hnn⟩ := Option.ne_none_iff_exists'.mp hn
  have hl := hm.length
  constructor
  · intro hin hf
    obtain ⟨s, cells', r1, r2, r3⟩ := polyLoop3_spec hm ids hf
    obtain ⟨ts, t1, t2, t3⟩ := (C51_observers r2).2.2.2.2
    unfold UMesh.convertToPolyTypes
    rw [hnn, ha]
    dsimp only
    rw [if_neg (by omega), if_neg (by omega), hl, Nat.add_sub_cancel, polyMarks_spec,
      if_pos (show ∀ id ∈ ids, 0 ≤ id ∧ id < (cells.length : Int) from hin), ok_bind, r1]
    dsimp only
    rw [t1, ok_bind]
    exact ⟨_, cells', rfl, ⟨⟨_, _, rfl, r2⟩, t2, t3⟩, r3, rfl, rfl⟩
  · rintro ⟨id, hid, hbad⟩
    unfold UMesh.convertToPolyTypes
    rw [hnn, ha]
    dsimp only
    rw [if_neg (by omega), if_neg (by omega), hl, Nat.add_sub_cancel, polyMarks_spec, if_neg (fun h => hbad (h id hid))]
    rfl

/-- **C99.** The cells which have faces: those of the usual types of dimension 3, with their numbers of nodes, and the polyhedra with at least
two faces, which stay as they are. -/
theorem C99_cells_with_faces (c : Cell) :
    (∀ cm, getCellModel c.type = .ok cm → cm.dim = 3 → cm.dyn = false → c.nodes.length = cm.nbPts →
      HasFaces c (cm.sons.map fun s => pick c.nodes s.2)) ∧
    (∀ fs, c = ⟨31, joinFaces fs⟩ → 2 ≤ fs.length → (∀ f ∈ fs, -1 ∉ f) → HasFaces c fs) := by
  constructor
  · intro cm hcm hd hdyn hl
    have tab : ∀ cm ∈ cellModels, cm.dyn = false → cm.dim = 3 → cm.sons ≠ [] ∧ ∀ s ∈ cm.sons, s.2.length < cm.nbPts := by decide
    obtain ⟨t1, t2⟩ := tab cm (getCellModel_mem hcm).1 hdyn hd
    refine ⟨by simpa using t1, ?_, cm, _, hcm, allSons_static hcm hdyn (by omega) hl, ?_⟩
    · intro f hf
      simp only [List.mem_map] at hf
      obtain ⟨s, hs, rfl⟩ := hf
      rw [hl]
      simpa [pick] using t2 s hs
    · rw [List.map_map]
      rfl
  · rintro fs rfl h2 hno
    have hne : fs ≠ [] := by rintro rfl; simp at h2
    refine ⟨hne, ?_, cm_polyhed, _, rfl, C47_polyhedron_sons fs hne hno, by rw [List.map_map]; simp [Function.comp_def]⟩
    intro f hf
    dsimp only
    clear hno hne
    have lenJ : ∀ fs : List (List Int), ∀ f ∈ fs, f.length + (fs.length - 1) ≤ (joinFaces fs).length := by
      intro fs
      induction fs with
      | nil => simp
      | cons g gs ih =>
        cases gs with
        | nil => intro f hf; simp at hf; subst hf; simp [joinFaces]
        | cons h hs =>
          intro f hf
          have e : (joinFaces (g :: h :: hs)).length = g.length + ((joinFaces (h :: hs)).length + 1) := by
            show (g ++ -1 :: joinFaces (h :: hs)).length = _
            simp
          rw [e]
          rcases List.mem_cons.mp hf with rfl | hf
          · have := ih h (by simp)
            simp at this ⊢
            omega
          · have := ih f hf
            simp at this ⊢
            omega
    have := lenJ fs f hf
    omega

end MC
