import Verif.MeasureGeo

/-!
# C98: cells and the polyhedra made by their faces
-/

namespace MC

section
variable {K : Type} [Field K] [CharZero K]

theorem polyVol_tetra (a0 a1 a2 a3 : Nat → K) :
    polyVol [[a0, a1, a2], [a0, a3, a1], [a1, a3, a2], [a2, a3, a0]] =
      volTetra a0 a1 a2 a3 := by
  simp only [polyVol, faceTerm_eq, cycPairs, List.map_cons, List.map_nil, List.tail_cons, List.take_succ_cons, List.take_zero,
    List.cons_append, List.nil_append, List.zip_cons_cons, List.zip_nil_left, List.sum_cons, List.sum_nil, ptRk,
    List.getD_cons_zero, trip, volTetra]
  ring

theorem polyVol_pyra (a0 a1 a2 a3 a4 : Nat → K) :
    polyVol [[a0, a1, a2, a3], [a0, a4, a1], [a1, a4, a2], [a2, a4, a3], [a3, a4, a0]] =
      volPyra a0 a1 a2 a3 a4 := by
  simp only [polyVol, faceTerm_eq, cycPairs, List.map_cons, List.map_nil, List.tail_cons, List.take_succ_cons, List.take_zero,
    List.cons_append, List.nil_append, List.zip_cons_cons, List.zip_nil_left, List.sum_cons, List.sum_nil, ptRk,
    List.getD_cons_zero, volPyra_eq, trip, volTetra]
  ring

theorem polyVol_penta (a0 a1 a2 a3 a4 a5 : Nat → K) :
    polyVol [[a0, a1, a2], [a3, a5, a4], [a0, a3, a4, a1], [a1, a4, a5, a2], [a2, a5, a3, a0]] =
      volPenta a0 a1 a2 a3 a4 a5 +
        ((1/2) * volTetra a0 a3 a4 a1 + (1/2) * volTetra a1 a4 a5 a2 + (1/2) * volTetra a2 a5 a3 a0) := by
  simp only [polyVol, faceTerm_eq, cycPairs, List.map_cons, List.map_nil, List.tail_cons, List.take_succ_cons, List.take_zero,
    List.cons_append, List.nil_append, List.zip_cons_cons, List.zip_nil_left, List.sum_cons, List.sum_nil, ptRk,
    List.getD_cons_zero, volPenta_eq, trip, volTetra]
  ring

theorem polyVol_penta_cut (a0 a1 a2 a3 a4 a5 : Nat → K) :
    polyVol [[a0, a1, a2], [a3, a5, a4], [a0, a3, a4], [a0, a4, a1], [a1, a4, a5], [a1, a5, a2], [a2, a5, a3], [a2, a3, a0]] +
        polyVol [[a0, a1, a2], [a3, a5, a4], [a0, a3, a1], [a3, a4, a1], [a1, a4, a2], [a4, a5, a2], [a2, a5, a0], [a5, a3, a0]] =
      2 * volPenta a0 a1 a2 a3 a4 a5 := by
  simp only [polyVol, faceTerm_eq, cycPairs, List.map_cons, List.map_nil, List.tail_cons, List.take_succ_cons, List.take_zero,
    List.cons_append, List.nil_append, List.zip_cons_cons, List.zip_nil_left, List.sum_cons, List.sum_nil, ptRk,
    List.getD_cons_zero, volPenta_eq, trip, volTetra]
  ring

theorem polyVol_hexa (a0 a1 a2 a3 a4 a5 a6 a7 : Nat → K) :
    polyVol [[a0, a1, a2, a3], [a4, a7, a6, a5], [a0, a4, a5, a1], [a1, a5, a6, a2], [a2, a6, a7, a3], [a3, a7, a4, a0]] =
      volHexa a0 a1 a2 a3 a4 a5 a6 a7 +
        ((1/2) * volTetra a0 a1 a2 a3 + (1/2) * volTetra a4 a7 a6 a5 + (1/2) * volTetra a0 a4 a5 a1 + (1/2) * volTetra a1 a5 a6 a2 + (1/2) * volTetra a2 a6 a7 a3 + (1/2) * volTetra a3 a7 a4 a0) := by
  simp only [polyVol, faceTerm_eq, cycPairs, List.map_cons, List.map_nil, List.tail_cons, List.take_succ_cons, List.take_zero,
    List.cons_append, List.nil_append, List.zip_cons_cons, List.zip_nil_left, List.sum_cons, List.sum_nil, ptRk,
    List.getD_cons_zero, volHexa_eq, trip, volTetra]
  ring

theorem polyVol_hexa_cut (a0 a1 a2 a3 a4 a5 a6 a7 : Nat → K) :
    polyVol [[a0, a1, a2], [a0, a2, a3], [a4, a7, a6], [a4, a6, a5], [a0, a4, a5], [a0, a5, a1], [a1, a5, a6], [a1, a6, a2], [a2, a6, a7], [a2, a7, a3], [a3, a7, a4], [a3, a4, a0]] +
        polyVol [[a0, a1, a3], [a1, a2, a3], [a4, a7, a5], [a7, a6, a5], [a0, a4, a1], [a4, a5, a1], [a1, a5, a2], [a5, a6, a2], [a2, a6, a3], [a6, a7, a3], [a3, a7, a0], [a7, a4, a0]] =
      2 * volHexa a0 a1 a2 a3 a4 a5 a6 a7 := by
  simp only [polyVol, faceTerm_eq, cycPairs, List.map_cons, List.map_nil, List.tail_cons, List.take_succ_cons, List.take_zero,
    List.cons_append, List.nil_append, List.zip_cons_cons, List.zip_nil_left, List.sum_cons, List.sum_nil, ptRk,
    List.getD_cons_zero, volHexa_eq, trip, volTetra]
  ring

omit [CharZero K] in
theorem tetra_zero (arcs : Arcs K) (s : K → K) (coords : List (List K)) (a b c d : Int)
    (h : cellMeasure arcs s 3 coords 14 [a, b, c, d] = .ok 0) :
    volTetra (ptNode coords a) (ptNode coords b) (ptNode coords c) (ptNode coords d) = 0 := by
  rw [meas_tetra _ _ _ _ _ (by decide), nodePts_char] at h
  split at h
  · simpa [ok_bind, ptRk] using h
  · cases h

omit [CharZero K] in
theorem valid_of_ok {coords : List (List K)} {nodes : List Int} {n : Nat} {g : List (Nat → K) → K} {v : K}
    (hn : n = nodes.length) (h : (do
      let ps ← nodePts coords nodes n
      .ok (g ps) : M K) = .ok v) : ValidNodes coords nodes ∧ g (nodes.map (ptNode coords)) = v := by
  subst hn
  rw [nodePts_all] at h
  split at h
  · exact ⟨by assumption, by simpa [ok_bind] using h⟩
  · cases h

omit [CharZero K] in
theorem polyh_of_valid (arcs : Arcs K) (s : K → K) (coords : List (List K)) (fs : List (List Int)) (hne : fs ≠ [])
    (hf : ∀ f ∈ fs, f ≠ [] ∧ ValidNodes coords f) :
    cellMeasure arcs s 3 coords 31 (joinFaces fs) = .ok (polyVol (fs.map (List.map (ptNode coords)))) := by
  rw [meas_polyh, volPolyh_join, if_pos (show ∀ f ∈ fs, ∀ c ∈ f, 0 ≤ c ∧ c < (coords.length : Int) from fun f hm => (hf f hm).2)]
  · intro f hm
    refine ⟨(hf f hm).1, fun n hn => ?_⟩
    have := ((hf f hm).2 n hn).1
    omega
  · exact hne

omit [CharZero K] in
theorem polyh_ok_iff (arcs : Arcs K) (s : K → K) (coords : List (List K)) (fs : List (List Int)) (hne : fs ≠ [])
    (hg : GoodFaces fs) (v : K) :
    cellMeasure arcs s 3 coords 31 (joinFaces fs) = .ok v ↔
      (∀ f ∈ fs, ValidNodes coords f) ∧ polyVol (fs.map (List.map (ptNode coords))) = v := by
  rw [meas_polyh, volPolyh_join _ _ hg hne]
  constructor
  · intro h
    split at h
    · exact ⟨by assumption, by simpa using h⟩
    · cases h
  · rintro ⟨h1, h2⟩
    rw [if_pos (show ∀ f ∈ fs, ∀ c ∈ f, 0 ≤ c ∧ c < (coords.length : Int) from h1), h2]

omit [CharZero K] in
theorem valid_faces {coords : List (List K)} {nodes : List Int} {sons : List (Int × List Nat)}
    (hs : ∀ s ∈ sons, s.2 ≠ [] ∧ ∀ k ∈ s.2, k < nodes.length) (hv : ValidNodes coords nodes) :
    ∀ f ∈ sons.map (fun s => pick nodes s.2), f ≠ [] ∧ ValidNodes coords f := by
  intro f hf
  simp only [List.mem_map] at hf
  obtain ⟨s, hm, rfl⟩ := hf
  refine ⟨by simpa [pick] using (hs s hm).1, fun n hn => ?_⟩
  simp only [pick, List.mem_map] at hn
  obtain ⟨k, hk, rfl⟩ := hn
  have := (hs s hm).2 k hk
  rw [getElem!_pos nodes k this]
  exact hv _ (List.getElem_mem _)

/-- **C98.** A cell of the space has the volume of the polyhedron made by its faces.  For prisms and hexahedra the faces have
to be plane (the tetrahedron on the four nodes of a face has no volume). -/
theorem C98_cell_and_its_faces (arcs : Arcs K) (s : K → K) (coords : List (List K)) (t : Int) (nodes : List Int)
    (ht : t = 14 ∨ t = 15 ∨ t = 16 ∨ t = 18 ∨ t = 22) (cm : CellModel) (hcm : getCellModel t = .ok cm)
    (hl : nodes.length = cm.nbPts) (sons : List (Int × List Int)) (hs : cm.allSons nodes = .ok sons)
    (hflat : t = 16 ∨ t = 18 → ∀ f ∈ sons, f.2.length = 4 → cellMeasure arcs s 3 coords 14 f.2 = .ok 0) (v : K)
    (hv : cellMeasure arcs s 3 coords t nodes = .ok v) :
    cellMeasure arcs s 3 coords 31 (joinFaces (sons.map Prod.snd)) = .ok v := by
  rcases ht with rfl | rfl | rfl | rfl | rfl
  · have : cm = cm_tetra4 := by
      have : getCellModel 14 = .ok cm_tetra4 := rfl
      rw [this] at hcm; injection hcm with h; exact h.symm
    subst this
    rw [allSons_static hcm rfl (by decide) hl] at hs
    injection hs with hs
    subst hs
    rw [meas_tetra _ _ _ _ _ (by decide)] at hv
    obtain ⟨h1, h2⟩ := valid_of_ok (g := fun ps => volTetra (ptRk ps 0) (ptRk ps 1) (ptRk ps 2) (ptRk ps 3)) hl.symm hv
    have e : (List.map Prod.snd (cm_tetra4.sons.map fun s => (s.1, pick nodes s.2))) = cm_tetra4.sons.map fun s => pick nodes s.2 := by
      rw [List.map_map]; rfl
    rw [e, polyh_of_valid _ _ _ _ (by simp [cm_tetra4]) (valid_faces (by rw [hl]; decide) h1), ← h2]
    rcases nodes with _ | ⟨a0, _ | ⟨a1, _ | ⟨a2, _ | ⟨a3, _ | ⟨z, nodes⟩⟩⟩⟩⟩ <;> simp [cm_tetra4] at hl
    exact congrArg Except.ok (polyVol_tetra _ _ _ _)
  · have : cm = cm_pyra5 := by
      have : getCellModel 15 = .ok cm_pyra5 := rfl
      rw [this] at hcm; injection hcm with h; exact h.symm
    subst this
    rw [allSons_static hcm rfl (by decide) hl] at hs
    injection hs with hs
    subst hs
    rw [meas_pyra _ _ _ _ _ (by decide)] at hv
    obtain ⟨h1, h2⟩ := valid_of_ok (g := fun ps => volPyra (ptRk ps 0) (ptRk ps 1) (ptRk ps 2) (ptRk ps 3) (ptRk ps 4))
      hl.symm hv
    have e : (List.map Prod.snd (cm_pyra5.sons.map fun s => (s.1, pick nodes s.2))) = cm_pyra5.sons.map fun s => pick nodes s.2 := by
      rw [List.map_map]; rfl
    rw [e, polyh_of_valid _ _ _ _ (by simp [cm_pyra5]) (valid_faces (by rw [hl]; decide) h1), ← h2]
    rcases nodes with _ | ⟨a0, _ | ⟨a1, _ | ⟨a2, _ | ⟨a3, _ | ⟨a4, _ | ⟨z, nodes⟩⟩⟩⟩⟩⟩ <;> simp [cm_pyra5] at hl
    exact congrArg Except.ok (polyVol_pyra _ _ _ _ _)
  · have : cm = cm_penta6 := by
      have : getCellModel 16 = .ok cm_penta6 := rfl
      rw [this] at hcm; injection hcm with h; exact h.symm
    subst this
    rw [allSons_static hcm rfl (by decide) hl] at hs
    injection hs with hs
    subst hs
    rw [meas_penta _ _ _ _ _ (by decide)] at hv
    obtain ⟨h1, h2⟩ := valid_of_ok (g := fun ps => volPenta (ptRk ps 0) (ptRk ps 1) (ptRk ps 2) (ptRk ps 3) (ptRk ps 4)
      (ptRk ps 5)) hl.symm hv
    have e : (List.map Prod.snd (cm_penta6.sons.map fun s => (s.1, pick nodes s.2))) = cm_penta6.sons.map fun s => pick nodes s.2 := by
      rw [List.map_map]; rfl
    rw [e, polyh_of_valid _ _ _ _ (by simp [cm_penta6]) (valid_faces (by rw [hl]; decide) h1), ← h2]
    rcases nodes with _ | ⟨a0, _ | ⟨a1, _ | ⟨a2, _ | ⟨a3, _ | ⟨a4, _ | ⟨a5, _ | ⟨z, nodes⟩⟩⟩⟩⟩⟩⟩ <;> simp [cm_penta6] at hl
    have hz := hflat (Or.inl rfl)
    have z2 := tetra_zero arcs s coords a0 a3 a4 a1 (hz (4, [a0, a3, a4, a1]) (by simp [cm_penta6, pick]) rfl)
    have z3 := tetra_zero arcs s coords a1 a4 a5 a2 (hz (4, [a1, a4, a5, a2]) (by simp [cm_penta6, pick]) rfl)
    have z4 := tetra_zero arcs s coords a2 a5 a3 a0 (hz (4, [a2, a5, a3, a0]) (by simp [cm_penta6, pick]) rfl)
    have h3 := polyVol_penta (ptNode coords a0) (ptNode coords a1) (ptNode coords a2) (ptNode coords a3) (ptNode coords a4)
      (ptNode coords a5)
    rw [z2, z3, z4] at h3
    refine congrArg Except.ok (Eq.trans h3 ?_)
    simp only [mul_zero, add_zero]
    rfl
  · have : cm = cm_hexa8 := by
      have : getCellModel 18 = .ok cm_hexa8 := rfl
      rw [this] at hcm; injection hcm with h; exact h.symm
    subst this
    rw [allSons_static hcm rfl (by decide) hl] at hs
    injection hs with hs
    subst hs
    rw [meas_hexa _ _ _ _ _ (by decide)] at hv
    obtain ⟨h1, h2⟩ := valid_of_ok (g := fun ps => volHexa (ptRk ps 0) (ptRk ps 1) (ptRk ps 2) (ptRk ps 3) (ptRk ps 4)
      (ptRk ps 5) (ptRk ps 6) (ptRk ps 7)) hl.symm hv
    have e : (List.map Prod.snd (cm_hexa8.sons.map fun s => (s.1, pick nodes s.2))) = cm_hexa8.sons.map fun s => pick nodes s.2 := by
      rw [List.map_map]; rfl
    rw [e, polyh_of_valid _ _ _ _ (by simp [cm_hexa8]) (valid_faces (by rw [hl]; decide) h1), ← h2]
    rcases nodes with _ | ⟨a0, _ | ⟨a1, _ | ⟨a2, _ | ⟨a3, _ | ⟨a4, _ | ⟨a5, _ | ⟨a6, _ | ⟨a7, _ | ⟨z, nodes⟩⟩⟩⟩⟩⟩⟩⟩⟩ <;> simp [cm_hexa8] at hl
    have hz := hflat (Or.inr rfl)
    have z0 := tetra_zero arcs s coords a0 a1 a2 a3 (hz (4, [a0, a1, a2, a3]) (by simp [cm_hexa8, pick]) rfl)
    have z1 := tetra_zero arcs s coords a4 a7 a6 a5 (hz (4, [a4, a7, a6, a5]) (by simp [cm_hexa8, pick]) rfl)
    have z2 := tetra_zero arcs s coords a0 a4 a5 a1 (hz (4, [a0, a4, a5, a1]) (by simp [cm_hexa8, pick]) rfl)
    have z3 := tetra_zero arcs s coords a1 a5 a6 a2 (hz (4, [a1, a5, a6, a2]) (by simp [cm_hexa8, pick]) rfl)
    have z4 := tetra_zero arcs s coords a2 a6 a7 a3 (hz (4, [a2, a6, a7, a3]) (by simp [cm_hexa8, pick]) rfl)
    have z5 := tetra_zero arcs s coords a3 a7 a4 a0 (hz (4, [a3, a7, a4, a0]) (by simp [cm_hexa8, pick]) rfl)
    have h3 := polyVol_hexa (ptNode coords a0) (ptNode coords a1) (ptNode coords a2) (ptNode coords a3) (ptNode coords a4)
      (ptNode coords a5) (ptNode coords a6) (ptNode coords a7)
    rw [z0, z1, z2, z3, z4, z5] at h3
    refine congrArg Except.ok (Eq.trans h3 ?_)
    simp only [mul_zero, add_zero]
    rfl
  · have : cm = cm_hexgp12 := by
      have : getCellModel 22 = .ok cm_hexgp12 := rfl
      rw [this] at hcm; injection hcm with h; exact h.symm
    subst this
    rw [allSons_static hcm rfl (by decide) hl] at hs
    injection hs with hs
    subst hs
    have hl' : nodes.length = 12 := hl
    rw [meas_hexgp, hexgp12Conn_ok, if_pos (by omega), ok_bind, ← meas_polyh arcs s] at hv
    rw [← hv, List.map_map]
    congr 2
    refine List.map_congr_left fun x hx => ?_
    refine List.map_congr_left fun k hk => ?_
    have : ∀ x ∈ cm_hexgp12.sons, ∀ k ∈ x.2, k < 12 := by decide
    have hk' := this x hx k hk
    rw [getElem!_pos nodes k (by omega), getD_of_lt _ (by omega)]

/-- A quadrangle cut along its first diagonal, and along the other one -/
def cutFirst (f : List Int) : List (List Int) :=
  match f with
  | [a, b, c, d] => [[a, b, c], [a, c, d]]
  | f => [f]

def cutSecond (f : List Int) : List (List Int) :=
  match f with
  | [a, b, c, d] => [[a, b, d], [b, c, d]]
  | f => [f]

/-- **C98.** The volume of a prism or hexahedron whose faces are not plane is the mean of the volumes of the two polyhedra made by
its faces cut in triangles along one diagonal or the other. -/
theorem C98_warped_cells (arcs : Arcs K) (s : K → K) (coords : List (List K)) (t : Int) (nodes : List Int)
    (ht : t = 16 ∨ t = 18) (cm : CellModel) (hcm : getCellModel t = .ok cm) (hl : nodes.length = cm.nbPts)
    (sons : List (Int × List Int)) (hs : cm.allSons nodes = .ok sons) (v : K)
    (hv : cellMeasure arcs s 3 coords t nodes = .ok v) :
    ∃ v1 v2, cellMeasure arcs s 3 coords 31 (joinFaces (sons.flatMap fun f => cutFirst f.2)) = .ok v1 ∧
      cellMeasure arcs s 3 coords 31 (joinFaces (sons.flatMap fun f => cutSecond f.2)) = .ok v2 ∧ v = (v1 + v2) / 2 := by
  rcases ht with rfl | rfl
  · have : cm = cm_penta6 := by
      have : getCellModel 16 = .ok cm_penta6 := rfl
      rw [this] at hcm; injection hcm with h; exact h.symm
    subst this
    rw [allSons_static hcm rfl (by decide) hl] at hs
    injection hs with hs
    subst hs
    rw [meas_penta _ _ _ _ _ (by decide)] at hv
    obtain ⟨h1, h2⟩ := valid_of_ok (g := fun ps => volPenta (ptRk ps 0) (ptRk ps 1) (ptRk ps 2) (ptRk ps 3) (ptRk ps 4)
      (ptRk ps 5)) hl.symm hv
    rcases nodes with _ | ⟨a0, _ | ⟨a1, _ | ⟨a2, _ | ⟨a3, _ | ⟨a4, _ | ⟨a5, _ | ⟨z, nodes⟩⟩⟩⟩⟩⟩⟩ <;> simp [cm_penta6] at hl
    have hvf : ∀ fs : List (List Int), (∀ f ∈ fs, f ≠ [] ∧ ∀ n ∈ f, n ∈ [a0, a1, a2, a3, a4, a5]) →
        ∀ f ∈ fs, f ≠ [] ∧ ValidNodes coords f := fun fs h f hf => ⟨(h f hf).1, fun n hn => h1 n ((h f hf).2 n hn)⟩
    refine ⟨_, _, polyh_of_valid _ _ _ _ ?_ (hvf _ ?_), polyh_of_valid _ _ _ _ ?_ (hvf _ ?_), ?_⟩
    · simp [cm_penta6, pick, cutFirst]
    · simp [cm_penta6, pick, cutFirst]
    · simp [cm_penta6, pick, cutSecond]
    · simp [cm_penta6, pick, cutSecond]
    · have h3 := polyVol_penta_cut (ptNode coords a0) (ptNode coords a1) (ptNode coords a2) (ptNode coords a3)
        (ptNode coords a4) (ptNode coords a5)
      rw [← h2]
      refine Eq.symm (Eq.trans (congrArg (· / 2) h3) ?_)
      rw [mul_div_cancel_left₀ _ (by norm_num)]
      rfl
  · have : cm = cm_hexa8 := by
      have : getCellModel 18 = .ok cm_hexa8 := rfl
      rw [this] at hcm; injection hcm with h; exact h.symm
    subst this
    rw [allSons_static hcm rfl (by decide) hl] at hs
    injection hs with hs
    subst hs
    rw [meas_hexa _ _ _ _ _ (by decide)] at hv
    obtain ⟨h1, h2⟩ := valid_of_ok (g := fun ps => volHexa (ptRk ps 0) (ptRk ps 1) (ptRk ps 2) (ptRk ps 3) (ptRk ps 4)
      (ptRk ps 5) (ptRk ps 6) (ptRk ps 7)) hl.symm hv
    rcases nodes with _ | ⟨a0, _ | ⟨a1, _ | ⟨a2, _ | ⟨a3, _ | ⟨a4, _ | ⟨a5, _ | ⟨a6, _ | ⟨a7, _ | ⟨z, nodes⟩⟩⟩⟩⟩⟩⟩⟩⟩ <;> simp [cm_hexa8] at hl
    have hvf : ∀ fs : List (List Int), (∀ f ∈ fs, f ≠ [] ∧ ∀ n ∈ f, n ∈ [a0, a1, a2, a3, a4, a5, a6, a7]) →
        ∀ f ∈ fs, f ≠ [] ∧ ValidNodes coords f := fun fs h f hf => ⟨(h f hf).1, fun n hn => h1 n ((h f hf).2 n hn)⟩
    refine ⟨_, _, polyh_of_valid _ _ _ _ ?_ (hvf _ ?_), polyh_of_valid _ _ _ _ ?_ (hvf _ ?_), ?_⟩
    · simp [cm_hexa8, pick, cutFirst]
    · simp [cm_hexa8, pick, cutFirst]
    · simp [cm_hexa8, pick, cutSecond]
    · simp [cm_hexa8, pick, cutSecond]
    · have h3 := polyVol_hexa_cut (ptNode coords a0) (ptNode coords a1) (ptNode coords a2) (ptNode coords a3)
        (ptNode coords a4) (ptNode coords a5) (ptNode coords a6) (ptNode coords a7)
      rw [← h2]
      refine Eq.symm (Eq.trans (congrArg (· / 2) h3) ?_)
      rw [mul_div_cancel_left₀ _ (by norm_num)]
      rfl

/-! ## Polyhedra glued along a face -/

omit [CharZero K] in
/-- **C98.** The volume of a polyhedron does not depend on the order of its faces. -/
theorem C98_faces_in_any_order (arcs : Arcs K) (s : K → K) (coords : List (List K)) (fs gs : List (List Int))
    (hne : fs ≠ []) (hg : GoodFaces fs) (hp : fs.Perm gs) :
    cellMeasure arcs s 3 coords 31 (joinFaces gs) = cellMeasure arcs s 3 coords 31 (joinFaces fs) := by
  have hne' : gs ≠ [] := fun h => hne (by subst h; exact hp.eq_nil)
  have hg' : GoodFaces gs := fun f hf => hg f (hp.mem_iff.mpr hf)
  rw [meas_polyh, meas_polyh, volPolyh_join _ _ hg' hne', volPolyh_join _ _ hg hne]
  have e : polyVol (gs.map (List.map (ptNode coords))) = polyVol (fs.map (List.map (ptNode coords))) := by
    unfold polyVol
    rw [List.map_map, List.map_map, sum_map_perm _ hp]
  rw [e]
  congr 1
  simp only [hp.mem_iff]

omit [CharZero K] in
/-- Sum of `trip` from a point which is in the plane of the face -/
theorem faceTerm_base (ps : List (Nat → K)) (hK : (6 : K) ≠ 0)
    (hflat : ∀ a ∈ ps, ∀ b ∈ ps, ∀ c ∈ ps, ∀ d ∈ ps, volTetra a b c d = 0) (q : Nat → K) (hq : q ∈ ps) :
    ((cycPairs ps).map fun x => trip q x.1 x.2).sum = faceTerm ps := by
  rw [faceTerm_eq]
  have hp0 : ptRk ps 0 ∈ ps := by
    cases ps with
    | nil => cases hq
    | cons a l => simp [ptRk]
  set p := ptRk ps 0
  have h6 : ∀ a b c d : Nat → K, 6 * volTetra a b c d = -(trip b c d) + trip a c d - trip a b d + trip a b c := by
    intro a b c d
    simp only [volTetra, trip]
    field_simp
    ring
  have key : ∀ x ∈ cycPairs ps, trip q x.1 x.2 = trip p x.1 x.2 + (trip p q x.1 - trip p q x.2) := by
    intro x hx
    have hx1 : x.1 ∈ ps := (List.of_mem_zip hx).1
    have hx2 : x.2 ∈ ps := by
      have := (List.of_mem_zip hx).2
      rcases List.mem_append.mp this with h | h
      · exact List.mem_of_mem_tail h
      · exact List.mem_of_mem_take h
    have := h6 p q x.1 x.2
    rw [hflat p hp0 q hq _ hx1 _ hx2] at this
    linear_combination this
  rw [List.map_congr_left key, sum_cyc_diff (fun y => trip p q y) (fun x => trip p x.1 x.2)]

/-- **C98.** Volumes add: when two polyhedra have a plane face in common, seen from one side by the first one and from the other
side by the second one (same nodes, in the reverse order and from any node), the polyhedron made by their other faces has the sum of the two volumes. -/
theorem C98_volumes_add (arcs : Arcs K) (s : K → K) (coords : List (List K)) (f : List Int) (k : Nat)
    (fs gs : List (List Int)) (hne : fs ++ gs ≠ []) (hf : GoodFaces (f :: fs)) (hg : GoodFaces gs)
    (hflat : ∀ a ∈ f, ∀ b ∈ f, ∀ c ∈ f, ∀ d ∈ f, cellMeasure arcs s 3 coords 14 [a, b, c, d] = .ok 0) (v w : K)
    (hv : cellMeasure arcs s 3 coords 31 (joinFaces (f :: fs)) = .ok v)
    (hw : cellMeasure arcs s 3 coords 31 (joinFaces (f.reverse.rotate k :: gs)) = .ok w) :
    cellMeasure arcs s 3 coords 31 (joinFaces (fs ++ gs)) = .ok (v + w) := by
  have hf0 := hf f (by simp)
  have hg' : GoodFaces (f.reverse.rotate k :: gs) := by
    intro x hx
    rcases List.mem_cons.mp hx with rfl | hx
    · refine ⟨by simpa using hf0.1, fun n hn => hf0.2 n (by simpa using hn)⟩
    · exact hg x hx
  rw [polyh_ok_iff arcs s coords _ (by simp) hf] at hv
  rw [polyh_ok_iff arcs s coords _ (by simp) hg'] at hw
  have hfg : GoodFaces (fs ++ gs) := by
    intro x hx
    rcases List.mem_append.mp hx with hx | hx
    · exact hf x (by simp [hx])
    · exact hg x hx
  rw [polyh_ok_iff arcs s coords _ hne hfg]
  refine ⟨?_, ?_⟩
  · intro x hx
    rcases List.mem_append.mp hx with hx | hx
    · exact hv.1 x (by simp [hx])
    · exact hw.1 x (by simp [hx])
  · have h6 : (6 : K) ≠ 0 := by norm_num
    set ps := f.map (ptNode coords) with hps
    have hpf : ∀ a ∈ ps, ∀ b ∈ ps, ∀ c ∈ ps, ∀ d ∈ ps, volTetra a b c d = 0 := by
      intro a ha b hb c hc d hd
      obtain ⟨a', ha', rfl⟩ := List.mem_map.mp ha
      obtain ⟨b', hb', rfl⟩ := List.mem_map.mp hb
      obtain ⟨c', hc', rfl⟩ := List.mem_map.mp hc
      obtain ⟨d', hd', rfl⟩ := List.mem_map.mp hd
      exact tetra_zero arcs s coords a' b' c' d' (hflat a' ha' b' hb' c' hc' d' hd')
    have hopp : faceTerm ((f.reverse.rotate k).map (ptNode coords)) = -faceTerm ps := by
      rw [List.map_rotate, List.map_reverse, ← hps, faceTerm_eq]
      have hne' : ps ≠ [] := by simpa [hps] using hf0.1
      have hq : ptRk (ps.reverse.rotate k) 0 ∈ ps := by
        have : ps.reverse.rotate k ≠ [] := by simpa using hne'
        obtain ⟨a, l, e⟩ := List.exists_cons_of_ne_nil this
        have ha : a ∈ ps.reverse.rotate k := by rw [e]; simp
        rw [e]
        simpa [ptRk] using ha
      rw [sum_map_perm _ ((cycPairs_rotate k ps.reverse).trans (cycPairs_reverse ps)), List.map_map,
        ← faceTerm_base ps h6 hpf _ hq]
      have : ((fun x : (Nat → K) × (Nat → K) => trip (ptRk (ps.reverse.rotate k) 0) x.1 x.2) ∘ Prod.swap) =
          fun x => (-1) * trip (ptRk (ps.reverse.rotate k) 0) x.1 x.2 := by
        funext x
        simp only [Function.comp_apply, Prod.fst_swap, Prod.snd_swap, trip]
        ring
      rw [this, sum_map_mul_list]
      ring
    rw [← hv.2, ← hw.2]
    simp only [polyVol, List.map_cons, List.map_append, List.sum_cons, List.sum_append, hopp]
    ring

end
end MC
