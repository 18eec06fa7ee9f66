import Verif.CellCutProps
import Verif.MeasureSurf

/-!
# Measures of the cells cut in simplices (C99)
-/

namespace MC
section
variable {K : Type} [Field K] [CharZero K]

omit [CharZero K] in
theorem meas_of_valid_tria (arcs : Arcs K) (s : K → K) (sd : Nat) (hsd : sd = 2 ∨ sd = 3) (coords : List (List K)) (a b c : Int)
    (h : ValidNodes coords [a, b, c]) :
    cellMeasure arcs s sd coords 3 [a, b, c] = .ok (areaTria s sd (ptNode coords a) (ptNode coords b) (ptNode coords c)) := by
  rw [meas_tria _ _ _ hsd, show (3 : Nat) = [a, b, c].length from rfl, nodePts_all, if_pos h, ok_bind]
  rfl

omit [CharZero K] in
theorem meas_of_valid_tetra (arcs : Arcs K) (s : K → K) (coords : List (List K)) (a b c d : Int)
    (h : ValidNodes coords [a, b, c, d]) :
    cellMeasure arcs s 3 coords 14 [a, b, c, d] =
      .ok (volTetra (ptNode coords a) (ptNode coords b) (ptNode coords c) (ptNode coords d)) := by
  rw [meas_tetra _ _ _ _ _ (by decide), show (4 : Nat) = [a, b, c, d].length from rfl, nodePts_all, if_pos h, ok_bind]
  rfl

/-- The measures of the simplices of a cell. -/
def measures (arcs : Arcs K) (s : K → K) (sd : Nat) (coords : List (List K)) (l : List Cell) : M (List K) :=
  l.mapM fun c => cellMeasure arcs s sd coords c.type c.nodes

omit [CharZero K] in
theorem valid_sub {coords : List (List K)} {l m : List Int} (h : ValidNodes coords l) (hs : ∀ n ∈ m, n ∈ l) : ValidNodes coords m :=
  fun n hn => h n (hs n hn)

/-- **C99.** In the plane the areas of the two triangles made of a quadrangle add up to its area, whatever the diagonal and
whatever the quadrangle. -/
theorem C99_areas_of_the_triangles (arcs : Arcs K) (s : K → K) (coords : List (List K)) (policy : Int)
    (hp : policy = 0 ∨ policy = 1) (nodes : List Int) (hl : nodes.length = 4) (v : K)
    (hv : cellMeasure arcs s 2 coords 4 nodes = .ok v) :
    ∃ w, measures arcs s 2 coords (simplices policy ⟨4, nodes⟩) = .ok w ∧ w.sum = v := by
  rcases nodes with _ | ⟨a0, _ | ⟨a1, _ | ⟨a2, _ | ⟨a3, _ | ⟨z, nodes⟩⟩⟩⟩⟩ <;> simp at hl
  rw [meas_quad _ _ _ (Or.inl rfl)] at hv
  obtain ⟨h1, h2⟩ := valid_of_ok (g := fun ps => areaQuad s 2 (ptRk ps 0) (ptRk ps 1) (ptRk ps 2) (ptRk ps 3)) rfl hv
  have h3 : areaQuad s 2 (ptNode coords a0) (ptNode coords a1) (ptNode coords a2) (ptNode coords a3) = v := h2
  have hm := fun a b c h => meas_of_valid_tria arcs s 2 (Or.inl rfl) coords a b c (valid_sub h1 h)
  rcases hp with rfl | rfl
  · refine ⟨[areaTria s 2 (ptNode coords a0) (ptNode coords a1) (ptNode coords a2),
      areaTria s 2 (ptNode coords a0) (ptNode coords a2) (ptNode coords a3)], ?_, ?_⟩
    · show measures arcs s 2 coords [⟨3, [a0, a1, a2]⟩, ⟨3, [a0, a2, a3]⟩] = _
      unfold measures
      simp only [List.mapM_cons, List.mapM_nil]
      rw [hm a0 a1 a2 (by simp), ok_bind, hm a0 a2 a3 (by simp), ok_bind]
      rfl
    · rw [← h3]
      simp only [List.sum_cons, List.sum_nil, areaTria, areaQuad, if_true, areaTria2, areaQuad2]
      ring
  · refine ⟨[areaTria s 2 (ptNode coords a0) (ptNode coords a1) (ptNode coords a3),
      areaTria s 2 (ptNode coords a1) (ptNode coords a2) (ptNode coords a3)], ?_, ?_⟩
    · show measures arcs s 2 coords [⟨3, [a0, a1, a3]⟩, ⟨3, [a1, a2, a3]⟩] = _
      unfold measures
      simp only [List.mapM_cons, List.mapM_nil]
      rw [hm a0 a1 a3 (by simp), ok_bind, hm a1 a2 a3 (by simp), ok_bind]
      rfl
    · rw [← h3]
      simp only [List.sum_cons, List.sum_nil, areaTria, areaQuad, if_true, areaTria2, areaQuad2]
      ring

/-- **C99.** In the space the areas of the two triangles add up to the area of the quadrangle if it is cut along its second
diagonal. -/
theorem C99_areas_of_the_triangles_in_space (arcs : Arcs K) (s : K → K) (coords : List (List K)) (nodes : List Int)
    (hl : nodes.length = 4) (v : K) (hv : cellMeasure arcs s 3 coords 4 nodes = .ok v) :
    ∃ w, measures arcs s 3 coords (simplices 1 ⟨4, nodes⟩) = .ok w ∧ w.sum = v := by
  rcases nodes with _ | ⟨a0, _ | ⟨a1, _ | ⟨a2, _ | ⟨a3, _ | ⟨z, nodes⟩⟩⟩⟩⟩ <;> simp at hl
  rw [meas_quad _ _ _ (Or.inr rfl)] at hv
  obtain ⟨h1, h2⟩ := valid_of_ok (g := fun ps => areaQuad s 3 (ptRk ps 0) (ptRk ps 1) (ptRk ps 2) (ptRk ps 3)) rfl hv
  have h3 : areaQuad s 3 (ptNode coords a0) (ptNode coords a1) (ptNode coords a2) (ptNode coords a3) = v := h2
  have hm := fun a b c h => meas_of_valid_tria arcs s 3 (Or.inr rfl) coords a b c (valid_sub h1 h)
  refine ⟨[areaTria s 3 (ptNode coords a0) (ptNode coords a1) (ptNode coords a3),
      areaTria s 3 (ptNode coords a1) (ptNode coords a2) (ptNode coords a3)], ?_, ?_⟩
  · show measures arcs s 3 coords [⟨3, [a0, a1, a3]⟩, ⟨3, [a1, a2, a3]⟩] = _
    unfold measures
    simp only [List.mapM_cons, List.mapM_nil]
    rw [hm a0 a1 a3 (by simp), ok_bind, hm a1 a2 a3 (by simp), ok_bind]
    rfl
  · rw [← h3]
    have e : triaNorm2 (ptNode coords a1) (ptNode coords a2) (ptNode coords a3) =
        triaNorm2 (ptNode coords a2) (ptNode coords a3) (ptNode coords a1) := by
      simp only [triaNorm2]; ring
    simp only [List.sum_cons, List.sum_nil, areaTria, areaQuad, show ((3 : Nat) = 2) = False by simp, if_false, e]
    ring

theorem volHexa_six (p0 p1 p2 p3 p4 p5 p6 p7 : Nat → K) :
    volHexa p0 p1 p2 p3 p4 p5 p6 p7 =
      volTetra p0 p5 p1 p6 + volTetra p0 p1 p2 p6 + volTetra p0 p4 p5 p6 + volTetra p0 p7 p4 p6 + volTetra p0 p2 p3 p6 +
        volTetra p0 p3 p7 p6 + (-volTetra p0 p1 p2 p3 - volTetra p4 p7 p6 p5 - volTetra p0 p4 p5 p1 - volTetra p1 p5 p6 p2 +
          volTetra p2 p6 p7 p3 + volTetra p3 p7 p4 p0) / 2 := by
  simp only [volHexa, volTetra]
  ring

/-- **C99.** The volume of a hexahedron is the sum of the volumes of the tetrahedra made of it, and of the halves of the volumes, with
signs, of the tetrahedra on the four nodes of each face. -/
theorem C99_volumes_of_the_tetrahedra (arcs : Arcs K) (s : K → K) (coords : List (List K)) (policy : Int)
    (hp : policy = 5 ∨ policy = 6) (nodes : List Int) (hl : nodes.length = 8) (v : K)
    (hv : cellMeasure arcs s 3 coords 18 nodes = .ok v) (sons : List (Int × List Int)) (hs : cm_hexa8.allSons nodes = .ok sons) :
    ∃ w fs, measures arcs s 3 coords (simplices policy ⟨18, nodes⟩) = .ok w ∧
      measures arcs s 3 coords (sons.map fun f => ⟨14, f.2⟩) = .ok fs ∧
      ∃ f0 f1 f2 f3 f4 f5, fs = [f0, f1, f2, f3, f4, f5] ∧
        v = w.sum + (if policy = 5 then -f0 + f1 - f2 + f3 - f4 + f5 else -f0 - f1 - f2 - f3 + f4 + f5) / 2 := by
  rw [allSons_static (t := 18) rfl rfl (by decide) hl] at hs
  injection hs with hs
  subst hs
  rcases nodes with _ | ⟨a0, _ | ⟨a1, _ | ⟨a2, _ | ⟨a3, _ | ⟨a4, _ | ⟨a5, _ | ⟨a6, _ | ⟨a7, _ | ⟨z, nodes⟩⟩⟩⟩⟩⟩⟩⟩⟩ <;> simp at hl
  rw [meas_hexa _ _ _ _ _ (by decide)] at hv
  obtain ⟨h1, h2⟩ := valid_of_ok (g := fun ps => volHexa (ptRk ps 0) (ptRk ps 1) (ptRk ps 2) (ptRk ps 3) (ptRk ps 4) (ptRk ps 5)
    (ptRk ps 6) (ptRk ps 7)) rfl hv
  have h3 : volHexa (ptNode coords a0) (ptNode coords a1) (ptNode coords a2) (ptNode coords a3) (ptNode coords a4) (ptNode coords a5)
    (ptNode coords a6) (ptNode coords a7) = v := h2
  have hm := fun a b c d h => meas_of_valid_tetra arcs s coords a b c d (valid_sub h1 h)
  have hf : measures arcs s 3 coords ((cm_hexa8.sons.map fun f => (f.1, pick [a0, a1, a2, a3, a4, a5, a6, a7] f.2)).map
      fun f => ⟨14, f.2⟩) = .ok [volTetra (ptNode coords a0) (ptNode coords a1) (ptNode coords a2) (ptNode coords a3),
        volTetra (ptNode coords a4) (ptNode coords a7) (ptNode coords a6) (ptNode coords a5),
        volTetra (ptNode coords a0) (ptNode coords a4) (ptNode coords a5) (ptNode coords a1),
        volTetra (ptNode coords a1) (ptNode coords a5) (ptNode coords a6) (ptNode coords a2),
        volTetra (ptNode coords a2) (ptNode coords a6) (ptNode coords a7) (ptNode coords a3),
        volTetra (ptNode coords a3) (ptNode coords a7) (ptNode coords a4) (ptNode coords a0)] := by
    show measures arcs s 3 coords [⟨14, [a0, a1, a2, a3]⟩, ⟨14, [a4, a7, a6, a5]⟩, ⟨14, [a0, a4, a5, a1]⟩, ⟨14, [a1, a5, a6, a2]⟩,
      ⟨14, [a2, a6, a7, a3]⟩, ⟨14, [a3, a7, a4, a0]⟩] = _
    unfold measures
    simp only [List.mapM_cons, List.mapM_nil]
    rw [hm a0 a1 a2 a3 (by simp), ok_bind, hm a4 a7 a6 a5 (by simp), ok_bind, hm a0 a4 a5 a1 (by simp), ok_bind,
      hm a1 a5 a6 a2 (by simp), ok_bind, hm a2 a6 a7 a3 (by simp), ok_bind, hm a3 a7 a4 a0 (by simp), ok_bind]
    rfl
  rcases hp with rfl | rfl
  · refine ⟨[volTetra (ptNode coords a0) (ptNode coords a5) (ptNode coords a1) (ptNode coords a2),
      volTetra (ptNode coords a0) (ptNode coords a4) (ptNode coords a5) (ptNode coords a7),
      volTetra (ptNode coords a0) (ptNode coords a3) (ptNode coords a7) (ptNode coords a2),
      volTetra (ptNode coords a5) (ptNode coords a7) (ptNode coords a6) (ptNode coords a2),
      volTetra (ptNode coords a0) (ptNode coords a5) (ptNode coords a2) (ptNode coords a7)], _, ?_, hf, _, _, _, _, _, _, rfl, ?_⟩
    · show measures arcs s 3 coords [⟨14, [a0, a5, a1, a2]⟩, ⟨14, [a0, a4, a5, a7]⟩, ⟨14, [a0, a3, a7, a2]⟩, ⟨14, [a5, a7, a6, a2]⟩,
        ⟨14, [a0, a5, a2, a7]⟩] = _
      unfold measures
      simp only [List.mapM_cons, List.mapM_nil]
      rw [hm a0 a5 a1 a2 (by simp), ok_bind, hm a0 a4 a5 a7 (by simp), ok_bind, hm a0 a3 a7 a2 (by simp), ok_bind,
        hm a5 a7 a6 a2 (by simp), ok_bind, hm a0 a5 a2 a7 (by simp), ok_bind]
      rfl
    · rw [← h3, volHexa_eq, if_pos rfl]
      simp only [List.sum_cons, List.sum_nil]
      ring
  · refine ⟨[volTetra (ptNode coords a0) (ptNode coords a5) (ptNode coords a1) (ptNode coords a6),
      volTetra (ptNode coords a0) (ptNode coords a1) (ptNode coords a2) (ptNode coords a6),
      volTetra (ptNode coords a0) (ptNode coords a4) (ptNode coords a5) (ptNode coords a6),
      volTetra (ptNode coords a0) (ptNode coords a7) (ptNode coords a4) (ptNode coords a6),
      volTetra (ptNode coords a0) (ptNode coords a2) (ptNode coords a3) (ptNode coords a6),
      volTetra (ptNode coords a0) (ptNode coords a3) (ptNode coords a7) (ptNode coords a6)], _, ?_, hf, _, _, _, _, _, _, rfl, ?_⟩
    · show measures arcs s 3 coords [⟨14, [a0, a5, a1, a6]⟩, ⟨14, [a0, a1, a2, a6]⟩, ⟨14, [a0, a4, a5, a6]⟩, ⟨14, [a0, a7, a4, a6]⟩,
        ⟨14, [a0, a2, a3, a6]⟩, ⟨14, [a0, a3, a7, a6]⟩] = _
      unfold measures
      simp only [List.mapM_cons, List.mapM_nil]
      rw [hm a0 a5 a1 a6 (by simp), ok_bind, hm a0 a1 a2 a6 (by simp), ok_bind, hm a0 a4 a5 a6 (by simp), ok_bind,
        hm a0 a7 a4 a6 (by simp), ok_bind, hm a0 a2 a3 a6 (by simp), ok_bind, hm a0 a3 a7 a6 (by simp), ok_bind]
      rfl
    · rw [← h3, volHexa_six, if_neg (by decide)]
      simp only [List.sum_cons, List.sum_nil]
      ring

/-- The four nodes of each face of a hexahedron are in a plane. -/
def PlaneFaces (arcs : Arcs K) (s : K → K) (coords : List (List K)) (nodes : List Int) : Prop :=
  ∃ sons, cm_hexa8.allSons nodes = .ok sons ∧ ∀ f ∈ sons, cellMeasure arcs s 3 coords 14 f.2 = .ok 0

/-- **C99.** The volumes of the tetrahedra made of a hexahedron with plane faces add up to its volume. -/
theorem C99_volumes_when_faces_are_plane (arcs : Arcs K) (s : K → K) (coords : List (List K)) (policy : Int)
    (hp : policy = 5 ∨ policy = 6) (nodes : List Int) (hl : nodes.length = 8) (v : K)
    (hv : cellMeasure arcs s 3 coords 18 nodes = .ok v) (hf : PlaneFaces arcs s coords nodes) :
    ∃ w, measures arcs s 3 coords (simplices policy ⟨18, nodes⟩) = .ok w ∧ w.sum = v := by
  obtain ⟨sons, hs, hz⟩ := hf
  obtain ⟨w, fs, h1, h2, f0, f1, f2, f3, f4, f5, rfl, h3⟩ := C99_volumes_of_the_tetrahedra arcs s coords policy hp nodes hl v hv sons hs
  have : measures arcs s 3 coords (sons.map fun f => ⟨14, f.2⟩) = .ok (sons.map fun _ => 0) := by
    unfold measures
    clear * - hz
    induction sons with
    | nil => rfl
    | cons f sons ih =>
      rw [List.map_cons, List.mapM_cons, hz f (by simp), ok_bind, ih (fun f hf => hz f (by simp [hf])), ok_bind]
      rfl
  rw [h2] at this
  injection this with this
  have hz' : ∀ x ∈ [f0, f1, f2, f3, f4, f5], x = 0 := by
    rw [this]
    simp
  have e0 := hz' f0 (by simp)
  have e1 := hz' f1 (by simp)
  have e2 := hz' f2 (by simp)
  have e3 := hz' f3 (by simp)
  have e4 := hz' f4 (by simp)
  have e5 := hz' f5 (by simp)
  refine ⟨w, h1, ?_⟩
  rw [h3, e0, e1, e2, e3, e4, e5]
  split <;> simp

end
end MC
