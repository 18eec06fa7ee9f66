import Verif.DegenPoly
import Verif.DegenSides
import Verif.CellPoly

/-!
# Polyhedra with the faces of a usual cell become this cell (C105)
-/

namespace MC

theorem pick_map {α β : Type} [Inhabited α] [Inhabited β] (f : α → β) (r : List α) (ks : List Nat) (h : ∀ k ∈ ks, k < r.length) :
    pick (r.map f) ks = (pick r ks).map f := by
  unfold pick
  rw [List.map_map]
  apply List.map_congr_left
  intro k hk
  have := h k hk
  rw [getElem!_pos (r.map f) k (by simpa using this), Function.comp_apply, getElem!_pos r k this, List.getElem_map]

theorem sonsOf_map {α β : Type} [Inhabited α] [Inhabited β] (f : α → β) (cm : CellModel) (r : List α) (h : ∀ s ∈ cm.sons, ∀ k ∈ s.2, k < r.length) :
    sonsOf cm (r.map f) = (sonsOf cm r).map (List.map f) := by
  unfold sonsOf
  rw [List.map_map]
  apply List.map_congr_left
  intro s hs
  rw [Function.comp_apply, pick_map f r s.2 (h s hs)]

theorem sameFaces_map {α β : Type} (f : α → β) {A B : List (List α)} (h : SameFaces A B) : SameFaces (A.map (List.map f)) (B.map (List.map f)) := by
  have := List.Perm.map (Cycle.map f) h
  rw [List.map_map, List.map_map] at this
  unfold SameFaces
  rw [List.map_map, List.map_map]
  exact this

theorem SameFaces.symm {α : Type} {A B : List (List α)} (h : SameFaces A B) : SameFaces B A := List.Perm.symm h

theorem SameFaces.trans {α : Type} {A B C : List (List α)} (h : SameFaces A B) (h' : SameFaces B C) : SameFaces A C := List.Perm.trans h h'

theorem sameFaces_mem {α : Type} {A B : List (List α)} (h : SameFaces A B) {F : List α} (hF : F ∈ A) : ∃ G ∈ B, F.Perm G := by
  have : (F : Cycle α) ∈ B.map fun l : List α => (l : Cycle α) := h.mem_iff.mp (List.mem_map.mpr ⟨F, hF, rfl⟩)
  obtain ⟨G, h1, h2⟩ := List.mem_map.mp this
  exact ⟨G, h1, (Cycle.coe_eq_coe.mp h2).perm.symm⟩

theorem usual_table : ∀ cm ∈ usualTypes, (∀ s ∈ cm.sons, s.2.Nodup ∧ 3 ≤ s.2.length ∧ ∀ k ∈ s.2, k < cm.nbPts) ∧
    (∀ k ∈ List.range cm.nbPts, ∃ s ∈ cm.sons, k ∈ s.2) := by decide

/-- An injection which extends the numbering of the nodes -/
theorem exists_numbering (nodes : List Int) (hn : nodes.Nodup) :
    ∃ f : Nat → Int, Function.Injective f ∧ ∀ (k : Nat) (h : k < nodes.length), f k = nodes[k] := by
  obtain ⟨B, hB⟩ : ∃ B : Int, ∀ x ∈ nodes, x < B := by
    clear hn
    induction nodes with
    | nil => exact ⟨0, by simp⟩
    | cons a l ih =>
      obtain ⟨B, hB⟩ := ih
      refine ⟨max B (a + 1), ?_⟩
      intro x hx
      rcases List.mem_cons.mp hx with rfl | hx
      · omega
      · have := hB x hx
        omega
  refine ⟨fun k => if h : k < nodes.length then nodes[k] else B + k, ?_, fun k h => by simp [h]⟩
  intro a b hab
  dsimp only at hab
  split_ifs at hab with ha hb hb
  · exact (List.Nodup.getElem_inj_iff hn).mp hab
  · have := hB _ (List.getElem_mem ha)
    omega
  · have := hB _ (List.getElem_mem hb)
    omega
  · omega

theorem map_sons_nodes {nodes : List Int} {f : Nat → Int} (hf : ∀ (k : Nat) (h : k < nodes.length), f k = nodes[k]) :
    (List.range nodes.length).map f = nodes := by
  apply List.ext_getElem (by simp)
  intro k h1 h2
  simp [hf k h2]

theorem sonsOf_range (cm : CellModel) (h : ∀ s ∈ cm.sons, ∀ k ∈ s.2, k < cm.nbPts) : sonsOf cm (List.range cm.nbPts) = cm.sons.map Prod.snd := by
  unfold sonsOf
  apply List.map_congr_left
  intro s hs
  unfold pick
  conv_rhs => rw [← List.map_id s.2]
  apply List.map_congr_left
  intro k hk
  have := h s hs k hk
  rw [getElem!_pos _ k (by simpa using this)]
  simp

/-- The usual cell is found, whatever the numbers of the nodes. -/
theorem usual_found_int {cm : CellModel} (hcm : cm ∈ usualTypes) {nodes : List Int} (hn : nodes.Nodup) (hl : nodes.length = cm.nbPts)
    {faces : List (List Int)} (hf : SameFaces faces (sonsOf cm nodes)) :
    ∃ r, tryUsual cm.nbPts (typed faces) = some (cm.code, r) ∧ SameFaces (sonsOf cm r) faces ∧ r.length = cm.nbPts := by
  obtain ⟨f, hfi, hfn⟩ := exists_numbering nodes hn
  obtain ⟨t1, t2⟩ := usual_table cm hcm
  have hnodes : (List.range cm.nbPts).map f = nodes := by rw [← hl]; exact map_sons_nodes hfn
  have hsons : sonsOf cm nodes = (cm.sons.map Prod.snd).map (List.map f) := by
    rw [← hnodes, sonsOf_map f cm _ (fun s hs k hk => by simpa using (t1 s hs).2.2 k hk), sonsOf_range cm fun s hs k hk => (t1 s hs).2.2 k hk]
  have hinv : Function.LeftInverse (Function.invFun f) f := Function.leftInverse_invFun hfi
  have hback : ((cm.sons.map Prod.snd).map (List.map f)).map (List.map (Function.invFun f)) = cm.sons.map Prod.snd := by
    rw [List.map_map]
    conv_rhs => rw [← List.map_id (cm.sons.map Prod.snd)]
    apply List.map_congr_left
    intro s _
    simp [hinv.comp_eq_id]
  have hgs : SameFaces (faces.map (List.map (Function.invFun f))) (cm.sons.map Prod.snd) := by
    have := sameFaces_map (Function.invFun f) hf
    rw [hsons, hback] at this
    exact this
  have hfaces : (faces.map (List.map (Function.invFun f))).map (List.map f) = faces := by
    rw [List.map_map]
    conv_rhs => rw [← List.map_id faces]
    apply List.map_congr_left
    intro F hF
    obtain ⟨G, hG, hp⟩ := sameFaces_mem hf hF
    rw [hsons] at hG
    obtain ⟨s, -, rfl⟩ := List.mem_map.mp hG
    rw [Function.comp_apply, List.map_map, id]
    conv_rhs => rw [← List.map_id F]
    apply List.map_congr_left
    intro x hx
    obtain ⟨y, -, rfl⟩ := List.mem_map.mp (hp.mem_iff.mp hx)
    simp [hinv y]
  obtain ⟨r, h1, h2, h3⟩ := usual_found hcm hgs
  have hty : typed faces = mapFaces f (typed (faces.map (List.map (Function.invFun f)))) := by
    conv_lhs => rw [← hfaces]
    simp [typed, mapFaces, Function.comp_def]
  refine ⟨r.map f, ?_, ?_, by simpa using h3⟩
  · rw [hty, tryUsual_map hfi, h1]
    rfl
  · rw [sonsOf_map f cm r fun s hs k hk => by rw [h3]; exact (t1 s hs).2.2 k hk]
    have := (sameFaces_map f h2).trans (sameFaces_map f hgs).symm
    rw [hfaces] at this
    exact this

theorem zipFace_foldl (f acc : List Int) (h : (acc ++ f).Nodup) :
    f.foldl (fun acc x => if x ∈ acc then acc else acc ++ [x]) acc = acc ++ f := by
  induction f generalizing acc with
  | nil => simp
  | cons x f ih =>
    rw [List.foldl_cons, if_neg]
    · rw [ih (acc ++ [x]) (by simpa using h)]
      simp
    · intro hx
      rw [List.nodup_append] at h
      exact h.2.2 x hx x (by simp) rfl

theorem zipFace_nodup {f : List Int} (h : f.Nodup) : zipFace f = f := zipFace_foldl f [] (by simpa using h)

/-- The faces are proper: at least three nodes, all different -/
def ProperFaces (faces : List (List Int)) : Prop := faces ≠ [] ∧ ∀ f ∈ faces, f.Nodup ∧ 3 ≤ f.length ∧ -1 ∉ f

theorem zipSons_proper {faces : List (List Int)} (h : ProperFaces faces) : ∀ (sons : List (Int × List Int)), sons.map Prod.snd = faces →
    (∀ s ∈ sons, s.1 = 3 ∨ s.1 = 4 ∨ s.1 = 5) → sons.mapM zipSon = .ok ((typed faces).map some) := by
  intro sons hs ht
  have : ∀ s ∈ sons, zipSon s = .ok (some (unPoly2DType false s.2.length, s.2)) := by
    intro s hsm
    obtain ⟨h1, h2, -⟩ := h.2 s.2 (by rw [← hs]; exact List.mem_map.mpr ⟨s, hsm, rfl⟩)
    unfold zipSon
    rw [zipFace_nodup h1, if_neg (by intro h0; rw [h0] at h2; simp at h2), if_neg (by omega)]
    obtain ⟨t, ns⟩ := s
    rcases ht _ hsm with e | e | e <;> (dsimp only at e; subst e; rfl)
  rw [mapM_ok_map (g := fun s => some (unPoly2DType false s.2.length, s.2)) this]
  congr 1
  rw [← hs]
  simp [typed, Function.comp_def]

theorem fullPolyh_polyhed {faces : List (List Int)} (h : ProperFaces faces) : getFullPolyh3DCell ⟨31, joinFaces faces⟩ = .ok (typed faces) := by
  unfold getFullPolyh3DCell
  rw [show getCellModel 31 = .ok cm_polyhed from rfl, ok_bind, C47_polyhedron_sons faces h.1 (fun f hf => (h.2 f hf).2.2), ok_bind,
    zipSons_proper h _ (by simp [Function.comp_def]) (by simp), ok_bind, if_neg]
  · simp
  · obtain ⟨a, l, rfl⟩ := List.exists_cons_of_ne_nil h.1
    simp [typed]

theorem faceRow_eq (fs : List (List Int)) : faceRow fs = joinFaces fs := by
  induction fs with
  | nil => rfl
  | cons f fs ih =>
    cases fs with
    | nil => rfl
    | cons g fs => simp only [faceRow, joinFaces, ih]

theorem nbDistinct_eq {l nodes : List Int} (hn : nodes.Nodup) (h : ∀ x, x ∈ nodes ↔ x ∈ l ∧ x ≠ -1) : nbDistinct l = nodes.length := by
  unfold nbDistinct
  apply List.Perm.length_eq
  rw [List.perm_ext_iff_of_nodup ((List.nodup_dedup l).filter _) hn]
  intro x
  rw [h x]
  simp

theorem usual_faces_proper {cm : CellModel} (hcm : cm ∈ usualTypes) {nodes : List Int} (hn : nodes.Nodup) (hl : nodes.length = cm.nbPts)
    (h1 : -1 ∉ nodes) {faces : List (List Int)} (hf : SameFaces faces (sonsOf cm nodes)) :
    ProperFaces faces ∧ nbDistinct faces.flatten = cm.nbPts := by
  obtain ⟨t1, t2⟩ := usual_table cm hcm
  have hmem : ∀ s ∈ cm.sons, ∀ x, x ∈ pick nodes s.2 ↔ ∃ k ∈ s.2, ∃ h : k < nodes.length, nodes[k] = x := by
    intro s hs x
    unfold pick
    rw [List.mem_map]
    constructor
    · rintro ⟨k, hk, rfl⟩
      have hk' : k < nodes.length := by rw [hl]; exact (t1 s hs).2.2 k hk
      exact ⟨k, hk, hk', by rw [getElem!_pos nodes k hk']⟩
    · rintro ⟨k, hk, hk', rfl⟩
      exact ⟨k, hk, by rw [getElem!_pos nodes k hk']⟩
  have hface : ∀ F ∈ faces, ∃ s ∈ cm.sons, F.Perm (pick nodes s.2) := by
    intro F hF
    obtain ⟨G, hG, hp⟩ := sameFaces_mem hf hF
    obtain ⟨s, hs, rfl⟩ := List.mem_map.mp hG
    exact ⟨s, hs, hp⟩
  refine ⟨⟨?_, ?_⟩, ?_⟩
  · intro h0
    have hlen := List.Perm.length_eq hf
    rw [h0] at hlen
    have : cm.sons = [] := by simpa [sonsOf] using hlen.symm
    have hc : cm = cm_tetra4 ∨ cm = cm_pyra5 ∨ cm = cm_penta6 ∨ cm = cm_hexa8 ∨ cm = cm_hexgp12 := by simpa [usualTypes] using hcm
    rcases hc with rfl | rfl | rfl | rfl | rfl <;> cases this
  · intro F hF
    obtain ⟨s, hs, hp⟩ := hface F hF
    refine ⟨hp.nodup_iff.mpr ?_, ?_, ?_⟩
    · unfold pick
      apply List.Nodup.map_on _ (t1 s hs).1
      intro a ha b hb hab
      have ha' : a < nodes.length := by rw [hl]; exact (t1 s hs).2.2 a ha
      have hb' : b < nodes.length := by rw [hl]; exact (t1 s hs).2.2 b hb
      rw [getElem!_pos nodes a ha', getElem!_pos nodes b hb'] at hab
      exact (List.Nodup.getElem_inj_iff hn).mp hab
    · rw [hp.length_eq]
      simpa [pick] using (t1 s hs).2.1
    · intro hx
      obtain ⟨k, -, hk, e⟩ := (hmem s hs _).mp (hp.mem_iff.mp hx)
      exact h1 (e ▸ List.getElem_mem hk)
  · rw [← hl]
    apply nbDistinct_eq hn
    intro x
    constructor
    · intro hx
      refine ⟨?_, fun h => h1 (h ▸ hx)⟩
      obtain ⟨k, hk, rfl⟩ := List.mem_iff_getElem.mp hx
      obtain ⟨s, hs, hks⟩ := t2 k (by rw [List.mem_range, ← hl]; exact hk)
      obtain ⟨F, hF, hp⟩ := sameFaces_mem hf.symm (List.mem_map.mpr ⟨s, hs, rfl⟩)
      exact List.mem_flatten.mpr ⟨F, hF, hp.mem_iff.mp ((hmem s hs _).mpr ⟨k, hks, hk, rfl⟩)⟩
    · rintro ⟨hx, -⟩
      obtain ⟨F, hF, hxF⟩ := List.mem_flatten.mp hx
      obtain ⟨s, hs, hp⟩ := hface F hF
      obtain ⟨k, -, hk, rfl⟩ := (hmem s hs _).mp (hp.mem_iff.mp hxF)
      exact List.getElem_mem hk

theorem typed_flat {α : Type} (faces : List (List α)) : (typed faces).flatMap Prod.snd = faces.flatten := by
  rw [List.flatMap_def, typed_snd]

theorem unPoly3D_usual {cm : CellModel} (hcm : cm ∈ usualTypes) {nodes : List Int} (hn : nodes.Nodup) (hl : nodes.length = cm.nbPts)
    (h1 : -1 ∉ nodes) {faces : List (List Int)} (hf : SameFaces faces (sonsOf cm nodes)) :
    ∃ r, tryToUnPoly3D (typed faces) = ⟨cm.code, r⟩ ∧ SameFaces (sonsOf cm r) faces ∧ r.length = cm.nbPts := by
  obtain ⟨r, e, h2, h3⟩ := usual_found_int hcm hn hl hf
  refine ⟨r, ?_, h2, h3⟩
  unfold tryToUnPoly3D
  rw [typed_flat, (usual_faces_proper hcm hn hl h1 hf).2, e]

theorem unPolyCell_polyhed {faces : List (List Int)} (h : ProperFaces faces) :
    unPolyCell ⟨31, joinFaces faces⟩ = .ok (tryToUnPoly3D (typed faces)) := by
  have := fullPolyh_polyhed h
  unfold unPolyCell
  rw [show getCellModel 31 = .ok cm_polyhed from rfl, ok_bind, this]
  rfl

/-- **C105.** A polyhedron whose faces are, in any order and beginning at any node, those of a tetrahedron, a pyramid, a pentahedron, a
hexahedron or a hexagonal prism becomes a cell of this type with the same faces. -/
theorem C105_usual_cell_recognized {cm : CellModel} (hcm : cm ∈ usualTypes) {nodes : List Int} (hn : nodes.Nodup) (hl : nodes.length = cm.nbPts)
    (h1 : -1 ∉ nodes) {faces : List (List Int)} (hf : SameFaces faces (sonsOf cm nodes)) :
    ∃ r, unPolyCell ⟨31, joinFaces faces⟩ = .ok ⟨cm.code, r⟩ ∧ SameFaces (sonsOf cm r) faces ∧ r.length = cm.nbPts := by
  obtain ⟨r, e, h2, h3⟩ := unPoly3D_usual hcm hn hl h1 hf
  refine ⟨r, ?_, h2, h3⟩
  rw [unPolyCell_polyhed (usual_faces_proper hcm hn hl h1 hf).1, e]

/-! ## The usual cell has the nodes of the polyhedron -/

theorem orient_perm {α : Type} [DecidableEq α] {base ret side r : List α} (h : orientOppositeFace base ret side = some r) : r.Perm ret := by
  unfold orientOppositeFace at h
  split_ifs at h
  split at h
  · obtain ⟨s, -, h2⟩ := Option.bind_eq_some_iff.mp h
    unfold turnOpposite at h2
    split_ifs at h2
    all_goals
      simp only [Option.some.injEq] at h2
      rw [← h2]
      exact List.rotate_perm _ _
  · cases h

theorem flip_perm {α : Type} (l : List α) : (l.take 1 ++ (l.drop 1).reverse).Perm l := by
  conv_rhs => rw [← List.take_append_drop 1 l]
  exact (List.reverse_perm _).append_left _

theorem prismOf_perm {α : Type} [DecidableEq α] {gs : List (List α)} {b o : Nat} {r : List α} (h : prismOf gs b o = some r) :
    ∃ F O, gs[b]? = some F ∧ gs[o]? = some O ∧ r.Perm (F ++ O) := by
  unfold prismOf at h
  split at h
  · rename_i F O hF hO
    obtain ⟨r', h1, h2⟩ := Option.map_eq_some_iff.mp h
    refine ⟨F, O, hF, hO, ?_⟩
    subst h2
    apply List.Perm.append_left
    unfold arrangeOpposite at h1
    split at h1
    · exact (orient_perm h1).trans (flip_perm O)
    · simp only [Option.some.injEq] at h1
      rw [← h1]
      exact flip_perm O
  · cases h

/-- Of a proper prism -/
theorem prism_nodes {faces : List (List Int)} (h : ∀ f ∈ faces, f.Nodup) {F O r : List Int} (hF : F ∈ faces) (hO : O ∈ faces) (hm : meet F O = [])
    (hr : r.Perm (F ++ O)) : r.Nodup ∧ (∀ x ∈ r, x ∈ faces.flatten) ∧ r.length = F.length + O.length := by
  refine ⟨hr.nodup_iff.mpr ?_, ?_, by rw [hr.length_eq, List.length_append]⟩
  · rw [List.nodup_append]
    refine ⟨h F hF, h O hO, ?_⟩
    rintro x hx y hy rfl
    exact (meet_nil_iff _ _).mp hm x hx hy
  · intro x hx
    rcases List.mem_append.mp (hr.mem_iff.mp hx) with h' | h'
    · exact List.mem_flatten.mpr ⟨F, hF, h'⟩
    · exact List.mem_flatten.mpr ⟨O, hO, h'⟩

theorem coneLoop_some {base : List Int} {p : Int} (fs : List (List Int)) (x : Option Int) (h : coneLoop base fs x = some p) :
    x = some p ∨ ∃ f ∈ fs, p ∈ f ∧ p ∉ base := by
  induction fs generalizing x with
  | nil => exact Or.inl h
  | cons f fs ih =>
    rw [coneLoop_cons] at h
    split_ifs at h
    have hm : ∀ y, minus f base = [y] → y ∈ f ∧ y ∉ base := by
      intro y hy
      have : y ∈ minus f base := by rw [hy]; simp
      unfold minus at this
      simpa using this
    split at h
    · rename_i y hy
      rcases ih _ h with h' | ⟨g, h1, h2⟩
      · cases h'
        exact Or.inr ⟨f, by simp, hm _ hy⟩
      · exact Or.inr ⟨g, by simp [h1], h2⟩
    · rename_i y z hy
      split_ifs at h with hz
      rcases ih _ h with h' | ⟨g, h1, h2⟩
      · exact Or.inl h'
      · exact Or.inr ⟨g, by simp [h1], h2⟩
    · cases h

theorem cone_nodes {faces : List (List Int)} (h : ∀ f ∈ faces, f.Nodup) {F : List Int} {p : Int} {fs : List (List Int)} (hF : F ∈ faces)
    (hfs : ∀ f ∈ fs, f ∈ faces) (hp : coneLoop F fs none = some p) :
    (F ++ [p]).Nodup ∧ (∀ x ∈ F ++ [p], x ∈ faces.flatten) ∧ (F ++ [p]).length = F.length + 1 := by
  rcases coneLoop_some _ _ hp with h' | ⟨f, h1, h2, h3⟩
  · cases h'
  · refine ⟨?_, ?_, by simp⟩
    · rw [List.nodup_append]
      refine ⟨h F hF, by simp, ?_⟩
      rintro x hx y hy rfl
      simp only [List.mem_cons, List.not_mem_nil, or_false] at hy
      exact h3 (hy ▸ hx)
    · intro x hx
      rcases List.mem_append.mp hx with h' | h'
      · exact List.mem_flatten.mpr ⟨F, hF, h'⟩
      · simp only [List.mem_cons, List.not_mem_nil, or_false] at h'
        exact List.mem_flatten.mpr ⟨f, hfs f h1, h' ▸ h2⟩

theorem prismBetween_nodes {faces : List (List Int)} (h : ∀ f ∈ faces, f.Nodup) {p : Nat × Nat} {r : List Int} (hr : prismBetween faces p = some r) :
    ∃ F O, faces[p.1]? = some F ∧ faces[p.2]? = some O ∧ r.Nodup ∧ (∀ x ∈ r, x ∈ faces.flatten) ∧ r.length = F.length + O.length := by
  unfold prismBetween at hr
  split_ifs at hr with hm
  obtain ⟨F, O, hF, hO, hp⟩ := prismOf_perm hr
  rw [hF, hO] at hm
  exact ⟨F, O, hF, hO, prism_nodes h (List.mem_of_getElem? hF) (List.mem_of_getElem? hO) hm hp⟩

theorem tryHexa8_nodes {faces : List (List Int)} (h : ∀ f ∈ faces, f.Nodup) {r : List Int} (hr : tryHexa8 (typed faces) = some r) :
    r.Nodup ∧ (∀ x ∈ r, x ∈ faces.flatten) ∧ r.length = 8 := by
  unfold tryHexa8 at hr
  rw [typed_snd] at hr
  split_ifs at hr with hall
  split at hr
  · rename_i k hk
    obtain ⟨F, O, hF, hO, hp⟩ := prismOf_perm hr
    have h4 : ∀ f ∈ faces, f.length = 4 := by
      intro f hf
      have := List.all_eq_true.mp hall (unPoly2DType false f.length, f) (List.mem_map.mpr ⟨f, hf, rfl⟩)
      exact unPoly_len.2.mp (by simpa using this)
    have hF' := List.mem_of_mem_take (List.mem_of_getElem? hF)
    have hO' := List.mem_of_mem_take (List.mem_of_getElem? hO)
    obtain ⟨hkl, hkp, -⟩ := List.findIdx?_eq_some_iff_getElem.mp hk
    have hm : meet F O = [] := by
      have e1 : faces.head?.getD [] = F := by
        cases faces with
        | nil => simp at hF
        | cons a l => simpa using hF
      have e2 : (List.take 5 (List.drop 1 faces))[k] = O := by
        have hk5 : k < 5 := by simp only [List.length_take] at hkl; omega
        rw [List.getElem?_take_of_lt (by omega)] at hO
        rw [List.getElem_take, List.getElem_drop]
        obtain ⟨hh, e⟩ := List.getElem?_eq_some_iff.mp hO
        rw [← e]
        congr 1
        omega
      rw [e1, e2] at hkp
      simpa using hkp
    obtain ⟨h1, h2, h3⟩ := prism_nodes h hF' hO' hm hp
    exact ⟨h1, h2, by rw [h3, h4 F hF', h4 O hO']⟩
  · cases hr

theorem twoOfType_get {faces : List (List Int)} {t : Int} (h : ((typed faces).map Prod.fst).count t = 2) {F O : List Int}
    (hF : faces[(twoOfType ((typed faces).map Prod.fst) t).1]? = some F) (hO : faces[(twoOfType ((typed faces).map Prod.fst) t).2]? = some O) :
    unPoly2DType false F.length = t ∧ unPoly2DType false O.length = t := by
  obtain ⟨-, h1, h2⟩ := twoOfType_spec h
  obtain ⟨F', e1, e2⟩ := typed_types _ _ _ h1
  obtain ⟨O', e3, e4⟩ := typed_types _ _ _ h2
  rw [hF] at e1
  rw [hO] at e3
  cases e1
  cases e3
  exact ⟨e2, e4⟩

theorem tryPenta6_nodes {faces : List (List Int)} (h : ∀ f ∈ faces, f.Nodup) {r : List Int} (hr : tryPenta6 (typed faces) = some r) :
    r.Nodup ∧ (∀ x ∈ r, x ∈ faces.flatten) ∧ r.length = 6 := by
  unfold tryPenta6 at hr
  rw [typed_snd] at hr
  split_ifs at hr with hc
  obtain ⟨F, O, hF, hO, h1, h2, h3⟩ := prismBetween_nodes h hr
  obtain ⟨t1, t2⟩ := twoOfType_get hc.1 hF hO
  exact ⟨h1, h2, by rw [h3, unPoly_len.1.mp t1, unPoly_len.1.mp t2]⟩

theorem tryHexgp12_nodes {faces : List (List Int)} (h : ∀ f ∈ faces, f.Nodup) {r : List Int} (hr : tryHexgp12 (typed faces) = some r) :
    r.Nodup ∧ (∀ x ∈ r, x ∈ faces.flatten) ∧ r.length = 12 := by
  unfold tryHexgp12 at hr
  dsimp only at hr
  rw [typed_snd] at hr
  split_ifs at hr with hc h6
  obtain ⟨F, O, hF, hO, h1, h2, h3⟩ := prismBetween_nodes h hr
  rw [hF, hO] at h6
  exact ⟨h1, h2, by rw [h3]; simp only [Option.getD_some] at h6; omega⟩

theorem tryPyra5_nodes {faces : List (List Int)} (h : ∀ f ∈ faces, f.Nodup) {r : List Int} (hr : tryPyra5 (typed faces) = some r) :
    r.Nodup ∧ (∀ x ∈ r, x ∈ faces.flatten) ∧ r.length = 5 := by
  unfold tryPyra5 at hr
  dsimp only at hr
  rw [typed_snd] at hr
  split_ifs at hr with hc
  split at hr
  · rename_i F hF
    obtain ⟨p, h1, h2⟩ := Option.map_eq_some_iff.mp hr
    have hm : (4 : Int) ∈ (typed faces).map Prod.fst := List.count_pos_iff.mp (by omega)
    have hi := List.idxOf_lt_length_iff.mpr hm
    obtain ⟨F', e1, e2⟩ := typed_types faces (((typed faces).map Prod.fst).idxOf 4) 4 (by rw [List.getElem?_eq_getElem hi, List.getElem_idxOf hi])
    rw [hF] at e1
    cases e1
    obtain ⟨g1, g2, g3⟩ := cone_nodes h (List.mem_of_getElem? hF) (fun f hf => List.mem_of_mem_eraseIdx hf) h1
    rw [← h2]
    exact ⟨g1, g2, by rw [g3, unPoly_len.2.mp e2]⟩
  · cases hr

theorem tryTetra4_nodes {faces : List (List Int)} (h : ∀ f ∈ faces, f.Nodup) {r : List Int} (hr : tryTetra4 (typed faces) = some r) :
    r.Nodup ∧ (∀ x ∈ r, x ∈ faces.flatten) ∧ r.length = 4 := by
  unfold tryTetra4 at hr
  rw [typed_snd] at hr
  split_ifs at hr with hall
  split at hr
  · rename_i F others hF
    obtain ⟨p, h1, h2⟩ := Option.map_eq_some_iff.mp hr
    have hin : ∀ f ∈ F :: others, f ∈ faces := by
      intro f hf
      rw [← hF] at hf
      exact List.mem_of_mem_take hf
    have h3 : F.length = 3 := by
      have := List.all_eq_true.mp hall (unPoly2DType false F.length, F) (List.mem_map.mpr ⟨F, hin F (by simp), rfl⟩)
      exact unPoly_len.1.mp (by simpa using this)
    obtain ⟨g1, g2, g3⟩ := cone_nodes h (hin F (by simp)) (fun f hf => hin f (by simp [hf])) h1
    rw [← h2]
    exact ⟨g1, g2, by rw [g3, h3]⟩
  · cases hr

theorem tryUsual_nodes {faces : List (List Int)} (h : ∀ f ∈ faces, f.Nodup ∧ -1 ∉ f) {t : Int} {r : List Int}
    (hr : tryUsual (nbDistinct faces.flatten) (typed faces) = some (t, r)) :
    (∃ cm ∈ usualTypes, t = cm.code ∧ r.length = cm.nbPts) ∧ r.Nodup ∧ ∀ x, x ∈ r ↔ x ∈ faces.flatten := by
  have hd : nbDistinct faces.flatten = faces.flatten.dedup.length := by
    unfold nbDistinct
    rw [List.filter_eq_self.mpr]
    intro x hx
    obtain ⟨f, hf, hxf⟩ := List.mem_flatten.mp (List.mem_dedup.mp hx)
    have : x ≠ -1 := fun e => (h f hf).2 (e ▸ hxf)
    simpa using this
  have key : ∀ n, r.Nodup ∧ (∀ x ∈ r, x ∈ faces.flatten) ∧ r.length = n → nbDistinct faces.flatten ≤ n →
      r.Nodup ∧ ∀ x, x ∈ r ↔ x ∈ faces.flatten := by
    rintro n ⟨h1, h2, h3⟩ hle
    refine ⟨h1, fun x => ⟨h2 x, fun hx => ?_⟩⟩
    have hs : r.Subperm faces.flatten.dedup := h1.subperm fun x hx => List.mem_dedup.mpr (h2 x hx)
    have hp : r.Perm faces.flatten.dedup := hs.perm_of_length_le (by omega)
    exact hp.mem_iff.mpr (List.mem_dedup.mpr hx)
  have hnd : ∀ f ∈ faces, f.Nodup := fun f hf => (h f hf).1
  unfold tryUsual at hr
  split_ifs at hr with c1 c2 c3 c4 c5
  · obtain ⟨r', h1, h2⟩ := Option.map_eq_some_iff.mp hr
    cases h2
    have hn := tryHexa8_nodes hnd h1
    exact ⟨⟨cm_hexa8, by simp [usualTypes], rfl, hn.2.2⟩, key 8 hn (by omega)⟩
  · obtain ⟨r', h1, h2⟩ := Option.map_eq_some_iff.mp hr
    cases h2
    have hn := tryHexgp12_nodes hnd h1
    exact ⟨⟨cm_hexgp12, by simp [usualTypes], rfl, hn.2.2⟩, key 12 hn (by omega)⟩
  · obtain ⟨r', h1, h2⟩ := Option.map_eq_some_iff.mp hr
    cases h2
    have hn := tryPenta6_nodes hnd h1
    exact ⟨⟨cm_penta6, by simp [usualTypes], rfl, hn.2.2⟩, key 6 hn (by omega)⟩
  · obtain ⟨r', h1, h2⟩ := Option.map_eq_some_iff.mp hr
    cases h2
    have hn := tryPyra5_nodes hnd h1
    exact ⟨⟨cm_pyra5, by simp [usualTypes], rfl, hn.2.2⟩, key 5 hn (by omega)⟩
  · obtain ⟨r', h1, h2⟩ := Option.map_eq_some_iff.mp hr
    cases h2
    have hn := tryTetra4_nodes hnd h1
    exact ⟨⟨cm_tetra4, by simp [usualTypes], rfl, hn.2.2⟩, key 4 hn (by omega)⟩

theorem flatten_le_join (fs : List (List Int)) : fs.flatten.length ≤ (joinFaces fs).length := by
  induction fs with
  | nil => simp
  | cons f fs ih =>
    cases fs with
    | nil => simp [joinFaces]
    | cons g fs =>
      rw [List.flatten_cons, joinFaces]
      simp only [List.length_append, List.length_cons] at ih ⊢
      omega

/-- **C105.** A polyhedron stays as it is, or becomes a usual cell with its nodes, each of them once; the cell is not longer. -/
theorem C105_polyhedron_keeps_nodes {faces : List (List Int)} (h : ProperFaces faces) :
    ∃ c', unPolyCell ⟨31, joinFaces faces⟩ = .ok c' ∧ c'.nodes.length ≤ (joinFaces faces).length ∧
      (c' = ⟨31, joinFaces faces⟩ ∨ (∃ cm ∈ usualTypes, c'.type = cm.code ∧ c'.nodes.length = cm.nbPts) ∧ c'.nodes.Nodup ∧
        ∀ x, x ∈ c'.nodes ↔ x ∈ faces.flatten) := by
  refine ⟨_, unPolyCell_polyhed h, ?_⟩
  unfold tryToUnPoly3D
  rw [typed_flat, typed_snd, faceRow_eq]
  cases hr : tryUsual (nbDistinct faces.flatten) (typed faces) with
  | none => exact ⟨le_rfl, Or.inl rfl⟩
  | some r =>
    obtain ⟨h1, h2, h3⟩ := tryUsual_nodes (fun f hf => ⟨(h.2 f hf).1, (h.2 f hf).2.2⟩) (t := r.1) (r := r.2) hr
    refine ⟨?_, Or.inr ⟨h1, h2, h3⟩⟩
    exact (h2.subperm fun x hx => (h3 x).mp hx).length_le.trans (flatten_le_join faces)

end MC
