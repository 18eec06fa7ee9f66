import Verif.DescProps

/-!
# C63 to C65: the theorems on the descending connectivity
-/

namespace MC
section

/-- The nodes exist and are not repeated. -/
def NodesOk (nbNodes : Nat) (l : List Int) : Prop := l.Nodup ∧ ∀ n ∈ l, 0 ≤ n ∧ n < nbNodes

/-- A cell of a mesh of dimension `dim`: a cell of a type with a fixed number of nodes, a polygon with two corners at least,
or a polyhedron given by non empty faces. -/
def CellOk (dim : Int) (nbNodes : Nat) (c : Cell) : Prop :=
  ∃ cm, getCellModel c.type = .ok cm ∧ (cm.dim : Int) = dim ∧
    ((cm.dyn = false ∧ c.nodes.length = cm.nbPts ∧ NodesOk nbNodes c.nodes) ∨
     ((c.type = 5 ∨ c.type = 32) ∧ 2 ≤ nbCorners c.type c.nodes.length ∧ NodesOk nbNodes c.nodes) ∨
     (c.type = 31 ∧ ∃ fs : List (List Int), fs ≠ [] ∧ c.nodes = joinFaces fs ∧ ∀ f ∈ fs, f ≠ [] ∧ NodesOk nbNodes f))

/-- The sub cells of a cell; C47 says what they are. -/
def BoundaryOf (c : Cell) (sons : List Cell) : Prop :=
  ∃ cm, getCellModel c.type = .ok cm ∧ cm.allSons c.nodes = .ok (sons.map fun s => (s.type, s.nodes))

theorem toCells (l : List (Int × List Int)) : ((l.map fun p => (⟨p.1, p.2⟩ : Cell)).map fun s => (s.type, s.nodes)) = l := by
  rw [List.map_map]
  exact List.map_id' _

theorem pick_nodup {conn : List Int} (hn : conn.Nodup) {ks : List Nat} (hk : ks.Nodup) (hb : ∀ k ∈ ks, k < conn.length) : (pick conn ks).Nodup := by
  unfold pick
  refine List.Nodup.map_on ?_ hk
  intro a ha b hb' he
  have h1 := hb a ha
  have h2 := hb b hb'
  rw [getElem!_pos conn a h1, getElem!_pos conn b h2] at he
  exact (List.Nodup.getElem_inj_iff hn).mp he

theorem pick_mem {conn : List Int} {ks : List Nat} (hb : ∀ k ∈ ks, k < conn.length) {x : Int} (hx : x ∈ pick conn ks) : x ∈ conn := by
  unfold pick at hx
  obtain ⟨k, hk, rfl⟩ := List.mem_map.mp hx
  rw [getElem!_pos conn k (hb k hk)]
  exact List.getElem_mem _

theorem sons_table : ∀ cm ∈ cellModels, cm.dyn = false → cm.dim ≤ 3 → ∀ s ∈ cm.sons, s.2.Nodup ∧ s.2 ≠ [] ∧ s.2.length ≤ cm.nbPts + 1 ∧
    ∃ cm' ∈ cellModels, cm'.code = s.1 ∧ cm'.dim + 1 = cm.dim ∧ (cm'.dyn = false → s.2.length = cm'.nbPts) := by decide

theorem getCellModel_of_mem : ∀ cm ∈ cellModels, getCellModel cm.code = .ok cm := by decide

theorem getCellModel_seg : getCellModel 1 = .ok cm_seg2 ∧ getCellModel 2 = .ok cm_seg3 := by decide

theorem edge_ok {nbNodes : Nat} {t : Int} {f : List Int} (hf : NodesOk nbNodes f) (h2 : 2 ≤ nbCorners t f.length) (hk : nbCorners t f.length ≤ f.length)
    {e : Int × Int × Option Int} (he : e ∈ edgesOf t f) : NodesOk nbNodes (e.1 :: e.2.1 :: e.2.2.toList) ∧
    (t = 32 → e.2.2.isSome) ∧ (t = 5 → e.2.2 = none) := by
  unfold edgesOf at he
  obtain ⟨i, hi, he⟩ := List.mem_filterMap.mp he
  have hi' := List.mem_range.mp hi
  set k := nbCorners t f.length with hkd
  have hil : i < f.length := by omega
  have hj : (i + 1) % k < k := Nat.mod_lt _ (by omega)
  have hjl : (i + 1) % k < f.length := by omega
  rw [List.getElem?_eq_getElem hil, List.getElem?_eq_getElem hjl] at he
  simp only [Option.some.injEq] at he
  subst he
  have hne : i ≠ (i + 1) % k := by
    rcases Nat.lt_or_ge (i + 1) k with hlt | hge
    · rw [Nat.mod_eq_of_lt hlt]; omega
    · have : i + 1 = k := by omega
      rw [this, Nat.mod_self]; omega
  have hinj := fun (a b : Nat) (ha : a < f.length) (hb : b < f.length) (hab : a ≠ b) =>
    show f[a] ≠ f[b] from fun h => hab ((List.Nodup.getElem_inj_iff hf.1).mp h)
  refine ⟨?_, ?_, ?_⟩
  · cases ho : f[k + i]? with
    | none =>
      refine ⟨by simpa using hinj _ _ hil hjl hne, ?_⟩
      intro n hn
      simp only [Option.toList_none, List.mem_cons, List.not_mem_nil, or_false] at hn
      rcases hn with rfl | rfl
      · exact hf.2 _ (List.getElem_mem _)
      · exact hf.2 _ (List.getElem_mem _)
    | some m =>
      obtain ⟨hml, rfl⟩ := List.getElem?_eq_some_iff.mp ho
      refine ⟨?_, ?_⟩
      · simp only [Option.toList_some, List.nodup_cons, List.mem_cons, List.not_mem_nil, or_false, not_or, not_false_eq_true, List.nodup_nil, and_true]
        exact ⟨⟨hinj _ _ hil hjl hne, hinj _ _ hil hml (by omega)⟩, hinj _ _ hjl hml (by omega)⟩
      · intro n hn
        simp only [Option.toList_some, List.mem_cons, List.not_mem_nil, or_false] at hn
        rcases hn with rfl | rfl | rfl <;> exact hf.2 _ (List.getElem_mem _)
  · intro ht
    have : k = f.length / 2 := by rw [hkd, ht]; rfl
    rw [List.getElem?_eq_getElem (by omega)]
    rfl
  · intro ht
    have : k = f.length := by rw [hkd, ht]; rfl
    exact List.getElem?_eq_none (by omega)

theorem cellModel_polygons {t : Int} {cm : CellModel} (h : getCellModel t = .ok cm) (ht : t = 5 ∨ t = 32) : cm.dim = 2 ∧ cm.dyn = true ∧ (cm.quad = true ↔ t = 32) := by
  obtain ⟨hm, rfl⟩ := getCellModel_mem h
  have : ∀ cm ∈ cellModels, (cm.code = 5 ∨ cm.code = 32) → cm.dim = 2 ∧ cm.dyn = true ∧ (cm.quad = true ↔ cm.code = 32) := by decide
  exact this cm hm ht

theorem joinFaces_length {fs : List (List Int)} {f : List Int} (hf : f ∈ fs) : f.length ≤ (joinFaces fs).length := by
  induction fs with
  | nil => simp at hf
  | cons g fs ih =>
    cases fs with
    | nil => rw [List.mem_singleton] at hf; subst hf; exact le_refl _
    | cons g' fs =>
      rw [joinFaces, List.length_append, List.length_cons]
      rcases List.mem_cons.mp hf with rfl | hf
      · omega
      · have := ih hf; omega

/-- The sub cells of the cells are sub cells the code can work with. -/
theorem hasSons_minusOne {dim : Int} {nbNodes : Nat} {c : Cell} (h : CellOk dim nbNodes c) (hd : dim ≤ 3) :
    ∃ sons, HasSons minusOneGen (dim - minusOneGen.delta) nbNodes c sons ∧ BoundaryOf c sons := by
  obtain ⟨cm, h1, rfl, h2⟩ := h
  have hd' : cm.dim ≤ 3 := by omega
  have fin : ∀ l : List (Int × List Int), cm.allSons c.nodes = .ok l →
      (∀ s ∈ l, FaceOk ((cm.dim : Int) - minusOneGen.delta) nbNodes ⟨s.1, s.2⟩ ∧ s.2.length ≤ c.nodes.length + 1) →
      ∃ sons, HasSons minusOneGen ((cm.dim : Int) - minusOneGen.delta) nbNodes c sons ∧ BoundaryOf c sons := by
    intro l hl hs
    refine ⟨l.map fun p => ⟨p.1, p.2⟩, ⟨⟨cm, _, h1, rfl, ?_⟩, ?_⟩, cm, h1, ?_⟩
    · rw [toCells]; exact hl
    · intro s hs'
      obtain ⟨p, hp, rfl⟩ := List.mem_map.mp hs'
      exact hs p hp
    · rw [toCells]; exact hl
  rcases h2 with ⟨hdyn, hlen, hn⟩ | ⟨ht, hc, hn⟩ | ⟨ht, fs, hne, hj, hf⟩
  · refine fin _ (allSons_static h1 hdyn hd' hlen) ?_
    intro s hs
    obtain ⟨p, hp, rfl⟩ := List.mem_map.mp hs
    obtain ⟨hm, -⟩ := getCellModel_mem h1
    obtain ⟨k1, k2, k3, cm', k4, k5, k6, k7⟩ := sons_table cm hm hdyn hd' p hp
    have hb : ∀ k ∈ p.2, k < c.nodes.length := by rw [hlen]; exact (table_wf cm hm hdyn hd').2.1 p hp
    have hpl : (pick c.nodes p.2).length = p.2.length := by simp [pick]
    refine ⟨⟨⟨cm', ?_, ?_, ?_⟩, ?_, pick_nodup hn.1 k1 hb, fun n hnn => hn.2 n (pick_mem hb hnn)⟩, ?_⟩
    · show getCellModel p.1 = _
      rw [← k5]; exact getCellModel_of_mem _ k4
    · show (cm'.dim : Int) = (cm.dim : Int) - 1
      omega
    · intro hq
      show (pick c.nodes p.2).length = _
      rw [hpl]; exact k7 hq
    · intro he
      apply k2
      rw [← List.length_eq_zero_iff, ← hpl]
      exact List.length_eq_zero_iff.mpr he
    · simp only
      rw [hpl, hlen]; exact k3
  · obtain ⟨q1, q2, q3⟩ := cellModel_polygons h1 ht
    have hk : nbCorners c.type c.nodes.length ≤ c.nodes.length := by
      rcases ht with e | e <;> rw [e]
      · exact le_refl _
      · exact Nat.div_le_self _ _
    refine fin _ (C47_edges_2D h1 q1 (fun hh => by rw [q2] at hh; cases hh)).1 ?_
    intro s hs
    obtain ⟨e, he, rfl⟩ := List.mem_map.mp hs
    obtain ⟨e1, e2, e3⟩ := edge_ok hn hc hk he
    have hlen : (segOf cm.quad e).2.length ≤ 3 ∧ FitsType ((cm.dim : Int) - 1) (segOf cm.quad e).1 (segOf cm.quad e).2.length := by
      rw [q1]
      rcases ht with ht | ht
      · have hq : cm.quad = false := by
          cases hb : cm.quad with
          | false => rfl
          | true => have := q3.mp hb; omega
        rw [hq]
        unfold segOf
        rw [e3 ht]
        exact ⟨by simp, cm_seg2, getCellModel_seg.1, by decide, fun _ => rfl⟩
      · have hq : cm.quad = true := q3.mpr ht
        rw [hq]
        unfold segOf
        obtain ⟨m, hm⟩ := Option.isSome_iff_exists.mp (e2 ht)
        rw [hm]
        exact ⟨by simp, cm_seg3, getCellModel_seg.2, by decide, fun _ => rfl⟩
    exact ⟨⟨hlen.2, by simp [segOf], e1.1, e1.2⟩, by have := hlen.1; omega⟩
  · have hcm : cm = cm_polyhed := by
      rw [ht] at h1
      have : getCellModel 31 = .ok cm_polyhed := by decide
      rw [this] at h1
      exact (Except.ok.inj h1).symm
    subst hcm
    have hm1 : ∀ f ∈ fs, (-1 : Int) ∉ f := fun f hf' hm => by have := (hf f hf').2.2 _ hm; omega
    refine fin _ (by rw [hj]; exact C47_polyhedron_sons fs hne hm1) ?_
    intro s hs
    obtain ⟨f, hf', rfl⟩ := List.mem_map.mp hs
    have := joinFaces_length hf'
    refine ⟨⟨⟨cm_polygon, show getCellModel 5 = _ by decide, by decide, fun hh => ?_⟩, (hf f hf').1, (hf f hf').2.1, (hf f hf').2.2⟩, by rw [hj]; simp only; omega⟩
    exact absurd hh (by decide)

theorem forall₂_of_forall {α β : Type} {R : α → β → Prop} {l : List α} (h : ∀ a ∈ l, ∃ b, R a b) : ∃ l', List.Forall₂ R l l' := by
  induction l with
  | nil => exact ⟨[], List.Forall₂.nil⟩
  | cons a l ih =>
    obtain ⟨l', hl⟩ := ih fun b hb => h b (by simp [hb])
    obtain ⟨b, hb⟩ := h a (by simp)
    exact ⟨b :: l', List.Forall₂.cons hb hl⟩

/-- C63: the descending connectivity of any mesh of any types.  The faces are the sub cells of the cells, each once, in the order of
their first appearance; `desc` gives, cell by cell and sub cell by sub cell, the face with the same nodes; `revDesc` gives for each face
the cells which have it, in increasing order. -/
theorem C63_descending {dim : Int} {nbNodes : Nat} {conn connI : List Int} {cells : List Cell} (h : IsMesh conn connI cells)
    (hd : 0 ≤ dim ∧ dim ≤ 3) (hc : ∀ c ∈ cells, CellOk dim nbNodes c) :
    ∃ (S : List (List Cell)) (r : Descending) (faces : List Cell) (D : List (List Int)), List.Forall₂ BoundaryOf cells S ∧
      buildDescendingConnectivity dim nbNodes conn connI = .ok r ∧
      IsMesh r.conn r.connI faces ∧ (StrictSorted r.types ∧ ∀ t, t ∈ r.types ↔ ∃ c ∈ faces, c.type = t) ∧
      IsDescending S faces D ∧ IsSky r.desc r.descIndx D ∧
      IsSky r.revDesc r.revDescIndx ((List.range faces.length).map fun f : Nat => ownersOf D (f : Int)) := by
  obtain ⟨S, hS⟩ := forall₂_of_forall fun c hcc => hasSons_minusOne (hc c hcc) hd.2
  have h1 : List.Forall₂ (HasSons minusOneGen (dim - minusOneGen.delta) nbNodes) cells S := hS.imp fun _ _ h => h.1
  have h2 : List.Forall₂ BoundaryOf cells S := hS.imp fun _ _ h => h.2
  obtain ⟨r, faces, D, V, e1, e2, e3, e4, e5, e6, -, e8⟩ := descending_spec (oriented := false) h
    (show -1 ≤ dim - 1 ∧ dim - 1 ≤ 3 by omega) h1 (fun hh => by cases hh)
  rw [e6 rfl] at e5
  exact ⟨S, r, faces, D, h2, e1, e2, e3, e4, e5, e8⟩

/-- C63: the two directions agree: a cell is given for a face as many times as the face is given for the cell. -/
theorem C63_mutual (D : List (List Int)) (f : Int) (i : Nat) :
    (ownersOf D f).count (i : Int) = ((D[i]?).getD []).count f ∧ (ownersOf D f).Pairwise (· ≤ ·) := by
  constructor
  · induction D using List.reverseRecOn with
    | nil => rfl
    | append_singleton D d ih =>
      have e1 : ownersOf (D ++ [d]) f = ownersOf D f ++ List.replicate (d.count f) (D.length : Int) := by
        unfold ownersOf
        rw [List.zipIdx_append, List.flatMap_append]
        simp
      rw [e1, List.count_append, ih, List.count_replicate]
      rcases Nat.lt_trichotomy i D.length with hlt | heq | hgt
      · rw [List.getElem?_append_left hlt, if_neg (by simp; omega), Nat.add_zero]
      · subst heq
        simp
      · rw [List.getElem?_eq_none (by omega), List.getElem?_eq_none (by simp; omega), if_neg (by simp; omega)]
        rfl
  · rw [ownersOf, List.flatMap_def, List.pairwise_flatten]
    constructor
    · intro l hl
      obtain ⟨p, -, rfl⟩ := List.mem_map.mp hl
      exact List.pairwise_replicate.mpr (Or.inr (le_refl _))
    · rw [List.pairwise_map, List.pairwise_iff_getElem]
      intro a b ha hb hab x hx y hy
      rw [List.getElem_zipIdx] at hx hy
      rw [List.mem_replicate] at hx hy
      rw [hx.2, hy.2]
      simp only
      omega

example : (∀ c ∈ ([⟨3, [0, 1, 2]⟩, ⟨4, [2, 1, 3, 4]⟩] : List Cell), CellOk 2 5 c) ∧
    IsMesh [3, 0, 1, 2, 4, 2, 1, 3, 4] [0, 4, 9] [⟨3, [0, 1, 2]⟩, ⟨4, [2, 1, 3, 4]⟩] ∧
    buildDescendingConnectivity 2 5 [3, 0, 1, 2, 4, 2, 1, 3, 4] [0, 4, 9] = .ok
      ⟨[1, 0, 1, 1, 1, 2, 1, 2, 0, 1, 1, 3, 1, 3, 4, 1, 4, 2], [0, 3, 6, 9, 12, 15, 18], [1], [0, 1, 2, 1, 3, 4, 5], [0, 3, 7],
        [0, 0, 1, 0, 1, 1, 1], [0, 1, 3, 4, 5, 6, 7]⟩ := by
  refine ⟨?_, by decide, by decide⟩
  intro c hc
  rcases List.mem_cons.mp hc with rfl | hc
  · exact ⟨cm_tri3, by decide, by decide, Or.inl ⟨by decide, by decide, by unfold NodesOk; decide⟩⟩
  · rw [List.mem_singleton] at hc
    subst hc
    exact ⟨cm_quad4, by decide, by decide, Or.inl ⟨by decide, by decide, by unfold NodesOk; decide⟩⟩

/-- C63, finding: the faces are compared as sets of nodes: two different quadrangles on the same four nodes (`0 1 2 3` and `0 2 1 3`)
are taken for one face. -/
theorem C63_sets_of_nodes :
    (buildDescendingConnectivity 3 6 [31, 0, 1, 2, 3, -1, 0, 1, 4, 31, 0, 2, 1, 3, -1, 0, 1, 5] [0, 9, 18]).toOption.map (fun r => (r.desc, r.conn)) =
      some ([0, 1, 0, 2], [5, 0, 1, 2, 3, 5, 0, 1, 4, 5, 0, 1, 5]) := by decide

/-- C63, finding: a quadrangle with a repeated node has an edge with a repeated node; this edge is found equal to itself, and the cell
is given twice for it, though it has it once. -/
theorem C63_degenerate :
    (buildDescendingConnectivity 2 3 [4, 0, 1, 2, 2] [0, 5]).toOption.map (fun r => (r.desc, r.revDesc, r.revDescIndx)) =
      some ([0, 1, 2, 3], [0, 0, 0, 0, 0], [0, 1, 2, 4, 5]) := by decide

/-! ## Orientation -/

/-- C64: the variant with orientation builds the same faces; the first cell which has a face gets its number plus one, any other one the
same or the opposite by the comparison of its own face with the one of the mesh of faces (see C49). -/
theorem C64_signed {dim : Int} {nbNodes : Nat} {conn connI : List Int} {cells : List Cell} (h : IsMesh conn connI cells)
    (hd : 0 ≤ dim ∧ dim ≤ 3) (hc : ∀ c ∈ cells, CellOk dim nbNodes c) :
    ∃ S : List (List Cell), List.Forall₂ BoundaryOf cells S ∧ (Comparable S →
      ∃ (r : Descending) (faces : List Cell) (D V : List (List Int)), 
      buildDescendingConnectivity2 dim nbNodes conn connI = .ok r ∧
      IsMesh r.conn r.connI faces ∧ (StrictSorted r.types ∧ ∀ t, t ∈ r.types ↔ ∃ c ∈ faces, c.type = t) ∧
      IsDescending S faces D ∧ IsSky r.desc r.descIndx V ∧ IsSigned S faces D V ∧
      IsSky r.revDesc r.revDescIndx ((List.range faces.length).map fun f : Nat => ownersOf D (f : Int))) := by
  obtain ⟨S, hS⟩ := forall₂_of_forall fun c hcc => hasSons_minusOne (hc c hcc) hd.2
  have h1 : List.Forall₂ (HasSons minusOneGen (dim - minusOneGen.delta) nbNodes) cells S := hS.imp fun _ _ h => h.1
  have h2 : List.Forall₂ BoundaryOf cells S := hS.imp fun _ _ h => h.2
  refine ⟨S, h2, fun hcmp => ?_⟩
  obtain ⟨r, faces, D, V, e1, e2, e3, e4, e5, -, e7, e8⟩ := descending_spec (oriented := true) h
    (show -1 ≤ dim - 1 ∧ dim - 1 ≤ 3 by omega) h1 (fun _ => hcmp)
  exact ⟨r, faces, D, V, e1, e2, e3, e4, e5, e7 rfl, e8⟩

theorem forall₂_flatten {α β : Type} {R : α → β → Prop} {S : List (List α)} {D : List (List β)} (h : List.Forall₂ (List.Forall₂ R) S D) :
    List.Forall₂ R S.flatten D.flatten := by
  induction h with
  | nil => exact List.Forall₂.nil
  | cons h1 _ ih => exact List.rel_append h1 ih

theorem forall₂_lengths {α β : Type} {R : α → β → Prop} {S : List (List α)} {D : List (List β)} (h : List.Forall₂ (List.Forall₂ R) S D) :
    D.map List.length = S.map List.length := by
  induction h with
  | nil => rfl
  | cons h1 _ ih => rw [List.map_cons, List.map_cons, ih, h1.length_eq]

theorem signed_rel {S : List (List Cell)} {faces : List Cell} {D V : List (List Int)} (hD : IsDescending S faces D) (hV : IsSigned S faces D V)
    (R : Cell → Int → Prop)
    (hR1 : ∀ s ∈ S.flatten, ∀ f : Nat, faces[f]? = some s → R s ((f : Int) + 1))
    (hR2 : ∀ s ∈ S.flatten, ∀ c ∈ S.flatten, ∀ (f : Nat) (cm : CellModel) (b : Bool), faces[f]? = some c → SameCell 3 s c →
      getCellModel s.type = .ok cm → cm.orientationStatus c.nodes s.nodes = .ok b → R s (if b then (f : Int) + 1 else -((f : Int) + 1))) :
    List.Forall₂ (List.Forall₂ R) S V := by
  have hl : V.map List.length = S.map List.length := by rw [hV.1, forall₂_lengths hD.faceOf]
  have hfl : V.flatten.length = S.flatten.length := by rw [List.length_flatten, List.length_flatten, hl]
  have hfD := forall₂_flatten hD.faceOf
  apply forall₂_unflatten hl
  rw [List.forall₂_iff_get]
  refine ⟨hfl.symm, fun i hi hi' => ?_⟩
  have hs : S.flatten[i]? = some S.flatten[i] := List.getElem?_eq_getElem hi
  have hsm := List.getElem_mem hi
  obtain ⟨f, c, k1, k2, k3⟩ := List.Forall₂.get hfD (i := i) hi (by rw [← hfD.length_eq]; exact hi)
  have hDi : D.flatten[i]? = some (f : Int) := by
    rw [List.getElem?_eq_getElem (by rw [← hfD.length_eq]; exact hi), ← k1]; rfl
  obtain ⟨i0, g1, g2, g3⟩ := hD.first f c k2
  rcases hV.2 i _ f c hs hDi k2 with ⟨m1, m2⟩ | ⟨m1, cm, b, m2, m3, m4⟩
  · have : i0 = i := by
      rcases Nat.lt_trichotomy i0 i with hlt | heq | hgt
      · exact absurd g2 (m1 i0 hlt)
      · exact heq
      · have := g3 i _ hgt hDi; omega
    subst this
    rw [hs] at g1
    have hcs := Option.some.inj g1
    have : V.flatten.get ⟨i0, hi'⟩ = (f : Int) + 1 := (List.getElem?_eq_some_iff.mp m2).2
    rw [this]
    exact hR1 _ hsm f (by rw [k2, hcs])
  · have : V.flatten.get ⟨i, hi'⟩ = if b then (f : Int) + 1 else -((f : Int) + 1) := (List.getElem?_eq_some_iff.mp m4).2
    rw [this]
    exact hR2 _ hsm c (List.mem_of_getElem? g1) f cm b k2 k3 m2 m3

theorem linear_edges {c : Cell} {sons : List Cell} (hb : BoundaryOf c sons) {nbNodes : Nat} (hc : CellOk 2 nbNodes c) (ht : c.type = 3 ∨ c.type = 4 ∨ c.type = 5) :
    ∀ s ∈ sons, ∃ a b, s = ⟨1, [a, b]⟩ ∧ a ≠ b := by
  obtain ⟨cm, h1, h2⟩ := hb
  obtain ⟨cm', h3, h4, h5⟩ := hc
  rw [h1] at h3
  cases h3
  obtain ⟨hm, hcode⟩ := getCellModel_mem h1
  have tab : ∀ cm ∈ cellModels, (cm.code = 3 ∨ cm.code = 4 ∨ cm.code = 5) → cm.quad = false ∧ (cm.code = 3 → cm.nbPts = 3) ∧ (cm.code = 4 → cm.nbPts = 4) := by decide
  obtain ⟨q1, q2, q3⟩ := tab cm hm (by rw [hcode]; exact ht)
  have hlen : cm.dyn = false → c.nodes.length = cm.nbPts := by
    intro hdyn
    rcases h5 with ⟨-, h, -⟩ | ⟨h, -, -⟩ | ⟨h, -⟩
    · exact h
    · have := (cellModel_polygons h1 h).2.1
      rw [hdyn] at this; cases this
    · omega
  have hnodes : NodesOk nbNodes c.nodes ∧ 2 ≤ nbCorners c.type c.nodes.length ∧ nbCorners c.type c.nodes.length = c.nodes.length := by
    rcases h5 with ⟨hdyn, h, hn⟩ | ⟨h, h2, hn⟩ | ⟨h, -⟩
    · rcases ht with e | e | e
      · have := q2 (by omega)
        rw [e, h, this]; exact ⟨hn, by decide, by decide⟩
      · have := q3 (by omega)
        rw [e, h, this]; exact ⟨hn, by decide, by decide⟩
      · have := (cellModel_polygons h1 (Or.inl e)).2.1
        rw [hdyn] at this; cases this
    · have e : c.type = 5 := by omega
      refine ⟨hn, h2, ?_⟩
      rw [e]; rfl
    · omega
  have := (C47_edges_2D h1 (by omega) hlen).1
  rw [this] at h2
  intro s hs
  have hs' : (s.type, s.nodes) ∈ sons.map fun s => (s.type, s.nodes) := List.mem_map.mpr ⟨s, hs, rfl⟩
  rw [← Except.ok.inj h2] at hs'
  obtain ⟨e, he, hes⟩ := List.mem_map.mp hs'
  have hnone : e.2.2 = none := by
    unfold edgesOf at he
    obtain ⟨i, hi, he⟩ := List.mem_filterMap.mp he
    rw [List.getElem?_eq_none (i := nbCorners c.type c.nodes.length + i) (by omega)] at he
    split at he
    · simp only [Option.some.injEq] at he
      rw [← he]
    · cases he
  have ok := (edge_ok hnodes.1 hnodes.2.1 (by omega) he).1.1
  rw [hnone] at ok
  unfold segOf at hes
  rw [q1, hnone] at hes
  obtain ⟨st, sn⟩ := s
  simp only [Prod.mk.injEq, Bool.false_eq_true, if_false] at hes
  refine ⟨e.1, e.2.1, by rw [← hes.1, ← hes.2]; rfl, ?_⟩
  intro hh
  simp [hh] at ok

/-- C64: in a 2D mesh of linear cells the sign tells whether the cell covers the edge in the direction it is stored in. -/
theorem C64_linear_2D {nbNodes : Nat} {conn connI : List Int} {cells : List Cell} (h : IsMesh conn connI cells)
    (hc : ∀ c ∈ cells, CellOk 2 nbNodes c ∧ (c.type = 3 ∨ c.type = 4 ∨ c.type = 5)) :
    ∃ (S : List (List Cell)) (r : Descending) (faces : List Cell) (D V : List (List Int)), List.Forall₂ BoundaryOf cells S ∧
      buildDescendingConnectivity2 2 nbNodes conn connI = .ok r ∧ IsMesh r.conn r.connI faces ∧ IsDescending S faces D ∧ IsSky r.desc r.descIndx V ∧
      List.Forall₂ (List.Forall₂ fun (s : Cell) (v : Int) => ∃ (f : Nat) (c : Cell), faces[f]? = some c ∧
        ((v = (f : Int) + 1 ∧ c.nodes = s.nodes) ∨ (v = -((f : Int) + 1) ∧ c.nodes = s.nodes.reverse))) S V := by
  obtain ⟨S, hS, hmain⟩ := C64_signed h (by omega) fun c hcc => (hc c hcc).1
  have hedge : ∀ s ∈ S.flatten, ∃ a b, s = ⟨1, [a, b]⟩ ∧ a ≠ b := by
    intro s hs
    obtain ⟨l, hl, hsl⟩ := List.mem_flatten.mp hs
    obtain ⟨k, hk, rfl⟩ := List.mem_iff_getElem.mp hl
    have hk' : k < cells.length := by rw [hS.length_eq]; exact hk
    exact linear_edges (List.Forall₂.get hS (i := k) hk' hk) (hc _ (List.getElem_mem hk')).1 (hc _ (List.getElem_mem hk')).2 s hsl
  have hpair : ∀ {a b a' b' : Int}, a ≠ b → a' ≠ b' → SameCell 3 ⟨1, [a, b]⟩ ⟨1, [a', b']⟩ → (a' = a ∧ b' = b) ∨ (a' = b ∧ b' = a) := by
    intro a b a' b' h1 h2 hs
    have := (hs.2.2.2 rfl).2
    simp only [List.mem_cons, List.not_mem_nil, or_false] at this
    have e1 := (this a').mpr (Or.inl rfl)
    have e2 := (this b').mpr (Or.inr rfl)
    rcases e1 with e1 | e1 <;> rcases e2 with e2 | e2
    · omega
    · exact Or.inl ⟨e1, e2⟩
    · exact Or.inr ⟨e1, e2⟩
    · omega
  have hcmp : Comparable S := by
    intro s hs c hcc hsame
    obtain ⟨a, b, rfl, hab⟩ := hedge s hs
    obtain ⟨a', b', rfl, hab'⟩ := hedge c hcc
    rcases hpair hab hab' hsame with ⟨rfl, rfl⟩ | ⟨rfl, rfl⟩
    · exact ⟨cm_seg2, true, getCellModel_seg.1, (C49_orientation_1D _ _ 0 hab).1⟩
    · exact ⟨cm_seg2, false, getCellModel_seg.1, (C49_orientation_1D _ _ 0 hab').2.1⟩
  obtain ⟨r, faces, D, V, e1, e2, -, e4, e5, e6, -⟩ := hmain hcmp
  refine ⟨S, r, faces, D, V, hS, e1, e2, e4, e5, signed_rel e4 e6 _ ?_ ?_⟩
  · intro s hs f hf
    exact ⟨f, s, hf, Or.inl ⟨rfl, rfl⟩⟩
  · intro s hs c hcc f cm b hf hsame hcm hb
    obtain ⟨a, b1, rfl, hab⟩ := hedge s hs
    obtain ⟨a', b', rfl, hab'⟩ := hedge c hcc
    simp only at hcm
    rw [getCellModel_seg.1] at hcm
    cases hcm
    refine ⟨f, _, hf, ?_⟩
    rcases hpair hab hab' hsame with ⟨rfl, rfl⟩ | ⟨rfl, rfl⟩
    · rw [(C49_orientation_1D _ _ 0 hab).1] at hb
      cases hb
      exact Or.inl ⟨rfl, rfl⟩
    · rw [(C49_orientation_1D _ _ 0 hab').2.1] at hb
      cases hb
      exact Or.inr ⟨rfl, rfl⟩

example : (∀ c ∈ ([⟨3, [0, 1, 2]⟩, ⟨4, [2, 1, 3, 4]⟩] : List Cell), c.type = 3 ∨ c.type = 4 ∨ c.type = 5) ∧
    (buildDescendingConnectivity2 2 5 [3, 0, 1, 2, 4, 2, 1, 3, 4] [0, 4, 9]).toOption.map Descending.desc = some [1, 2, 3, -2, 4, 5, 6] := by decide

theorem linear_faces {c : Cell} {sons : List Cell} (hb : BoundaryOf c sons) {nbNodes : Nat} (hc : CellOk 3 nbNodes c)
    (ht : c.type ∈ ([14, 15, 16, 18, 22, 31] : List Int)) : ∀ s ∈ sons, ∃ cm, getCellModel s.type = .ok cm ∧ cm.dim = 2 ∧ cm.quad = false := by
  obtain ⟨cm, h1, h2⟩ := hb
  obtain ⟨cm', h3, h4, h5⟩ := hc
  rw [h1] at h3
  cases h3
  obtain ⟨hm, hcode⟩ := getCellModel_mem h1
  intro s hs
  have hs' : (s.type, s.nodes) ∈ sons.map fun s => (s.type, s.nodes) := List.mem_map.mpr ⟨s, hs, rfl⟩
  rcases h5 with ⟨hdyn, hlen, -⟩ | ⟨h, -, -⟩ | ⟨h, fs, hne, hj, hf⟩
  · rw [allSons_static h1 hdyn (by omega) hlen] at h2
    rw [← Except.ok.inj h2] at hs'
    obtain ⟨e, he, hes⟩ := List.mem_map.mp hs'
    have tab : ∀ cm ∈ cellModels, cm.code ∈ ([14, 15, 16, 18, 22, 31] : List Int) → ∀ e ∈ cm.sons, ∃ cm' ∈ cellModels, cm'.code = e.1 ∧ cm'.dim = 2 ∧ cm'.quad = false := by
      decide
    obtain ⟨cm', k1, k2, k3, k4⟩ := tab cm hm (by rw [hcode]; exact ht) e he
    refine ⟨cm', ?_, k3, k4⟩
    have : s.type = cm'.code := by rw [k2]; exact (congrArg Prod.fst hes).symm
    rw [this]
    exact getCellModel_of_mem _ k1
  · rcases h with e | e <;> rw [e] at ht <;> exact absurd ht (by decide)
  · have hcm : cm = cm_polyhed := by
      rw [h] at h1
      have : getCellModel 31 = .ok cm_polyhed := by decide
      rw [this] at h1
      exact (Except.ok.inj h1).symm
    subst hcm
    rw [hj, C47_polyhedron_sons fs hne fun f hf' hm => by have := (hf f hf').2.2 _ hm; omega] at h2
    rw [← Except.ok.inj h2] at hs'
    obtain ⟨f, -, hes⟩ := List.mem_map.mp hs'
    have : s.type = 5 := (congrArg Prod.fst hes).symm
    rw [this]
    exact ⟨cm_polygon, by decide, by decide, by decide⟩

/-- C64: in a 3D mesh of linear cells whose faces with the same nodes are the same polygon, the sign tells whether the cell sees the nodes
of the face in the cyclic order they are stored in, or in the opposite one. -/
theorem C64_linear_3D {nbNodes : Nat} {conn connI : List Int} {cells : List Cell} (h : IsMesh conn connI cells)
    (hc : ∀ c ∈ cells, CellOk 3 nbNodes c ∧ c.type ∈ ([14, 15, 16, 18, 22, 31] : List Int)) :
    ∃ S : List (List Cell), List.Forall₂ BoundaryOf cells S ∧
      ((∀ s ∈ S.flatten, ∀ c ∈ S.flatten, SameCell 3 s c → c.nodes.IsRotated s.nodes ∨ c.nodes.reverse.IsRotated s.nodes) →
      ∃ (r : Descending) (faces : List Cell) (D V : List (List Int)),
      buildDescendingConnectivity2 3 nbNodes conn connI = .ok r ∧ IsMesh r.conn r.connI faces ∧ IsDescending S faces D ∧ IsSky r.desc r.descIndx V ∧
      List.Forall₂ (List.Forall₂ fun (s : Cell) (v : Int) => ∃ (f : Nat) (c : Cell), faces[f]? = some c ∧
        ((v = (f : Int) + 1 ∧ c.nodes.IsRotated s.nodes) ∨ (v = -((f : Int) + 1) ∧ ¬ c.nodes.IsRotated s.nodes ∧ c.nodes.reverse.IsRotated s.nodes))) S V) := by
  obtain ⟨S, hS, hmain⟩ := C64_signed h (by omega) fun c hcc => (hc c hcc).1
  have hface : ∀ s ∈ S.flatten, ∃ cm, getCellModel s.type = .ok cm ∧ cm.dim = 2 ∧ cm.quad = false := by
    intro s hs
    obtain ⟨l, hl, hsl⟩ := List.mem_flatten.mp hs
    obtain ⟨k, hk, rfl⟩ := List.mem_iff_getElem.mp hl
    have hk' : k < cells.length := by rw [hS.length_eq]; exact hk
    exact linear_faces (List.Forall₂.get hS (i := k) hk' hk) (hc _ (List.getElem_mem hk')).1 (hc _ (List.getElem_mem hk')).2 s hsl
  refine ⟨S, hS, fun hconf => ?_⟩
  have hcmp : Comparable S := by
    intro s hs c hcc hsame
    obtain ⟨cm, h1, h2, h3⟩ := hface s hs
    have hl := ((hsame.2.2.2 rfl).1)
    by_cases hr : c.nodes.IsRotated s.nodes
    · exact ⟨cm, true, h1, (C49_orientation_2D h2 h3 hl).1.mpr hr⟩
    · have := (hconf s hs c hcc hsame).resolve_left hr
      exact ⟨cm, false, h1, (C49_orientation_2D h2 h3 hl).2.1.mpr ⟨hr, this⟩⟩
  obtain ⟨r, faces, D, V, e1, e2, -, e4, e5, e6, -⟩ := hmain hcmp
  refine ⟨r, faces, D, V, e1, e2, e4, e5, signed_rel e4 e6 _ ?_ ?_⟩
  · intro s hs f hf
    exact ⟨f, s, hf, Or.inl ⟨rfl, List.IsRotated.refl _⟩⟩
  · intro s hs c hcc f cm b hf hsame hcm hb
    obtain ⟨cm', h1, h2, h3⟩ := hface s hs
    rw [hcm] at h1
    cases h1
    have hl := ((hsame.2.2.2 rfl).1)
    have hor := C49_orientation_2D h2 h3 hl
    refine ⟨f, c, hf, ?_⟩
    cases b with
    | true => exact Or.inl ⟨rfl, hor.1.mp hb⟩
    | false => exact Or.inr ⟨rfl, hor.2.1.mp hb⟩

example : (∀ c ∈ ([⟨14, [0, 1, 2, 3]⟩, ⟨14, [0, 2, 1, 4]⟩] : List Cell), c.type ∈ ([14, 15, 16, 18, 22, 31] : List Int)) ∧
    (buildDescendingConnectivity2 3 5 [14, 0, 1, 2, 3, 14, 0, 2, 1, 4] [0, 5, 10]).toOption.map Descending.desc = some [1, 2, 3, 4, -1, 5, 6, 7] := by decide

/-- C64, finding: on quadratic cells a face seen twice in the same direction gets the opposite number the second time, as if it
were seen in the other direction: two cells listed twice with the same nodes have all their faces with opposite signs. -/
theorem C64_quadratic_signs :
    (buildDescendingConnectivity2 3 10 [20, 0, 1, 2, 3, 4, 5, 6, 7, 8, 9, 20, 0, 1, 2, 3, 4, 5, 6, 7, 8, 9] [0, 11, 22]).toOption.map Descending.desc =
      some [1, 2, 3, 4, -1, -2, -3, -4] := by decide

/-! ## Edges of the cells of a 3D mesh -/

/-- Two pairs of nodes are the same edge. -/
def SameEdge (p q : Int × Int) : Prop := p = q ∨ p = (q.2, q.1)

theorem sameEdge_iff (p q : Int × Int) : (min p.1 p.2 = min q.1 q.2 ∧ max p.1 p.2 = max q.1 q.2) ↔ SameEdge p q := by
  obtain ⟨a, b⟩ := p
  obtain ⟨c, d⟩ := q
  unfold SameEdge
  simp only [Prod.mk.injEq]
  omega

/-- `E` lists the edges of the faces `fs`, each once whatever its direction, in the order of their first appearance. -/
structure EdgesOnce (all E : List (Int × Int)) : Prop where
  sub : E.Sublist all
  distinct : E.Pairwise fun p q => ¬ SameEdge p q
  complete : ∀ p ∈ all, ∃ q ∈ E, SameEdge q p

theorem insertPair_spec {all E : List (Int × Int)} (h : EdgesOnce all E) (p : Int × Int) : EdgesOnce (all ++ [p]) (insertPair E p) := by
  unfold insertPair
  by_cases hx : E.any fun q => decide (min q.1 q.2 = min p.1 p.2 ∧ max q.1 q.2 = max p.1 p.2)
  · rw [if_pos hx]
    rw [List.any_eq_true] at hx
    obtain ⟨q, hq, hqp⟩ := hx
    have hqp := (sameEdge_iff q p).mp (by simpa using hqp)
    refine ⟨h.sub.trans (List.sublist_append_left _ _), h.distinct, ?_⟩
    intro p' hp'
    rcases List.mem_append.mp hp' with hp' | hp'
    · exact h.complete p' hp'
    · rw [List.mem_singleton] at hp'
      subst hp'
      exact ⟨q, hq, hqp⟩
  · rw [if_neg hx]
    have hno : ∀ q ∈ E, ¬ SameEdge q p := by
      intro q hq hs
      apply hx
      rw [List.any_eq_true]
      exact ⟨q, hq, by simpa using (sameEdge_iff q p).mpr hs⟩
    refine ⟨h.sub.append (List.Sublist.refl _), ?_, ?_⟩
    · rw [List.pairwise_append]
      refine ⟨h.distinct, List.pairwise_singleton _ _, fun q hq p' hp' => ?_⟩
      rw [List.mem_singleton] at hp'
      subst hp'
      exact hno q hq
    · intro p' hp'
      rcases List.mem_append.mp hp' with hp' | hp'
      · obtain ⟨q, hq, hs⟩ := h.complete p' hp'
        exact ⟨q, List.mem_append_left _ hq, hs⟩
      · rw [List.mem_singleton] at hp'
        subst hp'
        exact ⟨p', List.mem_append_right _ (List.mem_singleton.mpr rfl), Or.inl rfl⟩

theorem insertPairs_spec {all E : List (Int × Int)} (h : EdgesOnce all E) (l : List (Int × Int)) : EdgesOnce (all ++ l) (l.foldl insertPair E) := by
  induction l generalizing all E with
  | nil => simpa using h
  | cons p l ih =>
    have := ih (insertPair_spec h p)
    rw [List.append_assoc] at this
    exact this

/-- The edges of a polyhedron given by its faces. -/
theorem edgesOfPolyhedron_spec (fs : List (List Int)) (hm : ∀ f ∈ fs, (-1 : Int) ∉ f ∧ f ≠ []) {all E : List (Int × Int)} (h : EdgesOnce all E) (fuel : Nat)
    (hfuel : fs.length < fuel) : ∃ E', edgesOfPolyhedron fuel (joinFaces fs) E = .ok E' ∧ EdgesOnce (all ++ fs.flatMap ringPairs) E' := by
  induction fs generalizing fuel all E with
  | nil =>
    cases fuel with
    | zero => omega
    | succ fuel => exact ⟨E, by simp [edgesOfPolyhedron, joinFaces], by simpa using h⟩
  | cons f fs ih =>
    cases fuel with
    | zero => omega
    | succ fuel =>
      rw [List.length_cons] at hfuel
      obtain ⟨hf1, hf2⟩ := hm f (by simp)
      have htake : ∀ rest, (∀ x ∈ rest.head?, x = (-1 : Int)) → (f ++ rest).takeWhile (· ≠ -1) = f ∧ (f ++ rest).dropWhile (· ≠ -1) = rest := by
        intro rest hr
        have hall : ∀ x ∈ f, (decide (x ≠ -1)) = true := fun x hx => by
          simpa using fun e : x = -1 => hf1 (e ▸ hx)
        constructor
        · rw [List.takeWhile_append_of_pos hall]
          cases rest with
          | nil => simp
          | cons y rest =>
            have := hr y rfl
            subst this
            simp
        · rw [List.dropWhile_append_of_pos hall]
          cases rest with
          | nil => simp
          | cons y rest =>
            have := hr y rfl
            subst this
            simp
      have hne : joinFaces (f :: fs) ≠ [] := by
        cases fs with
        | nil => exact hf2
        | cons g fs => rw [joinFaces]; simp
      have hstep : (joinFaces (f :: fs)).takeWhile (· ≠ -1) = f ∧ ((joinFaces (f :: fs)).dropWhile (· ≠ -1)).drop 1 = joinFaces fs := by
        cases fs with
        | nil =>
          have := htake [] (by simp)
          rw [List.append_nil] at this
          show f.takeWhile _ = f ∧ (f.dropWhile _).drop 1 = []
          rw [this.1, this.2]
          exact ⟨rfl, rfl⟩
        | cons g fs =>
          have := htake (-1 :: joinFaces (g :: fs)) (by simp)
          rw [joinFaces, this.1, this.2]
          exact ⟨rfl, rfl⟩
      obtain ⟨E', e1, e2⟩ := ih (fun g hg => hm g (by simp [hg])) (insertPairs_spec h (ringPairs f)) fuel (by omega)
      refine ⟨E', ?_, ?_⟩
      · rw [edgesOfPolyhedron, if_neg hne]
        simp only
        rw [hstep.1, hstep.2]
        exact e1
      · rw [List.flatMap_cons, ← List.append_assoc]
        exact e2

theorem ringPairs_ok {nbNodes : Nat} {f : List Int} (hf : NodesOk nbNodes f) (h2 : 2 ≤ f.length) {p : Int × Int} (hp : p ∈ ringPairs f) :
    NodesOk nbNodes [p.1, p.2] := by
  unfold ringPairs at hp
  obtain ⟨i, hi, rfl⟩ := List.mem_iff_getElem.mp hp
  rw [List.length_zip, List.length_rotate] at hi
  have hi' : i < f.length := by omega
  rw [List.getElem_zip]
  simp only
  rw [List.getElem_rotate]
  have hne : i ≠ (i + 1) % f.length := by
    rcases Nat.lt_or_ge (i + 1) f.length with hlt | hge
    · rw [Nat.mod_eq_of_lt hlt]; omega
    · have : i + 1 = f.length := by omega
      rw [this, Nat.mod_self]; omega
  refine ⟨?_, ?_⟩
  · simp only [List.nodup_cons, List.mem_cons, List.not_mem_nil, or_false, not_false_eq_true, List.nodup_nil, and_true]
    exact fun h => hne ((List.Nodup.getElem_inj_iff hf.1).mp h)
  · intro n hn
    simp only [List.mem_cons, List.not_mem_nil, or_false] at hn
    rcases hn with rfl | rfl <;> exact hf.2 _ (List.getElem_mem _)

theorem mapM_range_get {τ : Type} {n : Nat} {f : Nat → M τ} {l : List τ} (h : (List.range n).mapM f = .ok l) {i : Nat} (hi : i < n) (hl : i < l.length) :
    f i = .ok l[i] := by
  induction n generalizing l with
  | zero => omega
  | succ n ih =>
    rw [List.range_succ, List.mapM_append] at h
    cases h1 : (List.range n).mapM f with
    | error e => rw [h1] at h; cases h
    | ok l1 =>
      rw [h1, ok_bind, List.mapM_cons, List.mapM_nil] at h
      have hl1 := mapM_length h1
      rw [List.length_range] at hl1
      cases h2 : f n with
      | error e => rw [h2] at h; cases h
      | ok x =>
        rw [h2] at h
        simp only [ok_bind] at h
        cases h
        by_cases hin : i < n
        · rw [ih h1 hin (by omega), List.getElem_append_left (by omega)]
        · have : i = n := by omega
          subst this
          rw [h2]
          simp [← hl1]

/-- The edges of a 3D cell: for a type with a fixed number of nodes the edges of its faces with their middle nodes, each once (the condition
says it with both directions of every edge, see C47); for a polyhedron the sides of its faces, each once, in order. -/
def EdgesOf3D (c : Cell) (edges : List Cell) : Prop :=
  (∃ cm sons, getCellModel c.type = .ok cm ∧ cm.dyn = false ∧ cm.allSons c.nodes = .ok sons ∧ (∀ e ∈ edges, e.type = if cm.quad then 2 else 1) ∧
    (surfaceEdges sons).Perm (edges.flatMap fun e => bothWays e.nodes)) ∨
  (c.type = 31 ∧ ∃ fs E, fs ≠ [] ∧ (∀ f ∈ fs, (-1 : Int) ∉ f ∧ f ≠ []) ∧ c.nodes = joinFaces fs ∧ EdgesOnce (fs.flatMap ringPairs) E ∧ edges = E.map fun p => ⟨1, [p.1, p.2]⟩)

/-- A 3D cell the edges of which can be computed: not a `HEXA27`, and no polyhedron with a face of one node. -/
def CellOk3D (nbNodes : Nat) (c : Cell) : Prop :=
  ∃ cm, getCellModel c.type = .ok cm ∧ cm.dim = 3 ∧
    ((cm.dyn = false ∧ c.type ≠ 27 ∧ c.nodes.length = cm.nbPts ∧ NodesOk nbNodes c.nodes) ∨
     (c.type = 31 ∧ ∃ fs : List (List Int), fs ≠ [] ∧ c.nodes = joinFaces fs ∧ ∀ f ∈ fs, 2 ≤ f.length ∧ NodesOk nbNodes f))

theorem joinFaces_faces {fs : List (List Int)} (h : ∀ f ∈ fs, f ≠ []) : fs.length ≤ (joinFaces fs).length := by
  induction fs with
  | nil => simp
  | cons f fs ih =>
    have hf := List.length_pos_of_ne_nil (h f (by simp))
    cases fs with
    | nil => show 1 ≤ f.length; omega
    | cons g fs =>
      have := ih fun f' hf' => h f' (by simp [hf'])
      rw [joinFaces, List.length_append, List.length_cons, List.length_cons]
      rw [List.length_cons] at this ⊢
      omega

theorem hasSons_minusTwo {nbNodes : Nat} {c : Cell} (h : CellOk3D nbNodes c) :
    ∃ edges, HasSons minusTwoGen (3 - minusTwoGen.delta) nbNodes c edges ∧ EdgesOf3D c edges := by
  obtain ⟨cm, h1, h3, h2⟩ := h
  obtain ⟨hm, hcode⟩ := getCellModel_mem h1
  rcases h2 with ⟨hdyn, ht, hlen, hn⟩ | ⟨ht, fs, hne, hj, hf⟩
  · obtain ⟨n, sons, edges, e1, e2, e3, e4, e5⟩ := C47_edges h1 hdyn h3 ht hlen
    have hne31 : cm.code ≠ 31 := by
      intro he
      have : ∀ cm ∈ cellModels, cm.code = 31 → cm.dyn = true := by decide
      rw [this cm hm he] at hdyn; cases hdyn
    have tab : ∀ cm ∈ cellModels, cm.dyn = false → cm.dim = 3 → cm.code ≠ 27 → ∃ es, cm.edges = some es ∧ (∀ e ∈ es, e.Nodup ∧ e ≠ []) ∧ 3 ≤ cm.nbPts := by
      have : ∀ cm ∈ cellModels, cm.dyn = false → cm.dim = 3 → cm.code ≠ 27 → cm.edges ≠ none ∧ (∀ e ∈ cm.edges.getD [], e.Nodup ∧ e ≠ []) ∧ 3 ≤ cm.nbPts := by decide
      intro cm hm hd h3 h27
      obtain ⟨k1, k2, k3⟩ := this cm hm hd h3 h27
      cases he : cm.edges with
      | none => exact absurd he k1
      | some es => rw [he] at k2; exact ⟨es, rfl, k2, k3⟩
    obtain ⟨es, t1, t2, t3⟩ := tab cm hm hdyn h3 (by rw [hcode]; exact ht)
    have t4 := (table_wf cm hm hdyn (by omega)).2.2 es t1
    have hnb : n = es.length := by
      unfold CellModel.numberOfEdges at e1
      rw [hdyn, h3, t1] at e1
      simpa using e1.symm
    have hedge : ∀ e ∈ edges, ∃ ks ∈ es, e.2 = pick c.nodes ks := by
      intro e he
      obtain ⟨i, hi, rfl⟩ := List.mem_iff_getElem.mp he
      have hl := mapM_length e3
      rw [List.length_range] at hl
      have hie : i < es.length := by omega
      have hval : cm.edge3D i c.nodes = .ok edges[i] := by
        exact mapM_range_get e3 (by omega) hi
      refine ⟨es[i], List.getElem_mem _, ?_⟩
      have htk : (es[i]).take (if cm.quad then 3 else 2) = es[i] := by
        rw [← (t4 _ (List.getElem_mem hie)).1, List.take_length]
      have hpick : (es[i]).mapM (fun k : Nat => rd c.nodes (k : Int)) = (.ok (pick c.nodes (es[i]'hie)) : M (List Int)) := by
        unfold pick
        apply mapM_ok_map
        intro k hk
        have hk' : k < c.nodes.length := by rw [hlen]; exact (t4 _ (List.getElem_mem hie)).2 k hk
        rw [rd_natCast hk', getElem!_pos c.nodes k hk']
      unfold CellModel.edge3D at hval
      rw [hdyn, t1] at hval
      simp only [Bool.not_false, if_true] at hval
      rw [List.getElem?_eq_getElem hie] at hval
      simp only at hval
      rw [htk, hpick, ok_bind] at hval
      rw [← Except.ok.inj hval]
    refine ⟨edges.map fun p => ⟨p.1, p.2⟩, ⟨⟨cm, n, h1, ?_, ?_⟩, ?_⟩, Or.inl ⟨cm, sons, h1, hdyn, e2, ?_, ?_⟩⟩
    · show (if cm.code = 31 then _ else _) = _
      rw [if_neg hne31, hdyn, t1, hnb]
      rfl
    · rw [toCells, ← e3]
      congr 1
      funext i
      show (if cm.code = 31 then _ else _) = _
      rw [if_neg hne31]
    · intro s hs
      obtain ⟨p, hp, rfl⟩ := List.mem_map.mp hs
      obtain ⟨ks, hks, hpk⟩ := hedge p hp
      have hb : ∀ k ∈ ks, k < c.nodes.length := by rw [hlen]; exact (t4 _ hks).2
      have hkl : p.2.length = if cm.quad then 3 else 2 := by rw [hpk]; simp only [pick, List.length_map]; exact (t4 _ hks).1
      refine ⟨⟨?_, ?_, ?_, ?_⟩, ?_⟩
      · show FitsType 1 p.1 p.2.length
        rw [hkl, e4 p hp]
        cases cm.quad
        · exact ⟨cm_seg2, getCellModel_seg.1, by decide, fun _ => rfl⟩
        · exact ⟨cm_seg3, getCellModel_seg.2, by decide, fun _ => rfl⟩
      · intro he
        have : p.2.length = 0 := List.length_eq_zero_iff.mpr he
        split at hkl <;> omega
      · show p.2.Nodup
        rw [hpk]; exact pick_nodup hn.1 (t2 _ hks).1 hb
      · intro n hnn
        have hnn : n ∈ p.2 := hnn
        rw [hpk] at hnn
        exact hn.2 n (pick_mem hb hnn)
      · show p.2.length ≤ _
        rw [hkl, hlen]
        split <;> omega
    · intro e he
      obtain ⟨p, hp, rfl⟩ := List.mem_map.mp he
      exact e4 p hp
    · rw [List.flatMap_map]
      exact e5
  · have hfm : ∀ f ∈ fs, (-1 : Int) ∉ f ∧ f ≠ [] := by
      intro f hf'
      refine ⟨fun hm => ?_, fun he => ?_⟩
      · have := (hf f hf').2.2 _ hm; omega
      · have := (hf f hf').1; rw [he] at this; simp at this
    have hcode31 : cm.code = 31 := by rw [hcode, ht]
    obtain ⟨E, a1, a2⟩ := edgesOfPolyhedron_spec fs hfm (all := []) (E := []) ⟨List.Sublist.refl _, List.Pairwise.nil, by simp⟩ ((joinFaces fs).length + 1)
      (by have := joinFaces_faces fun f hf' => (hfm f hf').2; omega)
    rw [List.nil_append] at a2
    have hlen2 : 2 ≤ c.nodes.length := by
      obtain ⟨f, hf'⟩ := List.exists_mem_of_ne_nil _ hne
      have := joinFaces_length hf'
      have := (hf f hf').1
      rw [hj]; omega
    refine ⟨E.map fun p => ⟨1, [p.1, p.2]⟩, ⟨⟨cm, E.length, h1, ?_, ?_⟩, ?_⟩, Or.inr ⟨ht, fs, E, hne, hfm, hj, a2, rfl⟩⟩
    · show (if cm.code = 31 then _ else _) = _
      rw [if_pos hcode31, hj, a1, ok_bind]
    · have : ∀ i ∈ List.range E.length, minusTwoGen.son cm i c.nodes = .ok (1, [(E[i]!).1, (E[i]!).2]) := by
        intro i hi
        have hi' := List.mem_range.mp hi
        show (if cm.code = 31 then _ else _) = _
        rw [if_pos hcode31, hj, a1, ok_bind, rd_natCast hi', ok_bind, getElem!_pos E i hi']
      rw [mapM_ok_map this]
      congr 1
      apply List.ext_getElem (by simp)
      intro i h1 h2
      have : i < E.length := by simpa using h1
      simp [this]
    · intro s hs
      obtain ⟨p, hp, rfl⟩ := List.mem_map.mp hs
      obtain ⟨f, hf', hpf⟩ := List.mem_flatMap.mp (a2.sub.mem hp)
      have ok := ringPairs_ok (hf f hf').2 (hf f hf').1 hpf
      exact ⟨⟨⟨cm_seg2, getCellModel_seg.1, by decide, fun _ => rfl⟩, by simp, ok.1, ok.2⟩, by simp only [List.length_cons, List.length_nil]; omega⟩

/-- C65: `explode3DMeshTo1D` gives the edges of all the cells, each once, with both correspondences. -/
theorem C65_edges_3D {nbNodes : Nat} {conn connI : List Int} {cells : List Cell} (h : IsMesh conn connI cells) (hc : ∀ c ∈ cells, CellOk3D nbNodes c) :
    ∃ (S : List (List Cell)) (r : Descending) (edges : List Cell) (D : List (List Int)), List.Forall₂ EdgesOf3D cells S ∧
      explode3DMeshTo1D 3 nbNodes conn connI = .ok r ∧ IsMesh r.conn r.connI edges ∧ IsDescending S edges D ∧ IsSky r.desc r.descIndx D ∧
      IsSky r.revDesc r.revDescIndx ((List.range edges.length).map fun f : Nat => ownersOf D (f : Int)) := by
  obtain ⟨S, hS⟩ := forall₂_of_forall fun c hcc => hasSons_minusTwo (hc c hcc)
  have h1 : List.Forall₂ (HasSons minusTwoGen (3 - minusTwoGen.delta) nbNodes) cells S := hS.imp fun _ _ h => h.1
  have h2 : List.Forall₂ EdgesOf3D cells S := hS.imp fun _ _ h => h.2
  obtain ⟨r, faces, D, V, e1, e2, -, e4, e5, e6, -, e8⟩ := descending_spec (oriented := false) h (by decide) h1 (fun hh => by cases hh)
  rw [e6 rfl] at e5
  exact ⟨S, r, faces, D, h2, e1, e2, e4, e5, e8⟩

/-- C65: any other dimension is refused. -/
theorem C65_dimension (dim : Int) (hd : dim ≠ 3) (nbNodes : Nat) (conn connI : List Int) : explode3DMeshTo1D dim nbNodes conn connI = .error .exn := by
  unfold explode3DMeshTo1D
  rw [if_pos hd]
  rfl

example : (∀ c ∈ ([⟨14, [0, 1, 2, 3]⟩, ⟨31, [0, 1, 2, -1, 0, 4, 1, -1, 1, 4, 2, -1, 2, 4, 0]⟩] : List Cell), CellOk3D 5 c) ∧
    (explode3DMeshTo1D 3 5 [14, 0, 1, 2, 3, 31, 0, 1, 2, -1, 0, 4, 1, -1, 1, 4, 2, -1, 2, 4, 0] [0, 5, 21]).toOption.map (fun r => (r.desc, r.descIndx)) =
      some ([0, 1, 2, 3, 4, 5, 0, 1, 2, 6, 7, 8], [0, 6, 12]) := by
  refine ⟨?_, by decide⟩
  intro c hc
  rcases List.mem_cons.mp hc with rfl | hc
  · exact ⟨cm_tetra4, by decide, by decide, Or.inl ⟨by decide, by decide, by decide, by unfold NodesOk; decide⟩⟩
  · rw [List.mem_singleton] at hc
    subst hc
    exact ⟨cm_polyhed, by decide, by decide, Or.inr ⟨by decide, [[0, 1, 2], [0, 4, 1], [1, 4, 2], [2, 4, 0]], by decide, by decide, by unfold NodesOk; decide⟩⟩

/-! ## Micro edges -/

/-- The micro edges of an edge: itself, or its two halves when it has a middle node. -/
def microOf (e : Int × Int × Option Int) : List (Int × List Int) :=
  match e.2.2 with
  | none => [(1, [e.1, e.2.1])]
  | some m => [(1, [e.1, m]), (1, [m, e.2.1])]

/-- The cells a 2D mesh may hold: no polygon. -/
def CellOkMicro (nbNodes : Nat) (c : Cell) : Prop :=
  ∃ cm, getCellModel c.type = .ok cm ∧ cm.dim = 2 ∧ cm.dyn = false ∧ c.nodes.length = cm.nbPts ∧ NodesOk nbNodes c.nodes

theorem micro_static {t : Int} {cm : CellModel} (h : getCellModel t = .ok cm) (h2 : cm.dim = 2) (hdyn : cm.dyn = false) {conn : List Int}
    (hl : conn.length = cm.nbPts) :
    ∃ n, cm.numberOfMicroEdges = .ok n ∧ (List.range n).mapM (fun i => cm.microEdge i conn) = .ok ((edgesOf t conn).flatMap microOf) ∧
      2 ≤ nbCorners t conn.length ∧ nbCorners t conn.length ≤ conn.length := by
  obtain ⟨hm, hc⟩ := getCellModel_mem h
  have tab : ∀ cm ∈ cellModels, cm.dim = 2 → cm.dyn = false → cm = cm_tri3 ∨ cm = cm_quad4 ∨ cm = cm_tri6 ∨ cm = cm_tri7 ∨ cm = cm_quad8 ∨ cm = cm_quad9 := by
    decide
  subst hc
  rcases tab cm hm h2 hdyn with rfl | rfl | rfl | rfl | rfl | rfl
  · match conn, hl with
    | [a, b, c], _ => exact ⟨3, rfl, by with_unfolding_all rfl, Nat.le_of_ble_eq_true rfl, Nat.le_of_ble_eq_true rfl⟩
  · match conn, hl with
    | [a, b, c, d], _ => exact ⟨4, rfl, by with_unfolding_all rfl, Nat.le_of_ble_eq_true rfl, Nat.le_of_ble_eq_true rfl⟩
  · match conn, hl with
    | [a, b, c, d, e, f], _ => exact ⟨6, rfl, by with_unfolding_all rfl, Nat.le_of_ble_eq_true rfl, Nat.le_of_ble_eq_true rfl⟩
  · match conn, hl with
    | [a, b, c, d, e, f, g], _ => exact ⟨6, rfl, by with_unfolding_all rfl, Nat.le_of_ble_eq_true rfl, Nat.le_of_ble_eq_true rfl⟩
  · match conn, hl with
    | [a, b, c, d, e, f, g, i], _ => exact ⟨8, rfl, by with_unfolding_all rfl, Nat.le_of_ble_eq_true rfl, Nat.le_of_ble_eq_true rfl⟩
  · match conn, hl with
    | [a, b, c, d, e, f, g, i, j], _ => exact ⟨8, rfl, by with_unfolding_all rfl, Nat.le_of_ble_eq_true rfl, Nat.le_of_ble_eq_true rfl⟩

theorem hasSons_micro {nbNodes : Nat} {c : Cell} (h : CellOkMicro nbNodes c) :
    ∃ edges, HasSons microEdgesGen2D (2 - microEdgesGen2D.delta) nbNodes c edges ∧
      edges.map (fun s => (s.type, s.nodes)) = (edgesOf c.type c.nodes).flatMap microOf := by
  obtain ⟨cm, h1, h2, hdyn, hlen, hn⟩ := h
  obtain ⟨n, e1, e2, e3, e4⟩ := micro_static h1 h2 hdyn hlen
  refine ⟨((edgesOf c.type c.nodes).flatMap microOf).map fun p => ⟨p.1, p.2⟩, ⟨⟨cm, n, h1, e1, ?_⟩, ?_⟩, toCells _⟩
  · rw [toCells]; exact e2
  · intro s hs
    obtain ⟨p, hp, rfl⟩ := List.mem_map.mp hs
    obtain ⟨e, he, hpe⟩ := List.mem_flatMap.mp hp
    obtain ⟨ok, -⟩ := edge_ok hn e3 e4 he
    obtain ⟨a, b, o⟩ := e
    have fin : ∀ x y : Int, x ≠ y → x ∈ (a :: b :: o.toList) → y ∈ (a :: b :: o.toList) →
        FaceOk (2 - microEdgesGen2D.delta) nbNodes ⟨1, [x, y]⟩ ∧ [x, y].length ≤ c.nodes.length + 1 := by
      intro x y hxy hx hy
      refine ⟨⟨⟨cm_seg2, getCellModel_seg.1, by decide, fun _ => rfl⟩, by simp, by simpa using hxy, ?_⟩, by simp only [List.length_cons, List.length_nil]; omega⟩
      intro z hz
      simp only [List.mem_cons, List.not_mem_nil, or_false] at hz
      rcases hz with rfl | rfl
      · exact ok.2 _ hx
      · exact ok.2 _ hy
    have hd := ok.1
    unfold microOf at hpe
    cases o with
    | none =>
      simp only [List.mem_singleton] at hpe
      subst hpe
      refine fin a b ?_ (by simp) (by simp)
      intro hh; simp [hh] at hd
    | some m =>
      simp only [List.mem_cons, List.not_mem_nil, or_false] at hpe
      rcases hpe with rfl | rfl
      · refine fin a m ?_ (by simp) (by simp)
        intro hh; simp [hh] at hd
      · refine fin m b ?_ (by simp) (by simp)
        intro hh; simp [hh] at hd

/-- C65: `explodeMeshIntoMicroEdges` on a 2D mesh without polygon gives the sides of the cells, cut at their middle nodes, each once. -/
theorem C65_micro_edges {nbNodes : Nat} {conn connI : List Int} {cells : List Cell} (h : IsMesh conn connI cells) (hc : ∀ c ∈ cells, CellOkMicro nbNodes c) :
    ∃ (S : List (List Cell)) (r : Descending) (edges : List Cell) (D : List (List Int)),
      List.Forall₂ (fun c sons => sons.map (fun s => (s.type, s.nodes)) = (edgesOf c.type c.nodes).flatMap microOf) cells S ∧
      explodeMeshIntoMicroEdges 2 nbNodes conn connI = .ok r ∧ IsMesh r.conn r.connI edges ∧ IsDescending S edges D ∧ IsSky r.desc r.descIndx D ∧
      IsSky r.revDesc r.revDescIndx ((List.range edges.length).map fun f : Nat => ownersOf D (f : Int)) := by
  obtain ⟨S, hS⟩ := forall₂_of_forall fun c hcc => hasSons_micro (hc c hcc)
  have h1 : List.Forall₂ (HasSons microEdgesGen2D (2 - microEdgesGen2D.delta) nbNodes) cells S := hS.imp fun _ _ h => h.1
  have h2 := hS.imp fun (_ : Cell) (_ : List Cell) h => h.2
  obtain ⟨r, faces, D, V, e1, e2, -, e4, e5, e6, -, e8⟩ := descending_spec (oriented := false) h (by decide) h1 (fun hh => by cases hh)
  rw [e6 rfl] at e5
  exact ⟨S, r, faces, D, h2, e1, e2, e4, e5, e8⟩

example : CellOkMicro 8 ⟨6, [0, 1, 2, 3, 4, 5]⟩ ∧ CellOkMicro 8 ⟨3, [0, 3, 6]⟩ ∧
    (explodeMeshIntoMicroEdges 2 8 [6, 0, 1, 2, 3, 4, 5, 3, 0, 3, 6] [0, 7, 11]).toOption.map (fun r => (r.conn, r.desc)) =
      some ([1, 0, 3, 1, 3, 1, 1, 1, 4, 1, 4, 2, 1, 2, 5, 1, 5, 0, 1, 3, 6, 1, 6, 0], [0, 1, 2, 3, 4, 5, 0, 6, 7]) := by
  refine ⟨⟨cm_tri6, by decide, by decide, by decide, by decide, by unfold NodesOk; decide⟩,
    ⟨cm_tri3, by decide, by decide, by decide, by decide, by unfold NodesOk; decide⟩, by decide⟩

theorem micro_first {t : Int} {cm : CellModel} (h : getCellModel t = .ok cm) (h3 : cm.dim = 3) (hdyn : cm.dyn = false) (ht : t ≠ 27) {conn : List Int}
    (hl : conn.length = cm.nbPts) :
    ∃ n, cm.numberOfMicroEdges = .ok (n + 1) ∧ ∃ a b, a ∈ conn ∧ b ∈ conn ∧ cm.microEdge 0 conn = .ok (1, [a, b]) := by
  obtain ⟨hm, hc⟩ := getCellModel_mem h
  have tab : ∀ cm ∈ cellModels, cm.dyn = false → cm.dim = 3 → cm.code ≠ 27 → cm.edges ≠ none ∧ cm.edges.getD [] ≠ [] ∧ (cm.edges.getD []).length < 100 := by decide
  obtain ⟨t0, t1, tl⟩ := tab cm hm hdyn h3 (by rw [hc]; exact ht)
  cases hes : cm.edges with
  | none => exact absurd hes t0
  | some es =>
    rw [hes] at t1 tl
    have t4 := (table_wf cm hm hdyn (by omega)).2.2 es hes
    cases es with
    | nil => simp at t1
    | cons e es =>
      obtain ⟨q1, q2⟩ := t4 e (by simp)
      have hrd : ∀ k ∈ e, ∃ a, a ∈ conn ∧ rd conn (k : Int) = .ok a := by
        intro k hk
        have hk' : k < conn.length := by rw [hl]; exact q2 k hk
        exact ⟨_, List.getElem_mem hk', rd_natCast hk'⟩
      have hlen : (e :: es).length < 100 := tl
      cases hq : cm.quad with
      | false =>
        rw [hq] at q1
        match e, q1 with
        | [k0, k1], _ =>
          obtain ⟨a, ha, ra⟩ := hrd k0 (by simp)
          obtain ⟨b, hb, rb⟩ := hrd k1 (by simp)
          refine ⟨es.length, ?_, a, b, ha, hb, ?_⟩
          · unfold CellModel.numberOfMicroEdges
            rw [hdyn, h3, hq, hes]
            simp only [Bool.not_false, if_true, Bool.false_eq_true, if_false]
            rw [if_neg (by decide), Nat.mod_eq_of_lt (by rw [unsignedMax]; omega), Nat.one_mul]
            rfl
          · unfold CellModel.microEdge
            rw [hq, h3]
            simp only [Bool.false_eq_true, if_false, if_true]
            rw [if_neg (by decide)]
            unfold CellModel.edge3D
            rw [hdyn, hes]
            simp only [Bool.not_false, if_true]
            rw [hq]
            show (do
              let r ← [k0, k1].mapM (fun k : Nat => rd conn (k : Int))
              .ok ((1 : Int), r)) = _
            simp [List.mapM_cons, ra, rb, ok_bind]
      | true =>
        rw [hq] at q1
        match e, q1 with
        | [k0, k1, k2], _ =>
          obtain ⟨a, ha, ra⟩ := hrd k0 (by simp)
          obtain ⟨b, hb, rb⟩ := hrd k2 (by simp)
          refine ⟨2 * es.length + 1, ?_, a, b, ha, hb, ?_⟩
          · unfold CellModel.numberOfMicroEdges
            rw [hdyn, h3, hq, hes]
            simp only [Bool.not_false, if_true]
            rw [if_neg (by decide), Nat.mod_eq_of_lt (by rw [unsignedMax]; omega)]
            rw [List.length_cons, show 2 * (es.length + 1) = 2 * es.length + 1 + 1 by omega]
          · unfold CellModel.microEdge
            rw [hq, h3]
            simp only [if_true]
            rw [if_neg (by decide), hes]
            show (do
              let a ← rd conn (k0 : Int)
              let b ← rd conn (k2 : Int)
              .ok ((1 : Int), [a, b])) = _
            rw [ra, ok_bind, rb, ok_bind]

theorem loop_first_error {σ : Type} {s : σ} {f : Nat → σ → M σ} {e : Err} (h : f 0 s = .error e) (n : Nat) : loop (n + 1) s f = .error e := by
  induction n with
  | zero =>
    show (do
      let s' ← (.ok s : M σ)
      f 0 s') = _
    exact h
  | succ n ih =>
    rw [loop_succ, ih]
    rfl

/-- C65, finding: on a 3D mesh the micro edges, which are segments, are inserted in a mesh declared of dimension 2: the call
fails on every mesh which starts with a cell of a 3D type with a fixed number of nodes, though the 3D case is documented as supported. -/
theorem C65_micro_edges_3D {nbNodes : Nat} {conn connI : List Int} {cells : List Cell} (h : IsMesh conn connI cells) {c : Cell} (hne : cells[0]? = some c)
    {cm : CellModel} (hcm : getCellModel c.type = .ok cm) (hd : cm.dim = 3) (hdyn : cm.dyn = false) (h27 : c.type ≠ 27)
    (hl : c.nodes.length = cm.nbPts) (hn : NodesOk nbNodes c.nodes) : explodeMeshIntoMicroEdges 3 nbNodes conn connI = .error .exn := by
  have hlen := h.length
  obtain ⟨h0, hc0⟩ := List.getElem?_eq_some_iff.mp hne
  obtain ⟨n, e1, a, b, ha, hb, e2⟩ := micro_first hcm hd hdyn h27 hl
  have hpos : 1 ≤ c.nodes.length := List.length_pos_of_mem ha
  unfold explodeMeshIntoMicroEdges
  rw [if_neg (by decide), if_pos rfl]
  unfold buildDescendingGen descNoFuse
  unfold UMesh.setMeshDimension
  rw [if_neg (by decide), ok_bind]
  unfold UMesh.setCoords
  rw [ok_bind]
  unfold UMesh.allocateCells
  rw [if_neg (by omega), ok_bind]
  obtain ⟨k, hk⟩ : ∃ k, connI.length - 1 = k + 1 := ⟨connI.length - 2, by omega⟩
  unfold forCells
  rw [hk, loop_first_error (e := .exn)]
  · rfl
  · have := rdCell_ok h h0
    rw [hc0] at this
    show (rdCell conn connI ((0 : Nat) : Int) >>= _) = _
    rw [this, ok_bind]
    unfold noFuseCell
    rw [hcm, ok_bind]
    show (cm.numberOfMicroEdges >>= _) = _
    rw [e1, ok_bind, loop_first_error (e := .exn)]
    · rfl
    · show (cm.microEdge 0 c.nodes >>= _) = _
      rw [e2, ok_bind]
      unfold sonStep
      rw [if_neg (by simp only [List.length_cons, List.length_nil]; omega)]
      obtain ⟨idx', i1, -⟩ := countNode_ok (nb := nbNodes) [a, b] (List.replicate (nbNodes + 1) 0) (by simp) (by
        intro x hx
        simp only [List.mem_cons, List.not_mem_nil, or_false] at hx
        rcases hx with rfl | rfl
        · exact (hn.2 _ ha).2
        · exact (hn.2 _ hb).2)
      show (([a, b].foldlM countNode (List.replicate (nbNodes + 1) 0)) >>= _) = _
      rw [i1, ok_bind]
      rfl

example : cm_tetra4.dim = 3 ∧ cm_tetra4.dyn = false ∧ NodesOk 4 [0, 1, 2, 3] ∧
    explodeMeshIntoMicroEdges 3 4 [14, 0, 1, 2, 3] [0, 5] = .error .exn := by unfold NodesOk; decide

end
end MC
