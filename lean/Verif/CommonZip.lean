import Verif.CommonFind

/-!
# C59, C60: removal of duplicated cells, merge of meshes on the same coordinates, inclusion of cells
-/

namespace MC
section

/-! ## The numbering of the classes -/

/-- Specification of the old to new numbering: two cells get the same number exactly when they are the same for the policy (one
cell of the class at least being compared); classes are numbered in the order of their first cell, without hole. -/
structure ClassNumbering (p : Int) (cells : List Cell) (start : Nat) (r : List Int) (nb : Int) : Prop where
  len : r.length = cells.length
  eqv : ∀ i j : Nat, i < cells.length → j < cells.length →
    (r[i]? = r[j]? ↔ i = j ∨ (InClass p cells i (j : Int) ∧ ∃ k : Nat, start ≤ k ∧ InClass p cells i (k : Int)))
  order : ∀ (i j : Nat) (a b : Int), r[i]? = some a → r[j]? = some b → (∀ i' < i, r[i']? ≠ some a) → (∀ j' < j, r[j']? ≠ some b) →
    (a < b ↔ i < j)
  onto : ∀ v, v ∈ r ↔ 0 ≤ v ∧ v < nb

theorem CommonGroups.merge {p : Int} {cells : List Cell} {start : Nat} {gs : List (List Int)} (h : CommonGroups p cells start gs) :
    MergeGroups cells.length gs := by
  refine ⟨fun g hg he => ?_, h.disj, fun g hg v hv => ?_, fun g hg a t he x hx => ?_⟩
  · have := h.size g hg; rw [he] at this; simp at this
  · obtain ⟨i, -, -, hi⟩ := h.cls g hg
    obtain ⟨j, c, c', e, -, h2, -⟩ := (hi v).mp hv
    have := (List.getElem?_eq_some_iff.mp h2).1
    omega
  · have := h.sorted g hg
    rw [he, List.pairwise_cons] at this
    rw [he] at hx
    rcases List.mem_cons.mp hx with rfl | hx
    · exact le_refl _
    · exact this.1 x hx

theorem classNumbering_of_groups {p : Int} {cells : List Cell} {start : Nat} {cc ci : List Int} {gs : List (List Int)} (hs : IsSky cc ci gs)
    (h : CommonGroups p cells start gs) :
    ∃ r nb, convertIndexArrayToO2N cells.length cc ci = .ok (r, nb) ∧ ClassNumbering p cells start r nb := by
  obtain ⟨r, nb, e1, e2, e3, e4, e5⟩ := C33_o2n cells.length cc ci gs hs h.merge
  refine ⟨r, nb, e1, ⟨e2, ?_, ?_, e5⟩⟩
  · intro i j hi hj
    rw [e3 i j hi hj]
    constructor
    · rintro (h1 | ⟨g, hg, h1, h2⟩)
      · exact Or.inl h1
      · right
        obtain ⟨k, hk1, hk2, hk3⟩ := h.cls g hg
        exact ⟨((hk3 _).mp h1).symm.trans ((hk3 _).mp h2), k, hk1, ((hk3 _).mp h1).symm⟩
    · rintro (h1 | ⟨h1, k, hk, h2⟩)
      · exact Or.inl h1
      · by_cases hij : i = j
        · exact Or.inl hij
        · right
          have mk : ∀ g ∈ gs, (k : Int) ∈ g → ∃ g ∈ gs, (i : Int) ∈ g ∧ (j : Int) ∈ g := by
            intro g hg hkg
            obtain ⟨l, -, -, hl⟩ := h.cls g hg
            have hli : InClass p cells l (i : Int) := ((hl _).mp hkg).trans h2.symm
            exact ⟨g, hg, (hl _).mpr hli, (hl _).mpr (hli.trans h1)⟩
          by_cases hki : k = i
          · subst hki
            obtain ⟨g, hg, hkg⟩ := h.complete k j hk hij h1
            exact mk g hg hkg
          · obtain ⟨g, hg, hkg⟩ := h.complete k i hk hki h2.symm
            exact mk g hg hkg
  · intro i j a b ha hb hfi hfj
    rw [e4 i j a b ha hb]
    have key : ∀ (i : Nat) (a : Int), r[i]? = some a → (∀ i' < i, r[i']? ≠ some a) → repOf gs i = i := by
      intro i a ha hfi
      have hin : i < cells.length := by rw [← e2]; exact (List.getElem?_eq_some_iff.mp ha).1
      have hle := repOf_le h.merge i
      by_contra hne
      have heq : repOf gs (repOf gs i) = repOf gs i := repOf_idem h.merge i
      have := (repOf_eq_iff h.merge (repOf gs i) i).mp heq
      have := (e3 (repOf gs i) i (by omega) hin).mpr this
      exact hfi (repOf gs i) (by omega) (by rw [this, ha])
    rw [key i a ha hfi, key j b hb hfj]

/-- Every value has a first position. -/
theorem first_index {r : List Int} {i : Nat} {a : Int} (h : r[i]? = some a) : ∃ j ≤ i, r[j]? = some a ∧ ∀ j' < j, r[j']? ≠ some a := by
  induction i using Nat.strongRecOn with
  | ind i ih =>
    by_cases he : ∃ j < i, r[j]? = some a
    · obtain ⟨j, hj, e⟩ := he
      obtain ⟨k, hk, e1, e2⟩ := ih j hj e
      exact ⟨k, by omega, e1, e2⟩
    · exact ⟨i, le_refl _, h, fun j hj e => he ⟨j, hj, e⟩⟩

/-- Every value has a last position. -/
theorem last_index {r : List Int} {a : Int} (h : a ∈ r) : ∃ i : Nat, r[i]? = some a ∧ ∀ i', i < i' → r[i']? ≠ some a := by
  induction r with
  | nil => simp at h
  | cons x r ih =>
    by_cases hr : a ∈ r
    · obtain ⟨i, h1, h2⟩ := ih hr
      refine ⟨i + 1, by simpa using h1, fun i' hi' => ?_⟩
      cases i' with
      | zero => omega
      | succ i' => simpa using h2 i' (by omega)
    · have hx : a = x := by
        rcases List.mem_cons.mp h with e | e
        · exact e
        · exact absurd e hr
      refine ⟨0, by simp [hx], fun i' hi' => ?_⟩
      cases i' with
      | zero => omega
      | succ i' => intro e; exact hr (List.mem_of_getElem? (by simpa using e))

/-- C59: `zipConnectivityTraducer` keeps one cell per class, the last one, the classes being in the order of their first cell, and
returns the numbering of the classes. -/
theorem C59_zip {conn connI : List Int} {cells : List Cell} (h : IsMesh conn connI cells) {p : Int} {nbNodes : Nat} {dim : Int}
    (hdim : dim ≠ -2) (hp : ∀ c ∈ cells, PolicyOk p c) (hp' : p = 0 ∨ p = 1 ∨ p = 2 ∨ p = 3)
    (hn : ∀ c ∈ cells, GoodNodes nbNodes c) (start : Nat) :
    ∃ (o2n conn' connI' types : List Int) (cells' : List Cell),
      zipConnectivityTraducer dim nbNodes p start conn connI = .ok (o2n, conn'.map some, connI', types) ∧ IsMesh conn' connI' cells' ∧
      ClassNumbering p cells start o2n cells'.length ∧
      (∀ (i : Nat) (k : Int), o2n[i]? = some k → (∀ i', i < i' → o2n[i']? ≠ some k) → cells'[k.toNat]? = cells[i]?) ∧
      StrictSorted types ∧ ∀ t, t ∈ types ↔ ∃ c ∈ cells', c.type = t := by
  have hl := h.length
  obtain ⟨cc, ci, gs, e1, e2, e3⟩ := C58_findCommonCells h hdim hp hp' hn start
  obtain ⟨r, nb, f1, f2⟩ := classNumbering_of_groups e2 e3
  have hnb : (nb.toNat : Int) = nb ∨ nb < 0 := by omega
  have hrange : ∀ v ∈ r, v = -1 ∨ (0 ≤ v ∧ v < (nb.toNat : Int)) := by
    intro v hv
    have := (f2.onto v).mp hv
    omega
  obtain ⟨n2o, g1, g2, g3⟩ := (C07_invertO2N r nb.toNat).1 hrange
  have hg3 : ∀ k, k < n2o.length → ∃ i : Nat, i < cells.length ∧ n2o[k]? = some (some (i : Int)) ∧ r[i]? = some (k : Int) ∧
      ∀ i', i < i' → r[i']? ≠ some (k : Int) := by
    intro k hk
    rw [g2] at hk
    obtain ⟨i, hi1, hi2⟩ := last_index ((f2.onto (k : Int)).mpr (by omega))
    refine ⟨i, ?_, (g3 k hk).1 i hi1 hi2, hi1, hi2⟩
    rw [← f2.len]
    exact (List.getElem?_eq_some_iff.mp hi1).1
  obtain ⟨ids, hids⟩ := exists_map_some (l := n2o) fun k hk => by
    obtain ⟨i, -, e, -⟩ := hg3 k hk; exact ⟨_, e⟩
  have hidl : ids.length = nb.toNat := by rw [← g2, hids, List.length_map]
  have hidk : ∀ k : Nat, k < ids.length → ∃ i : Nat, i < cells.length ∧ ids[k]? = some (i : Int) ∧ r[i]? = some (k : Int) ∧
      ∀ i', i < i' → r[i']? ≠ some (k : Int) := by
    intro k hk
    obtain ⟨i, h0, h1, h2, h3⟩ := hg3 k (by rw [hids, List.length_map]; exact hk)
    refine ⟨i, h0, ?_, h2, h3⟩
    rw [hids, List.getElem?_map] at h1
    cases hk' : ids[k]? with
    | none => rw [hk'] at h1; simp at h1
    | some v => rw [hk'] at h1; simpa using h1
  have hall : AllIn cells.length ids := by
    intro v hv
    obtain ⟨k, hk⟩ := List.getElem?_of_mem hv
    obtain ⟨i, h0, h1, -⟩ := hidk k (List.getElem?_eq_some_iff.mp hk).1
    rw [hk] at h1
    simp only [Option.some.injEq] at h1
    omega
  obtain ⟨conn', connI', types, cells', b1, b2, b3, b4, b5, b6⟩ := (C56_buildPart h ids).1 hall
  refine ⟨r, conn', connI', types, cells', ?_, b2, ⟨f2.len, f2.eqv, f2.order, ?_⟩, ?_, b5, b6⟩
  · unfold zipConnectivityTraducer
    rw [e1, ok_bind]
    simp only
    rw [show connI.length - 1 = cells.length by omega, f1, ok_bind]
    simp only
    rw [g1, ok_bind, hids, initialised_map_some, ok_bind, b1, ok_bind]
  · intro v
    rw [f2.onto]
    omega
  · intro i k hik hlast
    have hkr := (f2.onto k).mp (List.mem_of_getElem? hik)
    obtain ⟨i', h0, h1, h2, h3⟩ := hidk k.toNat (by omega)
    rw [show ((k.toNat : Nat) : Int) = k by omega] at h2 h3
    have : i = i' := by
      rcases Nat.lt_trichotomy i i' with hlt | heq | hgt
      · exact absurd h2 (hlast i' hlt)
      · exact heq
      · exact absurd hik (h3 i hgt)
    subst this
    have := b4 k.toNat _ h1
    rw [this, Int.toNat_natCast]

/-- C59: with all the cells compared, two cells get the same number exactly when they are the same; each cell is the same as the cell
which has its number in the new mesh; the cells of the new mesh are pairwise different. -/
theorem C59_zip_all {conn connI : List Int} {cells : List Cell} (h : IsMesh conn connI cells) {p : Int} {nbNodes : Nat} {dim : Int}
    (hdim : dim ≠ -2) (hp : ∀ c ∈ cells, PolicyOk p c) (hp' : p = 0 ∨ p = 1 ∨ p = 2 ∨ p = 3)
    (hn : ∀ c ∈ cells, GoodNodes nbNodes c) :
    ∃ (o2n conn' connI' types : List Int) (cells' : List Cell),
      zipConnectivityTraducer dim nbNodes p 0 conn connI = .ok (o2n, conn'.map some, connI', types) ∧ IsMesh conn' connI' cells' ∧
      o2n.length = cells.length ∧
      (∀ (i j : Nat) (c d : Cell), cells[i]? = some c → cells[j]? = some d → (o2n[i]? = o2n[j]? ↔ SameCell p c d)) ∧
      (∀ (i : Nat) (c : Cell), cells[i]? = some c → ∃ k : Nat, ∃ c', o2n[i]? = some (k : Int) ∧ cells'[k]? = some c' ∧ SameCell p c c') ∧
      (∀ c ∈ cells', c ∈ cells) ∧
      cells'.Pairwise fun c d => ¬ SameCell p c d := by
  obtain ⟨o2n, conn', connI', types, cells', e1, e2, e3, e4, -⟩ := C59_zip h hdim hp hp' hn 0
  have hlen := e3.len
  have heqv : ∀ (i j : Nat) (c d : Cell), cells[i]? = some c → cells[j]? = some d → (o2n[i]? = o2n[j]? ↔ SameCell p c d) := by
    intro i j c d hc hd
    have hi := (List.getElem?_eq_some_iff.mp hc).1
    have hj := (List.getElem?_eq_some_iff.mp hd).1
    rw [e3.eqv i j hi hj]
    constructor
    · rintro (rfl | ⟨⟨j', c1, c2, e, h1, h2, h3⟩, -⟩)
      · rw [hc] at hd
        simp only [Option.some.injEq] at hd
        rw [hd]
        exact (C57_equivalence p).refl _
      · have : j = j' := by omega
        subst this
        rw [hc] at h1; rw [hd] at h2
        simp only [Option.some.injEq] at h1 h2
        rw [h1, h2]
        exact h3
    · intro hs
      exact Or.inr ⟨⟨j, c, d, rfl, hc, hd, hs⟩, i, by omega, InClass.refl hi⟩
  have hback : ∀ k : Nat, k < cells'.length → ∃ (i : Nat) (c : Cell), cells[i]? = some c ∧ cells'[k]? = some c ∧ o2n[i]? = some (k : Int) := by
    intro k hk
    obtain ⟨i, h1, h2⟩ := last_index ((e3.onto (k : Int)).mpr (by omega))
    have hi : i < cells.length := by rw [← hlen]; exact (List.getElem?_eq_some_iff.mp h1).1
    have := e4 i k h1 h2
    rw [Int.toNat_natCast] at this
    exact ⟨i, cells[i], List.getElem?_eq_getElem hi, by rw [this]; exact List.getElem?_eq_getElem hi, h1⟩
  refine ⟨o2n, conn', connI', types, cells', e1, e2, hlen, heqv, ?_, ?_, ?_⟩
  · intro i c hc
    have hi := (List.getElem?_eq_some_iff.mp hc).1
    have hv : o2n[i]? = some (o2n[i]'(by omega)) := List.getElem?_eq_getElem (by omega)
    have hr := (e3.onto _).mp (List.mem_of_getElem? hv)
    set v := o2n[i]'(by omega) with hvdef
    obtain ⟨i', c', h1, h2, h3⟩ := hback v.toNat (by omega)
    rw [show ((v.toNat : Nat) : Int) = v by omega] at h3
    exact ⟨v.toNat, c', by rw [hv]; congr 1; omega, h2, (heqv i i' c c' hc h1).mp (by rw [hv, h3])⟩
  · intro c hc
    obtain ⟨k, hk⟩ := List.getElem?_of_mem hc
    obtain ⟨i, c', h1, h2, -⟩ := hback k (List.getElem?_eq_some_iff.mp hk).1
    rw [hk] at h2
    simp only [Option.some.injEq] at h2
    rw [h2]
    exact List.mem_of_getElem? h1
  · rw [List.pairwise_iff_getElem]
    intro a b ha hb hab hs
    obtain ⟨i, c, h1, h2, h3⟩ := hback a ha
    obtain ⟨j, d, g1, g2, g3⟩ := hback b hb
    rw [List.getElem?_eq_getElem ha] at h2
    rw [List.getElem?_eq_getElem hb] at g2
    simp only [Option.some.injEq] at h2 g2
    rw [h2, g2] at hs
    have := (heqv i j c d h1 g1).mpr hs
    rw [h3, g3] at this
    simp only [Option.some.injEq] at this
    omega

example : zipConnectivityTraducer 2 5 1 0 [3, 0, 1, 2, 3, 2, 3, 4, 3, 1, 2, 0] [0, 4, 8, 12] =
    .ok ([0, 1, 0], ([3, 1, 2, 0, 3, 2, 3, 4] : List Int).map some, [0, 4, 8], [3]) := by decide

/-! ## Merge of meshes on the same coordinates -/

theorem skyIdx_append {α : Type} (g g' : List (List α)) :
    skyIdx (g ++ g') = skyIdx g ++ ((skyIdx g').map (· + (g.flatten.length : Int))).tail := by
  induction g' using List.reverseRecOn with
  | nil => simp [skyIdx]
  | append_singleton l x ih =>
    rw [← List.append_assoc, skyIdx_snoc, ih, skyIdx_snoc, List.map_append, List.append_assoc]
    have hne : (skyIdx l).map (· + (g.flatten.length : Int)) ≠ [] := by
      intro h
      have := congrArg List.length h
      simp at this
    rw [List.tail_append_of_ne_nil hne]
    congr 2
    simp
    omega

/-- C60: `MergeUMeshesOnSameCoords` concatenates the cells of the meshes. -/
theorem C60_mergeSameCoords (ms : List SMesh) (css : List (List Cell)) (coords : Nat) (dim : Int) (hne : ms ≠ [])
    (hm : List.Forall₂ (fun (m : SMesh) cs => IsMesh m.conn m.connI cs) ms css) :
    ((∀ m ∈ ms, m.coords = coords ∧ m.dim = dim) → dim ≠ -2 → ∃ conn connI : List Int,
      mergeUMeshesOnSameCoords ms = .ok (conn.map some, connI.map some) ∧ IsMesh conn connI css.flatten) ∧
    ((∃ m ∈ ms, ∃ m' ∈ ms, m.coords ≠ m'.coords ∨ m.dim ≠ m'.dim) ∨ (∃ m ∈ ms, m.dim = -2) → mergeUMeshesOnSameCoords ms = .error .exn) := by
  obtain ⟨m0, mt, rfl⟩ : ∃ m0 mt, ms = m0 :: mt := by
    cases ms with
    | nil => exact absurd rfl hne
    | cons a b => exact ⟨a, b, rfl⟩
  constructor
  · intro hsame hd
    have hm0 := hsame m0 (by simp)
    -- sizes
    have sizes : ∀ (l : List SMesh) (cl : List (List Cell)) (a b : Int),
        List.Forall₂ (fun (m : SMesh) cs => IsMesh m.conn m.connI cs) l cl → (∀ m ∈ l, m.coords = coords ∧ m.dim = dim) →
        l.foldlM (sameCoordsStep coords dim) (a, b) =
          .ok (a + ((cl.flatten.map Cell.row).flatten.length : Nat), b + (cl.flatten.length : Nat)) := by
      intro l
      induction l with
      | nil => intro cl a b hf _; cases hf; simp; rfl
      | cons m l ih =>
        intro cl a b hf hs
        cases hf with
        | @cons _ c _ cl' h1 h2 =>
          obtain ⟨q1, q2⟩ := hs m (by simp)
          have hst : sameCoordsStep coords dim (a, b) m = .ok (a + m.conn.length, b + ((m.connI.length : Int) - 1)) := by
            unfold sameCoordsStep
            rw [if_neg (by simp [q1]), if_neg (by rw [q2]; exact hd), if_neg (by simp [q2])]
          rw [List.foldlM_cons, hst, ok_bind, ih cl' _ _ h2 fun m hm => hs m (by simp [hm])]
          have e1 : m.conn.length = (c.map Cell.row).flatten.length := by rw [h1.1]
          have e2 := h1.length
          simp only [List.flatten_cons, List.map_append, List.flatten_append, List.length_append, Except.ok.injEq, Prod.mk.injEq]
          constructor <;> omega
    set N := (css.flatten.map Cell.row).flatten.length with hN
    set K := css.flatten.length with hK
    -- the copying loop
    have copy : ∀ (l : List SMesh) (cl : List (List Cell)) (pre : List Cell) (k : Nat), 1 ≤ k →
        List.Forall₂ (fun (m : SMesh) cs => IsMesh m.conn m.connI cs) l cl → ((pre ++ cl.flatten).map Cell.row).flatten.length = N →
        (pre ++ cl.flatten).length = K →
        (l.zipIdx k).foldlM mergeSameStep (filled (pre.map Cell.row).flatten N, filled (skyIdx (pre.map Cell.row)) (K + 1),
          ((pre.map Cell.row).flatten.length : Int)) =
        .ok (filled ((pre ++ cl.flatten).map Cell.row).flatten N, filled (skyIdx ((pre ++ cl.flatten).map Cell.row)) (K + 1), (N : Int)) := by
      intro l
      induction l with
      | nil =>
        intro cl pre k _ hf h1 h2
        cases hf
        simp only [List.flatten_nil, List.append_nil] at h1 ⊢
        rw [← h1]
        rfl
      | cons m l ih =>
        intro cl pre k hk hf h1 h2
        cases hf with
        | @cons _ c _ cl' hm1 hm2 =>
          have e1 : m.conn = (c.map Cell.row).flatten := hm1.1
          have e2 := hm1.length
          have e3 : m.connI = skyIdx (c.map Cell.row) := hm1.2
          have hN2 : (pre.map Cell.row).flatten.length + m.conn.length ≤ N := by
            rw [← h1, e1]; simp
          have hK2 : pre.length + c.length ≤ K := by
            rw [← h2]; simp
          rw [List.zipIdx_cons, List.foldlM_cons]
          have hstep : mergeSameStep (filled (pre.map Cell.row).flatten N, filled (skyIdx (pre.map Cell.row)) (K + 1),
              ((pre.map Cell.row).flatten.length : Int)) (m, k) =
              .ok (filled ((pre ++ c).map Cell.row).flatten N, filled (skyIdx ((pre ++ c).map Cell.row)) (K + 1),
                (((pre ++ c).map Cell.row).flatten.length : Int)) := by
            unfold mergeSameStep
            simp only
            rw [emitCopy_all hN2, ok_bind, if_pos (by omega)]
            rw [emitCopy_filled (by omega) (by omega) (by simp) (by simp; omega), ok_bind]
            have hsl : slice (m.connI.map (· + ((pre.map Cell.row).flatten.length : Int))) 1 (m.connI.length : Int) =
                (m.connI.map (· + ((pre.map Cell.row).flatten.length : Int))).tail := by
              unfold slice
              rw [List.take_of_length_le (by simp)]
              simp
            rw [hsl, e1, e3]
            simp only [List.map_append, List.flatten_append, skyIdx_append, List.length_append, Nat.cast_add]
          rw [hstep, ok_bind, ih cl' (pre ++ c) (k + 1) (by omega) hm2 (by rw [← h1]; simp) (by rw [← h2]; simp)]
          simp
    unfold mergeUMeshesOnSameCoords
    simp only
    cases hm with
    | @cons _ c0 _ ct h1 h2 =>
      have e1 : m0.conn = (c0.map Cell.row).flatten := h1.1
      have e2 := h1.length
      have e3 : m0.connI = skyIdx (c0.map Cell.row) := h1.2
      rw [if_neg (by rw [hm0.2]; exact hd), hm0.1, hm0.2, sizes _ _ 0 0 (List.Forall₂.cons h1 h2) hsame, ok_bind]
      simp only [zero_add]
      rw [← hN, ← hK, if_neg (by omega), Int.toNat_natCast, show ((K : Int) + 1).toNat = K + 1 by omega, List.zipIdx_cons, List.foldlM_cons]
      have hN2 : m0.conn.length ≤ N := by rw [hN, e1]; simp
      have hK2 : c0.length ≤ K := by rw [hK]; simp
      have hstep : mergeSameStep (newCur Int N, newCur Int (K + 1), 0) (m0, 0) =
          .ok (filled (c0.map Cell.row).flatten N, filled (skyIdx (c0.map Cell.row)) (K + 1), ((c0.map Cell.row).flatten.length : Int)) := by
        unfold mergeSameStep
        simp only
        rw [newCur_eq, newCur_eq, emitCopy_all (by simpa using hN2), ok_bind, if_neg (by simp), emitCopy_all (by simp; omega), ok_bind, e1, e3]
        simp
      rw [hstep, ok_bind, copy mt ct c0 (0 + 1) (by omega) h2 (by rw [hN]; rfl) (by rw [hK]; rfl), ok_bind]
      simp only
      refine ⟨((c0 ++ ct.flatten).map Cell.row).flatten, skyIdx ((c0 ++ ct.flatten).map Cell.row), ?_, ⟨rfl, rfl⟩⟩
      rw [filled_full (by rw [hN]; rfl), filled_full (by rw [skyIdx_length, List.length_map, hK]; rfl)]
  · intro hbad
    have hb : m0.dim = -2 ∨ ∃ m ∈ m0 :: mt, m0.coords ≠ m.coords ∨ m.dim = -2 ∨ m0.dim ≠ m.dim := by
      rcases hbad with ⟨m, h1, m', h2, h3⟩ | ⟨m, h1, h2⟩
      · right
        by_cases hc : m0.coords ≠ m.coords ∨ m.dim = -2 ∨ m0.dim ≠ m.dim
        · exact ⟨m, h1, hc⟩
        · push Not at hc
          refine ⟨m', h2, ?_⟩
          rw [← hc.1, ← hc.2.2] at h3
          rcases h3 with h3 | h3
          · exact Or.inl h3
          · exact Or.inr (Or.inr h3)
      · exact Or.inr ⟨m, h1, Or.inr (Or.inl h2)⟩
    unfold mergeUMeshesOnSameCoords
    simp only
    by_cases hd : m0.dim = -2
    · rw [if_pos hd]; rfl
    · rw [if_neg hd]
      have hb := hb.resolve_left hd
      have : ∀ (l : List SMesh) (s : Int × Int), (∃ m ∈ l, m0.coords ≠ m.coords ∨ m.dim = -2 ∨ m0.dim ≠ m.dim) →
          l.foldlM (sameCoordsStep m0.coords m0.dim) s = .error .exn := by
        intro l
        induction l with
        | nil => rintro s ⟨m, h, -⟩; simp at h
        | cons m l ih =>
          rintro s ⟨m', hm', hx⟩
          rw [List.foldlM_cons]
          by_cases hc : m0.coords ≠ m.coords ∨ m.dim = -2 ∨ m0.dim ≠ m.dim
          · have : sameCoordsStep m0.coords m0.dim s m = .error .exn := by
              unfold sameCoordsStep throwX
              split
              · rfl
              · split
                · rfl
                · rename_i q1 q2
                  rw [if_pos ((hc.resolve_left q1).resolve_left q2)]
            rw [this]; rfl
          · have : ∃ s', sameCoordsStep m0.coords m0.dim s m = .ok s' := by
              unfold sameCoordsStep
              rw [if_neg fun q => hc (Or.inl q), if_neg fun q => hc (Or.inr (Or.inl q)), if_neg fun q => hc (Or.inr (Or.inr q))]
              exact ⟨_, rfl⟩
            obtain ⟨s', hs'⟩ := this
            rw [hs', ok_bind]
            refine ih s' ⟨m', ?_, hx⟩
            rcases List.mem_cons.mp hm' with rfl | h
            · exact absurd hx hc
            · exact h
      rw [this _ _ hb]; rfl

example : List.Forall₂ (fun (m : SMesh) cs => IsMesh m.conn m.connI cs) [⟨2, 7, [3, 0, 1, 2], [0, 4]⟩, ⟨2, 7, [3, 1, 2, 3, 4, 0, 1, 2, 3], [0, 4, 9]⟩]
    [[⟨3, [0, 1, 2]⟩], [⟨3, [1, 2, 3]⟩, ⟨4, [0, 1, 2, 3]⟩]] :=
  .cons (by decide) (.cons (by decide) .nil)

theorem splitCorr_spec {r : List Int} {ms : List SMesh} {css : List (List Cell)} (hm : List.Forall₂ (fun (m : SMesh) cs => IsMesh m.conn m.connI cs) ms css)
    {o : Nat} (h : o + css.flatten.length ≤ r.length) :
    ∃ corr, splitCorr r o ms = .ok corr ∧ corr.length = css.length ∧ ∀ (a : Nat) (cs : List Cell), css[a]? = some cs →
      ∃ ca, corr[a]? = some ca ∧ ca.length = cs.length ∧ ∀ j < cs.length, ca[j]? = r[o + (css.take a).flatten.length + j]? := by
  induction hm generalizing o with
  | nil => exact ⟨[], rfl, rfl, by simp⟩
  | @cons m c ms css h1 h2 ih =>
    have hl := h1.length
    rw [List.flatten_cons, List.length_append] at h
    obtain ⟨corr, e1, e2, e3⟩ := ih (o := o + c.length) (by omega)
    unfold splitCorr
    simp only
    rw [if_pos ⟨by omega, by omega, by omega⟩, show (o : Int) + ((m.connI.length : Int) - 1) = ((o + c.length : Nat) : Int) by omega, e1, ok_bind]
    refine ⟨_, rfl, by simp [e2], ?_⟩
    intro a cs hcs
    cases a with
    | zero =>
      simp only [List.length_cons, Nat.zero_lt_succ, getElem?_pos, List.getElem_cons_zero, Option.some.injEq] at hcs
      subst hcs
      refine ⟨_, rfl, ?_, ?_⟩
      · have := slice_length (l := r) (a := o) (b := ((o + c.length : Nat) : Int)) (by omega) (by omega) (by omega)
        omega
      · intro j hj
        unfold slice
        rw [List.getElem?_take_of_lt (by omega), List.getElem?_drop]
        simp
    | succ a =>
      obtain ⟨ca, q1, q2, q3⟩ := e3 a cs (by simpa using hcs)
      refine ⟨ca, by simpa using q1, q2, fun j hj => ?_⟩
      rw [q3 j hj]
      congr 1
      simp
      omega

/-- C60: `FuseUMeshesOnSameCoords`: two cells of the meshes get the same number exactly when they are the same, and each cell is the
same as the cell of the result which has its number. -/
theorem C60_fuse {ms : List SMesh} {css : List (List Cell)} {coords nbNodes : Nat} {dim p : Int} (hne : ms ≠ [])
    (hm : List.Forall₂ (fun (m : SMesh) cs => IsMesh m.conn m.connI cs) ms css) (hsame : ∀ m ∈ ms, m.coords = coords ∧ m.dim = dim)
    (hdim : dim ≠ -2) (hp : ∀ cs ∈ css, ∀ c ∈ cs, PolicyOk p c) (hp' : p = 0 ∨ p = 1 ∨ p = 2 ∨ p = 3)
    (hn : ∀ cs ∈ css, ∀ c ∈ cs, GoodNodes nbNodes c) :
    ∃ (corr : List (List Int)) (conn' connI' types : List Int) (cells' : List Cell),
      fuseUMeshesOnSameCoords nbNodes ms p = .ok (corr, conn'.map some, connI', types) ∧ IsMesh conn' connI' cells' ∧
      corr.map List.length = css.map List.length ∧
      (∀ (a b i j : Nat) (cs ds : List Cell) (c d : Cell), css[a]? = some cs → css[b]? = some ds → cs[i]? = some c → ds[j]? = some d →
        ∃ ca cb, corr[a]? = some ca ∧ corr[b]? = some cb ∧ (ca[i]? = cb[j]? ↔ SameCell p c d)) ∧
      (∀ (a i : Nat) (cs : List Cell) (c : Cell), css[a]? = some cs → cs[i]? = some c →
        ∃ (ca : List Int) (k : Nat) (c' : Cell), corr[a]? = some ca ∧ ca[i]? = some (k : Int) ∧ cells'[k]? = some c' ∧ SameCell p c c') ∧
      cells'.Pairwise fun c d => ¬ SameCell p c d := by
  obtain ⟨conn, connI, e1, e2⟩ := (C60_mergeSameCoords ms css coords dim hne hm).1 hsame hdim
  obtain ⟨o2n, conn', connI', types, cells', f1, f2, f3, f4, f5, f6, f7⟩ := C59_zip_all e2 hdim
    (fun c hc => by obtain ⟨cs, h1, h2⟩ := List.mem_flatten.mp hc; exact hp cs h1 c h2) hp'
    (fun c hc => by obtain ⟨cs, h1, h2⟩ := List.mem_flatten.mp hc; exact hn cs h1 c h2)
  obtain ⟨corr, g1, g2, g3⟩ := splitCorr_spec hm (r := o2n) (o := 0) (by omega)
  have hcell : ∀ (a i : Nat) (cs : List Cell) (c : Cell), css[a]? = some cs → cs[i]? = some c →
      css.flatten[(css.take a).flatten.length + i]? = some c := by
    intro a i cs c h1 h2
    have ha := (List.getElem?_eq_some_iff.mp h1).1
    have hi := (List.getElem?_eq_some_iff.mp h2).1
    have hspl : css.flatten = (css.take a).flatten ++ (css[a] ++ (css.drop (a + 1)).flatten) := by
      rw [← List.flatten_cons, ← List.drop_eq_getElem_cons ha, ← List.flatten_append, List.take_append_drop]
    rw [hspl, List.getElem?_append_right (by omega)]
    rw [List.getElem?_eq_getElem ha, Option.some.injEq] at h1
    rw [h1, Nat.add_sub_cancel_left, List.getElem?_append_left hi, h2]
  refine ⟨corr, conn', connI', types, cells', ?_, f2, ?_, ?_, ?_, f7⟩
  · unfold fuseUMeshesOnSameCoords
    rw [e1, ok_bind]
    simp only
    rw [initialised_map_some, ok_bind, initialised_map_some, ok_bind]
    cases ms with
    | nil => exact absurd rfl hne
    | cons m ms =>
      simp only
      rw [(hsame m (by simp)).2, f1, ok_bind]
      simp only
      rw [show (0 : Int) = ((0 : Nat) : Int) by rfl, g1, ok_bind]
  · apply List.ext_getElem?
    intro a
    rw [List.getElem?_map, List.getElem?_map]
    cases hc : css[a]? with
    | none => rw [List.getElem?_eq_none (by rw [g2]; exact List.getElem?_eq_none_iff.mp hc)]; rfl
    | some cs =>
      obtain ⟨ca, q1, q2, -⟩ := g3 a cs hc
      rw [q1]
      simp [q2]
  · intro a b i j cs ds c d h1 h2 h3 h4
    obtain ⟨ca, q1, q2, q3⟩ := g3 a cs h1
    obtain ⟨cb, r1, r2, r3⟩ := g3 b ds h2
    refine ⟨ca, cb, q1, r1, ?_⟩
    rw [q3 i (List.getElem?_eq_some_iff.mp h3).1, r3 j (List.getElem?_eq_some_iff.mp h4).1]
    simp only [Nat.zero_add]
    exact f4 _ _ c d (hcell a i cs c h1 h3) (hcell b j ds d h2 h4)
  · intro a i cs c h1 h2
    obtain ⟨ca, q1, q2, q3⟩ := g3 a cs h1
    obtain ⟨k, c', k1, k2, k3⟩ := f5 _ c (hcell a i cs c h1 h2)
    refine ⟨ca, k, c', q1, ?_, k2, k3⟩
    rw [q3 i (List.getElem?_eq_some_iff.mp h2).1, Nat.zero_add, k1]

/-! ## Inclusion of cells -/

theorem maxElement_spec {l : List Int} (h : l ≠ []) : maxElement l ∈ l ∧ ∀ x ∈ l, x ≤ maxElement l := by
  cases l with
  | nil => exact absurd rfl h
  | cons x l =>
    unfold maxElement
    simp only
    clear h
    induction l generalizing x with
    | nil => simp
    | cons y l ih =>
      rw [List.foldl_cons]
      obtain ⟨h1, h2⟩ := ih (if x < y then y else x)
      have hm := h2 _ (List.mem_cons_self)
      constructor
      · rcases List.mem_cons.mp h1 with e | e
        · rw [e]; split <;> simp
        · simp [e]
      · intro z hz
        have : x ≤ (if x < y then y else x) ∧ y ≤ (if x < y then y else x) := by split <;> omega
        rcases List.mem_cons.mp hz with rfl | hz
        · omega
        · rcases List.mem_cons.mp hz with rfl | hz
          · omega
          · exact h2 z (List.mem_cons_of_mem _ hz)

/-- C60: `areCellsIncludedIn` on non empty meshes: the boolean says whether every cell of the other mesh is the same as a cell of this
mesh; a cell that is found gets the id of the last cell of this mesh that is the same; when this mesh has no duplicates, a cell that
is not found gets an id which is not the one of a cell of this mesh. -/
theorem C60_areCellsIncludedIn {this other : SMesh} {cs ds : List Cell} (h1 : IsMesh this.conn this.connI cs)
    (h2 : IsMesh other.conn other.connI ds) (hc : this.coords = other.coords) (hd : this.dim = other.dim) (hdim : this.dim ≠ -2) {p : Int}
    (hp' : p = 0 ∨ p = 1 ∨ p = 2) {nbNodes : Nat} (hp : ∀ c ∈ cs ++ ds, PolicyOk p c) (hn : ∀ c ∈ cs ++ ds, GoodNodes nbNodes c)
    (hcs : cs ≠ []) (hds : ds ≠ []) :
    ∃ arr ret, areCellsIncludedIn nbNodes this other p = .ok (arr, ret) ∧ arr.length = ds.length ∧
      (ret = true ↔ ∀ d ∈ ds, ∃ c ∈ cs, SameCell p c d) ∧
      (∀ (k i : Nat) (d c : Cell), ds[k]? = some d → cs[i]? = some c → SameCell p c d →
        (∀ (i' : Nat) (c' : Cell), i < i' → cs[i']? = some c' → ¬ SameCell p c' d) → arr[k]? = some (i : Int)) ∧
      (cs.Pairwise (fun c c' => ¬ SameCell p c c') → ∀ (k : Nat) (d : Cell), ds[k]? = some d → (∀ c ∈ cs, ¬ SameCell p c d) →
        ∃ v, arr[k]? = some v ∧ (cs.length : Int) ≤ v) := by
  obtain ⟨conn, connI, e1, e2⟩ := (C60_mergeSameCoords [this, other] [cs, ds] this.coords this.dim (by simp)
    (.cons h1 (.cons h2 .nil))).1 (by simp [hc, hd]) hdim
  rw [show [cs, ds].flatten = cs ++ ds by simp] at e2
  set n := cs.length with hnn
  have hnpos : 0 < n := List.length_pos_of_ne_nil hcs
  have hdpos : 0 < ds.length := List.length_pos_of_ne_nil hds
  obtain ⟨cc, ci, gs, f1, f2, f3⟩ := C58_findCommonCells e2 hdim hp (by omega) hn n
  obtain ⟨r, nb, g1, g2⟩ := classNumbering_of_groups f2 f3
  have hl := e2.length
  have hl1 := h1.length
  have hl2 := h2.length
  have hrl : r.length = n + ds.length := by rw [g2.len]; simp [hnn]
  have hcell1 : ∀ i < n, (cs ++ ds)[i]? = cs[i]? := fun i hi => List.getElem?_append_left hi
  have hcell2 : ∀ k, (cs ++ ds)[n + k]? = ds[k]? := fun k => by
    rw [List.getElem?_append_right (by omega)]; congr 1; omega
  -- numbers of a cell of this and of a cell of other
  have hcross : ∀ (i k : Nat) (c d : Cell), cs[i]? = some c → ds[k]? = some d → (r[i]? = r[n + k]? ↔ SameCell p c d) := by
    intro i k c d hc hd
    have hi := (List.getElem?_eq_some_iff.mp hc).1
    have hk := (List.getElem?_eq_some_iff.mp hd).1
    rw [g2.eqv i (n + k) (by simp; omega) (by simp; omega)]
    constructor
    · rintro (h | ⟨⟨j, c1, c2, e, q1, q2, q3⟩, -⟩)
      · omega
      · have : j = n + k := by omega
        subst this
        rw [hcell1 i hi, hc] at q1
        rw [hcell2, hd] at q2
        simp only [Option.some.injEq] at q1 q2
        rw [q1, q2]; exact q3
    · intro hs
      have : InClass p (cs ++ ds) i ((n + k : Nat) : Int) := ⟨n + k, c, d, rfl, by rw [hcell1 i hi, hc], by rw [hcell2, hd], hs⟩
      exact Or.inr ⟨this, n + k, by omega, this⟩
  -- the first part and its maximum
  have hp0l : (r.take n).length = n := by simp; omega
  have hp0 : r.take n ≠ [] := by intro h; rw [h] at hp0l; simp at hp0l; omega
  obtain ⟨m1, m2⟩ := maxElement_spec hp0
  set mx := maxElement (r.take n) with hmx
  have hget0 : ∀ i < n, (r.take n)[i]? = r[i]? := fun i hi => List.getElem?_take_of_lt hi
  have hmxr := (g2.onto mx).mp (List.mem_of_mem_take m1)
  -- attained exactly up to the maximum
  have hatt : ∀ v, 0 ≤ v → v < nb → (v ≤ mx ↔ v ∈ r.take n) := by
    intro v hv0 hv1
    refine ⟨fun hle => ?_, m2 v⟩
    obtain ⟨j, hj⟩ := List.getElem?_of_mem ((g2.onto v).mpr ⟨hv0, hv1⟩)
    obtain ⟨j0, hj0, q1, q2⟩ := first_index hj
    by_cases hjn : j0 < n
    · exact List.mem_of_getElem? (i := j0) (by rw [hget0 j0 hjn]; exact q1)
    · exfalso
      obtain ⟨i, hi⟩ := List.getElem?_of_mem m1
      have hin : i < n := by rw [← hp0l]; exact (List.getElem?_eq_some_iff.mp hi).1
      rw [hget0 i hin] at hi
      obtain ⟨i0, hi0, w1, w2⟩ := first_index hi
      have := (g2.order i0 j0 mx v w1 q1 w2 q2).mpr (by omega)
      omega
  -- a cell of other is found exactly when its number is attained
  have hfound : ∀ (k : Nat) (d : Cell) (v : Int), ds[k]? = some d → r[n + k]? = some v → (v ≤ mx ↔ ∃ c ∈ cs, SameCell p c d) := by
    intro k d v hd hv
    have hvr := (g2.onto v).mp (List.mem_of_getElem? hv)
    rw [hatt v hvr.1 hvr.2]
    constructor
    · intro hm
      obtain ⟨i, hi⟩ := List.getElem?_of_mem hm
      have hin : i < n := by rw [← hp0l]; exact (List.getElem?_eq_some_iff.mp hi).1
      rw [hget0 i hin] at hi
      have hci : cs[i]? = some cs[i] := List.getElem?_eq_getElem hin
      exact ⟨_, List.getElem_mem hin, (hcross i k _ d hci hd).mp (by rw [hi, hv])⟩
    · rintro ⟨c, hcm, hs⟩
      obtain ⟨i, hi⟩ := List.getElem?_of_mem hcm
      have hin := (List.getElem?_eq_some_iff.mp hi).1
      have := (hcross i k c d hi hd).mpr hs
      exact List.mem_of_getElem? (i := i) (by rw [hget0 i hin, this, hv])
  -- the inverse
  obtain ⟨q, i1, i2, i3⟩ := (C07_invertO2N (r.take n) nb.toNat).1 (by
    intro v hv
    have := (g2.onto v).mp (List.mem_of_mem_take hv)
    omega)
  have hfill : wp (loop (nb - 1 - mx).toNat q fun k p1 => wr p1 (mx + k + 1) (some (mx + k + 1)))
      (fun q' => q'.length = nb.toNat ∧ ∀ v : Nat, v < nb.toNat → q'[v]? = if (v : Int) ≤ mx then q[v]? else some (some (v : Int))) False := by
    refine wp_mono (wp_loop (E := False) (fun t (q' : List (Option Int)) => q'.length = nb.toNat ∧
      ∀ v : Nat, v < nb.toNat → q'[v]? = if (v : Int) ≤ mx ∨ mx + t < v then q[v]? else some (some (v : Int))) ?_ ?_) ?_ id
    · refine ⟨i2, fun v hv => ?_⟩
      rw [if_pos (by omega)]
    · rintro t ht q' ⟨a1, a2⟩
      rw [wr_ok (by omega) (by omega)]
      refine ⟨by simp [a1], fun v hv => ?_⟩
      by_cases hve : v = (mx + t + 1).toNat
      · rw [hve, List.getElem?_set_self (by omega), if_neg (by omega)]
        congr 2
        omega
      · rw [List.getElem?_set_ne (by omega), a2 v hv]
        by_cases hc1 : (v : Int) ≤ mx ∨ mx + t < v
        · rw [if_pos hc1, if_pos (by omega)]
        · rw [if_neg hc1, if_neg (by omega)]
    · rintro q' ⟨a1, a2⟩
      refine ⟨a1, fun v hv => ?_⟩
      rw [a2 v hv]
      by_cases hc1 : (v : Int) ≤ mx
      · rw [if_pos (Or.inl hc1), if_pos hc1]
      · rw [if_neg (by omega), if_neg hc1]
  obtain ⟨q', j1, j2, j3⟩ := wp_exists hfill
  -- value of each number
  have hval : ∀ v, 0 ≤ v → v < nb → ∃ w : Int, rdI q' v = .ok w ∧
      (v ≤ mx → ∃ i : Nat, w = i ∧ i < n ∧ r[i]? = some v ∧ ∀ i', i < i' → i' < n → r[i']? ≠ some v) ∧ (mx < v → w = v) := by
    intro v hv0 hv1
    have hj := j3 v.toNat (by omega)
    by_cases hvm : v ≤ mx
    · rw [if_pos (by omega)] at hj
      obtain ⟨i, l1, l2⟩ := last_index ((hatt v hv0 hv1).mp hvm)
      have hin : i < n := by rw [← hp0l]; exact (List.getElem?_eq_some_iff.mp l1).1
      have := (i3 v.toNat (by omega)).1 i (by rw [l1]; congr 1; omega) (fun i' hi' => by
        rw [show ((v.toNat : Nat) : Int) = v by omega]; exact l2 i' hi')
      refine ⟨i, rdI_ok hv0 (by rw [hj, this]), fun _ => ⟨i, rfl, hin, by rw [← hget0 i hin]; exact l1, fun i' hi' hi'' => ?_⟩, by omega⟩
      rw [← hget0 i' hi'']
      exact l2 i' hi'
    · rw [if_neg (by omega)] at hj
      exact ⟨v, rdI_ok hv0 (by rw [hj]; congr 2; omega), by omega, fun _ => rfl⟩
  have hp2 : wp ((r.drop n).mapM fun (v : Int) => if 0 ≤ v ∧ v < q'.length then rdI q' v else throwX)
      (List.Forall₂ (fun v w => (v ≤ mx → ∃ i : Nat, w = (i : Int) ∧ i < n ∧ r[i]? = some v ∧ ∀ i', i < i' → i' < n → r[i']? ≠ some v) ∧
        (mx < v → w = v)) (r.drop n)) False := by
    refine wp_mapM _ ?_
    intro v hv
    have hvr := (g2.onto v).mp (List.mem_of_mem_drop hv)
    rw [if_pos ⟨hvr.1, by omega⟩]
    obtain ⟨w, w1, w2, w3⟩ := hval v hvr.1 hvr.2
    rw [w1]
    exact ⟨w2, w3⟩
  obtain ⟨arr, k1, k2⟩ := wp_exists hp2
  have harr : ∀ (k : Nat) (d : Cell), ds[k]? = some d → ∃ v w, r[n + k]? = some v ∧ arr[k]? = some w ∧
      (v ≤ mx → ∃ i : Nat, w = (i : Int) ∧ i < n ∧ r[i]? = some v ∧ ∀ i', i < i' → i' < n → r[i']? ≠ some v) ∧ (mx < v → w = v) := by
    intro k d hd
    have hk := (List.getElem?_eq_some_iff.mp hd).1
    have hkl : k < (r.drop n).length := by simp; omega
    have hkl2 : k < arr.length := by rw [← k2.length_eq]; exact hkl
    have := List.forall₂_iff_get.mp k2
    refine ⟨(r.drop n)[k], arr[k], by rw [← List.getElem?_drop, List.getElem?_eq_getElem hkl], List.getElem?_eq_getElem hkl2, ?_⟩
    exact this.2 k hkl hkl2
  refine ⟨arr, decide (mx = nb - 1), ?_, ?_, ?_, ?_, ?_⟩
  · unfold areCellsIncludedIn
    rw [e1, ok_bind]
    simp only
    rw [initialised_map_some, ok_bind, initialised_map_some, ok_bind, if_neg (by omega), if_neg (by omega)]
    rw [show (this.connI.length : Int) - 1 = (n : Int) by omega, f1, ok_bind]
    simp only
    rw [show connI.length - 1 = (cs ++ ds).length by omega, g1, ok_bind]
    simp only [Int.toNat_natCast]
    rw [if_neg hp0, i1, ok_bind]
    change (loop (nb - 1 - mx).toNat q _ >>= _) = _
    rw [j1, ok_bind, k1, ok_bind]
  · rw [← k2.length_eq]; simp; omega
  · rw [decide_eq_true_iff]
    constructor
    · intro he d hdm
      obtain ⟨k, hk⟩ := List.getElem?_of_mem hdm
      obtain ⟨v, w, v1, -⟩ := harr k d hk
      have hvr := (g2.onto v).mp (List.mem_of_getElem? v1)
      exact (hfound k d v hk v1).mp (by omega)
    · intro hall
      by_contra hne
      have hlt : mx < nb - 1 := by omega
      obtain ⟨j, hj⟩ := List.getElem?_of_mem ((g2.onto (nb - 1)).mpr ⟨by omega, by omega⟩)
      have hjl := (List.getElem?_eq_some_iff.mp hj).1
      by_cases hjn : j < n
      · have := m2 (nb - 1) (List.mem_of_getElem? (i := j) (by rw [hget0 j hjn]; exact hj))
        omega
      · have hjk : j = n + (j - n) := by omega
        have hkd : ds[j - n]? = some (ds[j - n]'(by omega)) := List.getElem?_eq_getElem (by omega)
        rw [hjk] at hj
        have := (hfound (j - n) _ (nb - 1) hkd hj).mpr (hall _ (List.getElem_mem _))
        omega
  · intro k i d c hd hci hs hlast
    obtain ⟨v, w, v1, v2, v3, -⟩ := harr k d hd
    have hin := (List.getElem?_eq_some_iff.mp hci).1
    obtain ⟨i', w1, w2, w3, w4⟩ := v3 ((hfound k d v hd v1).mpr ⟨c, List.mem_of_getElem? hci, hs⟩)
    rw [v2, w1]
    have hri : r[i]? = some v := by rw [(hcross i k c d hci hd).mpr hs, v1]
    have hci' : cs[i']? = some cs[i'] := List.getElem?_eq_getElem w2
    have hs' : SameCell p cs[i'] d := (hcross i' k _ d hci' hd).mp (by rw [w3, v1])
    rcases Nat.lt_trichotomy i i' with h | h | h
    · exact absurd hs' (hlast i' _ h hci')
    · rw [h]
    · exact absurd hri (w4 i h hin)
  · intro hpw k d hd hno
    obtain ⟨v, w, v1, v2, -, v4⟩ := harr k d hd
    have hvm : mx < v := by
      by_contra hcon
      obtain ⟨c, q1, q2⟩ := (hfound k d v hd v1).mp (by omega)
      exact hno c q1 q2
    refine ⟨w, v2, ?_⟩
    rw [v4 hvm]
    -- the first part is strictly increasing
    have hinj : ∀ i j : Nat, i < j → j < n → r[i]? ≠ r[j]? := by
      intro i j hij hj he
      rcases (g2.eqv i j (by simp; omega) (by simp; omega)).mp he with h | ⟨⟨j', c1, c2, e, q1, q2, q3⟩, -⟩
      · omega
      · have : j' = j := by omega
        subst this
        rw [hcell1 i (by omega), List.getElem?_eq_getElem (by omega), Option.some.injEq] at q1
        rw [hcell1 j' (by omega), List.getElem?_eq_getElem (by omega), Option.some.injEq] at q2
        rw [List.pairwise_iff_getElem] at hpw
        have := hpw i j' (by omega) (by omega) hij
        rw [q1, q2] at this
        exact this q3
    have hge : ∀ i : Nat, i < n → ∃ a, r[i]? = some a ∧ (i : Int) ≤ a := by
      intro i
      induction i with
      | zero =>
        intro hi
        have hr0 : r[0]? = some (r[0]'(by omega)) := List.getElem?_eq_getElem (by omega)
        have := (g2.onto _).mp (List.mem_of_getElem? hr0)
        exact ⟨_, hr0, by omega⟩
      | succ i ih =>
        intro hi
        obtain ⟨a, a1, a2⟩ := ih (by omega)
        have hr1 : r[i + 1]? = some (r[i + 1]'(by omega)) := List.getElem?_eq_getElem (by omega)
        refine ⟨_, hr1, ?_⟩
        have := (g2.order i (i + 1) a _ a1 hr1 (fun i' hi' he => hinj i' i hi' (by omega) (by rw [he, a1]))
          (fun i' hi' he => hinj i' (i + 1) hi' (by omega) (by rw [he, hr1]))).mpr (by omega)
        omega
    obtain ⟨a, a1, a2⟩ := hge (n - 1) (by omega)
    have := m2 a (List.mem_of_getElem? (i := n - 1) (by rw [hget0 (n - 1) (by omega)]; exact a1))
    omega

example : areCellsIncludedIn 6 ⟨2, 7, [3, 0, 1, 2, 3, 1, 2, 3, 3, 2, 3, 4], [0, 4, 8, 12]⟩ ⟨2, 7, [3, 3, 1, 2, 3, 3, 4, 5, 3, 2, 3, 4], [0, 4, 8, 12]⟩ 2 =
    .ok ([1, 3, 2], false) := by decide

/-- C60, finding: when this mesh holds the same cell twice, a cell of the other mesh that is not found may get the id of a cell of
this mesh, though the documentation announces a value larger than the number of cells. -/
theorem C60_missing_cell_valid_id :
    areCellsIncludedIn 6 ⟨2, 7, [3, 0, 1, 2, 3, 0, 1, 2], [0, 4, 8]⟩ ⟨2, 7, [3, 0, 1, 2, 3, 3, 4, 5], [0, 4, 8]⟩ 0 = .ok ([1, 1], false) := by decide

/-- C60, finding: an empty mesh asked whether it includes a non empty one throws in place of answering false. -/
theorem C60_empty_this :
    areCellsIncludedIn 3 ⟨2, 7, [], [0]⟩ ⟨2, 7, [3, 0, 1, 2], [0, 4]⟩ 0 = .error .exn := by decide

/-- C60, finding: `areCellsIncludedInPolicy7` on a mesh and itself, or on an edge and the same edge in the other orientation, answers
"not included": the numbers of the groups are read one too low. -/
theorem C60_policy7 :
    areCellsIncludedInPolicy7 4 ⟨1, 7, [1, 0, 1, 1, 2, 3], [0, 3, 6]⟩ ⟨1, 7, [1, 0, 1, 1, 2, 3], [0, 3, 6]⟩ = .ok none ∧
    areCellsIncludedInPolicy7 4 ⟨1, 7, [1, 0, 1], [0, 3]⟩ ⟨1, 7, [1, 1, 0], [0, 3]⟩ = .ok none := by decide

end
end MC
