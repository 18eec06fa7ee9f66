import Verif.GaussProps

/-!
# Location of the Gauss points: theorems

C96: the points computed by `GaussCoords::calculateCoords`.
-/

namespace MC

/-! ## Which reference cell is used -/

/-- Every cell of the table: consistent sizes, functions which sum to 1 (but for the first one of `NORM_TRI6`), derivatives,
and, for the cells whose reference nodes are distinct, the two other checks. -/
theorem gaussTable_chk : ∀ t ∈ gaussTable, ∀ e ∈ t.2, e.wf = true ∧ e.devs = true ∧
    (t.1 = 6 ∧ e.ref.head? = some [-1, 1] ∨ e.unity = true) ∧ (e.ref.Nodup → e.repro = true ∧ e.kron = true) ∧
    (e.pole = true → t.1 = 15 ∨ t.1 = 23) := by
  have full : ∀ e : RefElt, e.chk = true → ∀ t : Int, (e.pole = true → t = 15 ∨ t = 23) → e.wf = true ∧ e.devs = true ∧
      (t = 6 ∧ e.ref.head? = some [-1, 1] ∨ e.unity = true) ∧ (e.ref.Nodup → e.repro = true ∧ e.kron = true) ∧
      (e.pole = true → t = 15 ∨ t = 23) := by
    intro e h t hp
    simp only [RefElt.chk, Bool.and_eq_true] at h
    exact ⟨h.1.1.1.1, h.1.1.2, .inr h.1.1.1.2, fun _ => ⟨h.1.2, h.2⟩, hp⟩
  have deg : ∀ e : RefElt, e.chkDeg = true → ¬ e.ref.Nodup → e.pole = false → ∀ t : Int, e.wf = true ∧ e.devs = true ∧
      (t = 6 ∧ e.ref.head? = some [-1, 1] ∨ e.unity = true) ∧ (e.ref.Nodup → e.repro = true ∧ e.kron = true) ∧
      (e.pole = true → t = 15 ∨ t = 23) := by
    intro e h hn hp t
    simp only [RefElt.chkDeg, Bool.and_eq_true] at h
    exact ⟨h.1.1, h.2, .inr h.1.2, fun h' => absurd h' hn, by simp [hp]⟩
  have t6 := chk_tria6a
  simp only [Bool.and_eq_true] at t6
  intro t ht e he
  simp only [gaussTable, List.mem_cons, List.not_mem_nil, or_false] at ht
  rcases ht with rfl | rfl | rfl | rfl | rfl | rfl | rfl | rfl | rfl | rfl | rfl | rfl | rfl | rfl | rfl | rfl | rfl | rfl | rfl
  all_goals
    simp only [List.mem_cons, List.not_mem_nil, or_false] at he
  · rcases he with rfl | rfl
    · exact full _ chk_seg2a _ (by decide)
    · exact full _ chk_seg2b _ (by decide)
  · subst he; exact full _ chk_seg3 _ (by decide)
  · subst he; exact full _ chk_seg4 _ (by decide)
  · rcases he with rfl | rfl
    · exact full _ chk_tria3a _ (by decide)
    · exact full _ chk_tria3b _ (by decide)
  · rcases he with rfl | rfl
    · exact ⟨t6.1, t6.2, .inl ⟨rfl, rfl⟩, fun h => absurd h (by decide +kernel), by decide⟩
    · exact full _ chk_tria6b _ (by decide)
  · subst he; exact full _ chk_tria7a _ (by decide)
  · rcases he with rfl | rfl | rfl | rfl
    · exact full _ chk_quad4a _ (by decide)
    · exact full _ chk_quad4b _ (by decide)
    · exact full _ chk_quad4c _ (by decide)
    · exact deg _ chk_quad4DegSeg2 (by decide +kernel) rfl _
  · rcases he with rfl | rfl
    · exact full _ chk_quad8a _ (by decide)
    · exact full _ chk_quad8b _ (by decide)
  · subst he; exact full _ chk_quad9a _ (by decide)
  · rcases he with rfl | rfl
    · exact full _ chk_tetra4a _ (by decide)
    · exact full _ chk_tetra4b _ (by decide)
  · rcases he with rfl | rfl
    · exact full _ chk_tetra10a _ (by decide)
    · exact full _ chk_tetra10b _ (by decide)
  · rcases he with rfl | rfl
    · exact full _ chk_pyra5a _ (fun _ => .inl rfl)
    · exact full _ chk_pyra5b _ (fun _ => .inl rfl)
  · rcases he with rfl | rfl
    · exact full _ chk_pyra13a _ (fun _ => .inr rfl)
    · exact full _ chk_pyra13b _ (fun _ => .inr rfl)
  · rcases he with rfl | rfl | rfl | rfl
    · exact full _ chk_penta6a _ (by decide)
    · exact full _ chk_penta6b _ (by decide)
    · exact deg _ chk_penta6DegTria3a (by decide +kernel) rfl _
    · exact deg _ chk_penta6DegTria3b (by decide +kernel) rfl _
  · rcases he with rfl | rfl
    · exact full _ chk_penta15a _ (by decide)
    · exact full _ chk_penta15b _ (by decide)
  · rcases he with rfl | rfl
    · exact full _ chk_penta18a _ (by decide)
    · exact full _ chk_penta18b _ (by decide)
  · rcases he with rfl | rfl | rfl | rfl | rfl
    · exact full _ chk_hexa8a _ (by decide)
    · exact full _ chk_hexa8b _ (by decide)
    · exact deg _ chk_hexa8DegQuad4a (by decide +kernel) rfl _
    · exact deg _ chk_hexa8DegQuad4b (by decide +kernel) rfl _
    · exact deg _ chk_hexa8DegQuad4c (by decide +kernel) rfl _
  · rcases he with rfl | rfl
    · exact full _ chk_hexa20a _ (by decide)
    · exact full _ chk_hexa20b _ (by decide)
  · subst he; exact full _ chk_hexa27a _ (by decide)

theorem lookup_mem {α β : Type} [BEq α] [LawfulBEq α] (l : List (α × β)) (a : α) (b : β) (h : l.lookup a = some b) :
    (a, b) ∈ l := by
  induction l with
  | nil => simp at h
  | cons t l ih =>
    obtain ⟨a', b'⟩ := t
    simp only [List.lookup_cons] at h
    split at h
    · next heq =>
      simp only [beq_iff_eq] at heq
      simp only [Option.some.injEq] at h
      subst heq; subst h
      simp
    · exact List.mem_cons_of_mem _ (ih h)

section
variable {K : Type} [Field K] [LinearOrder K] [IsStrictOrderedRing K]

/-- The Gauss point `i` in the array of the coordinates of the Gauss points. -/
def gaussPt (cd : Nat) (gauss : List K) (i : Nat) : List K := (gauss.drop (i * cd)).take cd

theorem tryElts_ok (es : List RefElt) : ∀ (g g' : GaussI K), tryElts es g = .ok g' →
    ∃ e ∈ es, isSatisfyG e g = true ∧ ∃ rows, (List.range g.nbGauss).mapM (initRow e g) = .ok rows ∧
      g' = { g with fval := rows.map (·.1), dval := rows.map (·.2) } := by
  induction es with
  | nil => intro g g' h; cases h
  | cons e es ih =>
    intro g g' h
    unfold tryElts initElt at h
    cases hr : (List.range g.nbGauss).mapM (initRow e g) with
    | error x => rw [hr] at h; cases h
    | ok rows =>
      rw [hr] at h
      simp only [ok_bind] at h
      have h' : (if isSatisfyG e g = true then
          pure { g with fval := rows.map (·.1), dval := rows.map (·.2) }
          else tryElts es { g with fval := rows.map (·.1), dval := rows.map (·.2) } : M (GaussI K)) = .ok g' := h
      split at h'
      · next hs =>
        simp only [pure, Except.pure, Except.ok.injEq] at h'
        exact ⟨e, by simp, hs, rows, hr, h'.symm⟩
      · obtain ⟨e', he', hs', rows', hr', hg'⟩ := ih _ _ h'
        exact ⟨e', by simp [he'], hs', rows', hr', hg'⟩

theorem mapM_range_okG {α : Type} (f : Nat → M α) (n : Nat) (l : List α) (h : (List.range n).mapM f = .ok l) :
    l.length = n ∧ ∀ i < n, ∃ a, f i = .ok a ∧ l[i]? = some a := by
  have key : ∀ (is : List Nat) (l : List α), is.mapM f = .ok l →
      l.length = is.length ∧ ∀ (j i : Nat), is[j]? = some i → ∃ a, f i = .ok a ∧ l[j]? = some a := by
    intro is
    induction is with
    | nil =>
      intro l h
      simp only [List.mapM_nil, pure, Except.pure, Except.ok.injEq] at h
      subst h; simp
    | cons i is ih =>
      intro l h
      rw [List.mapM_cons] at h
      cases hf : f i with
      | error x => rw [hf] at h; cases h
      | ok a =>
        rw [hf] at h
        simp only [ok_bind] at h
        cases hm : is.mapM f with
        | error x => rw [hm] at h; cases h
        | ok l' =>
          rw [hm] at h
          simp only [ok_bind, pure, Except.pure, Except.ok.injEq] at h
          subst h
          obtain ⟨h1, h2⟩ := ih l' hm
          refine ⟨by simp [h1], fun j i' hj => ?_⟩
          cases j with
          | zero => simp only [List.getElem?_cons_zero, Option.some.injEq] at hj; subst hj; exact ⟨a, hf, rfl⟩
          | succ j => simpa using h2 j i' (by simpa using hj)
  obtain ⟨h1, h2⟩ := key _ _ h
  refine ⟨by simpa using h1, fun i hi => h2 i i ?_⟩
  simp [List.getElem?_range, hi]

/-- What a successful construction of the information on a type of cells holds: one of the reference cells of the type
agrees with the given reference nodes, and its functions and derivatives are evaluated at the Gauss points. -/
theorem newGaussInfo_ok (geo : Int) (cd : Nat) (gauss : List K) (ng : Nat) (ref : List K) (nr : Nat) (g : GaussI K)
    (hgeo : geo ≠ 0) (h : newGaussInfo geo cd gauss ng ref nr = .ok g) :
    ∃ es, (geo, es) ∈ gaussTable ∧ ∃ e ∈ es, nr = e.fn.length ∧ cd = e.dim ∧ g.geo = geo ∧ g.nbRef = nr ∧
      ((List.zip (castL e.ref.flatten) (ref.take (nr * cd))).all fun (l, r) => isEqualG l r) = true ∧
      g.fval = (List.range ng).map (fun i => e.values (gaussPt cd gauss i)) ∧
      g.dval = (List.range ng).map (fun i => (e.derivs (gaussPt cd gauss i)).flatten) := by
  unfold newGaussInfo at h
  split at h
  · next hb =>
    unfold initLocalInfo at h
    rw [if_neg (by simpa [mkGaussI] using hgeo)] at h
    split at h
    · next es hes =>
      have hmem := lookup_mem _ _ _ hes
      obtain ⟨e, he, hs, rows, hr, hg⟩ := tryElts_ok _ _ _ h
      set g0 := mkGaussI geo (gauss.take (ng * cd)) ng (ref.take (nr * cd)) nr with hg0
      have e1 : g0.nbGauss = ng := rfl
      have e2 : g0.nbRef = nr := rfl
      have e3 : g0.gauss = gauss.take (ng * cd) := rfl
      have e4 : g0.ref = ref.take (nr * cd) := rfl
      simp only [isSatisfyG, Bool.and_eq_true, decide_eq_true_eq] at hs
      obtain ⟨⟨hs1, hs2⟩, hs3⟩ := hs
      have hne : e.fn.length ≠ 0 := by
        have : ∀ t ∈ gaussTable, ∀ e ∈ t.2, e.fn.length ≠ 0 := by decide
        exact this _ hmem _ he
      have hrd : g0.refDim = cd := by
        have : nr ≠ 0 := by rw [← e2, ← hs1]; exact hne
        unfold GaussI.refDim
        rw [e2, e4, if_pos this, List.length_take, Nat.min_eq_left hb.2]
        exact Nat.mul_div_cancel_left _ (Nat.pos_of_ne_zero this)
      have hcd : cd = e.dim := by rw [hs2, hrd]
      have hgeo' : g0.geo = geo := rfl
      have hgd : ng ≠ 0 → g0.gaussDim = cd := by
        intro hng
        unfold GaussI.gaussDim
        rw [e1, e3, if_pos hng, List.length_take, Nat.min_eq_left hb.1]
        exact Nat.mul_div_cancel_left _ (Nat.pos_of_ne_zero hng)
      obtain ⟨hl, hrow⟩ := mapM_range_okG _ _ _ hr
      rw [e1] at hl hrow
      have hval : ∀ i < ng, rows[i]? = some (e.values (gaussPt cd gauss i), (e.derivs (gaussPt cd gauss i)).flatten) := by
        intro i hi
        obtain ⟨a, ha, hai⟩ := hrow i hi
        rw [hai]
        congr 1
        unfold initRow at ha
        split at ha
        · split at ha
          · simp only [Except.ok.injEq] at ha
            rw [← ha, e2, hs2.symm, ← hs1.trans e2, hgd (by omega), e3, ← hcd]
            simp only [Nat.sub_self, List.replicate_zero, List.append_nil]
            have : ((gauss.take (ng * cd)).drop (i * cd)).take cd = gaussPt cd gauss i := by
              unfold gaussPt
              rw [List.drop_take, List.take_take, Nat.min_eq_left]
              have : (i + 1) * cd ≤ ng * cd := Nat.mul_le_mul_right _ (by omega)
              rw [Nat.add_mul] at this
              omega
            rw [this]
          · cases ha
        · cases ha
      have hrows : rows = (List.range ng).map fun i =>
          (e.values (gaussPt cd gauss i), (e.derivs (gaussPt cd gauss i)).flatten) := by
        apply List.ext_getElem?
        intro i
        by_cases hi : i < ng
        · rw [hval i hi]; simp [hi]
        · rw [List.getElem?_eq_none (by omega), List.getElem?_eq_none (by simp; omega)]
      refine ⟨es, hmem, e, he, (hs1.trans e2).symm, hcd, by rw [hg, ← hgeo'], by rw [hg, ← e2], hs3, ?_, ?_⟩
      · rw [hg, hrows]; simp
      · rw [hg, hrows]; simp
    · cases h
  · cases h

end

end MC
