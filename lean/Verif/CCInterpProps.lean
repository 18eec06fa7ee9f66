import Verif.CCInterpThm

/-!
# What the remapping between two Cartesian grids keeps
-/

set_option linter.unusedSectionVars false

namespace MC
section
open Finset
variable {K : Type} [Field K] [LinearOrder K] [IsStrictOrderedRing K]

/-- **C100.** For two Cartesian grids of the same dimension no cell of which is smaller than the precision, the computation of the matrix ends without
exception.  Every coefficient written is positive.  For each pair of cells, the coefficient is the volume common to the two cells, or it is
missing and then the cells have, along some axis, less than the precision in common. -/
theorem C100_matrix {eps : K} {src tgt : List (List K)} (h : GridsOK eps src tgt) {fuel : Nat} (hf : ∀ s ∈ src, ∀ t ∈ tgt, s.length + t.length ≤ fuel) :
    ∃ W, interpolateCC eps fuel src tgt = .ok (some W) ∧ CrudeOK W (nbAlong tgt).prod (nbAlong src).prod ∧ (∀ row ∈ W, ∀ e ∈ row, 0 < e.2) ∧
      ∀ i < (nbAlong tgt).prod, ∀ j < (nbAlong src).prod,
        coef W i j = cutVol src tgt (gridPos (nbAlong src) j) (gridPos (nbAlong tgt) i) ∨
        (coef W i j = 0 ∧ Thin eps src tgt (gridPos (nbAlong src) j) (gridPos (nbAlong tgt) i)) := matrix_gen h hf

theorem getD_mem {x : List K} {i : Nat} (h : i < x.length) : x.getD i 0 ∈ x := by
  rw [List.getD_eq_getElem _ _ h]; exact List.getElem_mem h

/-- with separated coordinates a common length smaller than the precision is not positive -/
theorem cutLen_separated {eps : K} {s t : List K} (hs : AxisOK eps s) (ht : AxisOK eps t) (hsep : ∀ a ∈ s, ∀ b ∈ t, a = b ∨ eps ≤ |a - b|) {i j : Nat}
    (hi : i + 1 < s.length) (hj : j + 1 < t.length) (h : cutLen s t i j < eps) : cutLen s t i j ≤ 0 := by
  have sep : ∀ a ∈ s, ∀ b ∈ t, (a - b < eps → a - b ≤ 0) ∧ (b - a < eps → b - a ≤ 0) := by
    intro a ha b hb
    rcases hsep a ha b hb with rfl | h
    · simp
    · rcases le_total a b with hab | hab
      · rw [abs_of_nonpos (by linarith)] at h
        exact ⟨fun _ => by linarith, fun _ => by linarith⟩
      · rw [abs_of_nonneg (by linarith)] at h
        exact ⟨fun _ => by linarith, fun _ => by linarith⟩
  have h1 := hs i hi
  have h2 := ht j hj
  rw [cutLen] at h ⊢
  rcases min_choice (s.getD (i + 1) 0) (t.getD (j + 1) 0) with m1 | m1 <;> rcases max_choice (s.getD i 0) (t.getD j 0) with m2 | m2 <;> rw [m1, m2] at h ⊢
  · linarith
  · exact (sep _ (getD_mem hi) _ (getD_mem (by omega))).1 h
  · exact (sep _ (getD_mem (by omega)) _ (getD_mem hj)).2 h
  · linarith

theorem cutVol_thin {eps : K} : ∀ {src tgt : List (List K)} {I J : List Nat}, (∀ x ∈ src, AxisOK eps x) → (∀ x ∈ tgt, AxisOK eps x) → Separated eps src tgt →
    List.Forall₂ (fun i n => i < n) I (nbAlong src) → List.Forall₂ (fun i n => i < n) J (nbAlong tgt) → Thin eps src tgt I J → cutVol src tgt I J = 0
  | s :: src, t :: tgt, i :: I, j :: J, hs, ht, hsep, hI, hJ, h => by
    simp only [nbAlong, List.map_cons] at hI hJ
    cases hI with
    | cons hi hI =>
    cases hJ with
    | cons hj hJ =>
    cases hsep with
    | cons hst hsep =>
    rw [cutVol]
    rcases h with h | h
    · rw [max_eq_left (cutLen_separated (hs s (by simp)) (ht t (by simp)) hst (by omega) (by omega) h), zero_mul]
    · rw [cutVol_thin (fun x hx => hs x (List.mem_cons_of_mem _ hx)) (fun x hx => ht x (List.mem_cons_of_mem _ hx)) hsep hI hJ h, mul_zero]
  | [], _, _, _, _, _, _, _, _, h => h.elim
  | _ :: _, [], _, _, _, _, _, _, _, h => h.elim
  | _ :: _, _ :: _, [], _, _, _, _, _, _, h => h.elim
  | _ :: _, _ :: _, _ :: _, [], _, _, _, _, _, h => h.elim

/-- **C100.** If moreover the coordinates of the two grids are, along each axis, equal or apart by the precision at least, the matrix is exact: every
coefficient is the common volume of the two cells. -/
theorem C100_exact {eps : K} {src tgt : List (List K)} (h : GridsOK eps src tgt) (hsep : Separated eps src tgt) {fuel : Nat}
    (hf : ∀ s ∈ src, ∀ t ∈ tgt, s.length + t.length ≤ fuel) :
    ∃ W, interpolateCC eps fuel src tgt = .ok (some W) ∧ CrudeOK W (nbAlong tgt).prod (nbAlong src).prod ∧ (∀ row ∈ W, ∀ e ∈ row, 0 < e.2) ∧
      ∀ i < (nbAlong tgt).prod, ∀ j < (nbAlong src).prod, coef W i j = cutVol src tgt (gridPos (nbAlong src) j) (gridPos (nbAlong tgt) i) := by
  obtain ⟨W, w1, w2, w3, w4⟩ := matrix_gen h hf
  refine ⟨W, w1, w2, w3, fun i hi j hj => ?_⟩
  rcases w4 i hi j hj with h1 | ⟨h1, h2⟩
  · exact h1
  · rw [h1, cutVol_thin (fun x hx => (h.srcOK x hx).2) (fun x hx => (h.tgtOK x hx).2) hsep (gridPos_lt hj).1 (gridPos_lt hi).1 h2]

/-! ## Sums of common volumes -/

theorem sum_range_mul (f g : Nat → K) (n m : Nat) : ∑ j ∈ range (n * m), f (j % n) * g (j / n) = (∑ i ∈ range n, f i) * ∑ a ∈ range m, g a := by
  induction m with
  | zero => simp
  | succ m ih =>
    rw [Nat.mul_succ, sum_range_add, ih, sum_range_succ, mul_add, sum_mul (range n) f (g m)]
    congr 1
    refine sum_congr rfl fun i hi => ?_
    have hi := mem_range.mp hi
    rw [Nat.mul_add_mod, Nat.mod_eq_of_lt hi, Nat.mul_add_div (by omega), Nat.div_eq_of_lt hi, Nat.add_zero]

/-- the common lengths of a cell with the cells of an axis which covers it add up to its length -/
theorem sum_cutLen {eps : K} (he : 0 < eps) {s t : List K} (hs : AxisOK eps s) (ht : AxisOK eps t) (hne : s ≠ [])
    (h0 : s.getD 0 0 ≤ t.getD 0 0) (h1 : t.getD (t.length - 1) 0 ≤ s.getD (s.length - 1) 0) {j : Nat} (hj : j + 1 < t.length) :
    ∑ i ∈ range (s.length - 1), max 0 (cutLen s t i j) = t.getD (j + 1) 0 - t.getD j 0 := by
  have hab := ht j hj
  have ha := ht.le he (Nat.zero_le j) (by omega)
  have hb := ht.le he (show j + 1 ≤ t.length - 1 by omega) (by omega)
  set a := t.getD j 0 with hadef
  set b := t.getD (j + 1) 0 with hbdef
  have step : ∀ x y : K, x ≤ y → max 0 (min y b - max x a) = min (max y a) b - min (max x a) b := by
    intro x y hxy
    have hab' : a ≤ b := by linarith
    rcases le_total y a with h1 | h1
    · rw [max_eq_right h1, max_eq_right (hxy.trans h1), sub_self, min_eq_left (h1.trans hab')]
      exact max_eq_left (by linarith)
    · rw [max_eq_left h1]
      rcases le_total (max x a) b with h2 | h2
      · rw [min_eq_left h2]
        exact max_eq_right (sub_nonneg.mpr (max_le (le_min hxy (by rcases le_total x a with h3 | h3; exact h3.trans hab'; rwa [max_eq_left h3] at h2)) (le_min h1 hab')))
      · have hy : b ≤ y := by
          rcases le_total x a with h3 | h3
          · rw [max_eq_right h3] at h2; linarith
          · rw [max_eq_left h3] at h2; linarith
        rw [min_eq_right hy, min_eq_right h2, sub_self]
        exact max_eq_left (by linarith)
  have hn : 0 < s.length := List.length_pos_iff.mpr hne
  have : ∀ i ∈ range (s.length - 1), max 0 (cutLen s t i j) = min (max (s.getD (i + 1) 0) a) b - min (max (s.getD i 0) a) b := by
    intro i hi
    have hi := mem_range.mp hi
    exact step _ _ (by have := hs i (by omega); linarith)
  rw [sum_congr rfl this, sum_range_sub (fun i => min (max (s.getD i 0) a) b)]
  rw [max_eq_left (show a ≤ s.getD (s.length - 1) 0 by linarith), min_eq_right (show b ≤ s.getD (s.length - 1) 0 by linarith),
    max_eq_right (show s.getD 0 0 ≤ a by linarith), min_eq_left (show a ≤ b by linarith)]

theorem cutLen_comm (s t : List K) (i j : Nat) : cutLen s t i j = cutLen t s j i := by
  rw [cutLen, cutLen, min_comm, max_comm]

theorem cutVol_comm : ∀ (src tgt : List (List K)) (I J : List Nat), cutVol src tgt I J = cutVol tgt src J I
  | s :: src, t :: tgt, i :: I, j :: J => by rw [cutVol, cutVol, cutLen_comm, cutVol_comm src tgt I J]
  | [], [], _, _ => by simp [cutVol]
  | [], _ :: _, _, _ => by simp [cutVol]
  | _ :: _, [], _, _ => by simp [cutVol]
  | _ :: _, _ :: _, [], [] => rfl
  | _ :: _, _ :: _, [], _ :: _ => rfl
  | _ :: _, _ :: _, _ :: _, [] => rfl

theorem sum_cutVol {eps : K} (he : 0 < eps) : ∀ {src tgt : List (List K)} {J : List Nat}, (∀ x ∈ src, x ≠ [] ∧ AxisOK eps x) → (∀ x ∈ tgt, x ≠ [] ∧ AxisOK eps x) →
    Covers src tgt → List.Forall₂ (fun i n => i < n) J (nbAlong tgt) →
    ∑ j ∈ range (nbAlong src).prod, cutVol src tgt (gridPos (nbAlong src) j) J = cellVol tgt J
  | [], [], J, _, _, _, hJ => by
    obtain rfl := List.forall₂_nil_right_iff.mp hJ
    simp [nbAlong, cutVol, cellVol]
  | s :: src, t :: tgt, J, hs, ht, hc, hJ => by
    simp only [nbAlong, List.map_cons] at hJ
    obtain ⟨j, J', hj, hJ', rfl⟩ := List.forall₂_cons_right_iff.mp hJ
    cases hc with
    | cons h1 hc =>
    have ih := sum_cutVol he (fun x hx => hs x (List.mem_cons_of_mem _ hx)) (fun x hx => ht x (List.mem_cons_of_mem _ hx)) hc hJ'
    have e : nbAlong (s :: src) = (s.length - 1) :: nbAlong src := rfl
    rw [e, List.prod_cons, cellVol]
    simp only [gridPos, cutVol]
    rw [sum_range_mul (fun i => max 0 (cutLen s t i j)) (fun a => cutVol src tgt (gridPos (nbAlong src) a) J'), ih,
      sum_cutLen he (hs s (by simp)).2 (ht t (by simp)).2 (hs s (by simp)).1 h1.1 h1.2 (by omega)]
  | [], _ :: _, _, _, _, hc, _ => by cases hc
  | _ :: _, [], _, _, _, hc, _ => by cases hc

/-- **C100.** If the source grid covers the target grid, the coefficients of a target cell add up to its volume. -/
theorem C100_target_covered {eps : K} {src tgt : List (List K)} (h : GridsOK eps src tgt) (hsep : Separated eps src tgt) (hc : Covers src tgt) {fuel : Nat}
    (hf : ∀ s ∈ src, ∀ t ∈ tgt, s.length + t.length ≤ fuel) : ∃ W, interpolateCC eps fuel src tgt = .ok (some W) ∧
      ∀ i < (nbAlong tgt).prod, ∑ j ∈ range (nbAlong src).prod, coef W i j = cellVol tgt (gridPos (nbAlong tgt) i) := by
  obtain ⟨W, w1, -, -, w4⟩ := C100_exact h hsep hf
  refine ⟨W, w1, fun i hi => ?_⟩
  rw [sum_congr rfl fun j hj => w4 i hi j (mem_range.mp hj)]
  exact sum_cutVol h.pos h.srcOK h.tgtOK hc (gridPos_lt hi).1

/-- **C100.** If the target grid covers the source grid, the coefficients of a source cell add up to its volume. -/
theorem C100_source_covered {eps : K} {src tgt : List (List K)} (h : GridsOK eps src tgt) (hsep : Separated eps src tgt) (hc : Covers tgt src) {fuel : Nat}
    (hf : ∀ s ∈ src, ∀ t ∈ tgt, s.length + t.length ≤ fuel) : ∃ W, interpolateCC eps fuel src tgt = .ok (some W) ∧
      ∀ j < (nbAlong src).prod, ∑ i ∈ range (nbAlong tgt).prod, coef W i j = cellVol src (gridPos (nbAlong src) j) := by
  obtain ⟨W, w1, -, -, w4⟩ := C100_exact h hsep hf
  refine ⟨W, w1, fun j hj => ?_⟩
  rw [sum_congr rfl fun i hi => (w4 i (mem_range.mp hi) j hj).trans (cutVol_comm _ _ _ _)]
  exact sum_cutVol h.pos h.tgtOK h.srcOK hc (gridPos_lt hj).1

/-! ## The remapper -/

/-- the remapper prepared with two grids is in the same state as after `setCrudeMatrix` with the matrix of the intersections -/
theorem prepareCC_ok {eps : K} {src tgt : List (List K)} (h : GridsOK eps src tgt) (hd : src.length ≤ 3) {fuel : Nat}
    (hf : ∀ s ∈ src, ∀ t ∈ tgt, s.length + t.length ≤ fuel) (r : Rem K) {clock : Nat} (hc : clock ≠ 0) (disc : Nat) {W : List (Row K)}
    (hW : interpolateCC eps fuel src tgt = .ok (some W)) :
    ∃ r', prepareCC r clock disc eps fuel src tgt = .ok (some r') ∧ RemReach ⟨disc, (nbAlong src).prod⟩ ⟨disc, (nbAlong tgt).prod⟩ W r' := by
  obtain ⟨W', w1, w2, w3, -⟩ := matrix_gen h hf
  rw [hW] at w1
  simp only [Except.ok.injEq, Option.some.injEq] at w1
  subst w1
  have hnt : (gridCells tgt).toNat = (nbAlong tgt).prod := by rw [gridCells_nat fun x hx => (h.tgtOK x hx).1]; rfl
  have hns : (gridCells src).toNat = (nbAlong src).prod := by rw [gridCells_nat fun x hx => (h.srcOK x hx).1]; rfl
  have hpos : 1 ≤ src.length := List.length_pos_iff.mpr h.ne
  have hkeep : (W.map fun row => row.filter fun e => |e.2| > (0 : K)) = W := by
    conv_rhs => rw [← List.map_id W]
    refine List.map_congr_left fun row hrow => ?_
    rw [id, List.filter_eq_self]
    intro e he
    have := w3 row hrow e he
    simpa using this.ne'
  have hrun : prepareCC r clock disc eps fuel src tgt = .ok (some ⟨some (⟨disc, (nbAlong src).prod⟩, ⟨disc, (nbAlong tgt).prod⟩), W,
      List.replicate W.length [], List.replicate (nbAlong src).prod [], r.nature, clock⟩) := by
    rw [prepareCC, if_neg (not_not.mpr h.dim.symm), if_neg (not_not.mpr ⟨hpos, hd⟩), hW, ok_bind]
    simp only [hns, hnt]
    rw [C82_small_removed (by exact w2.sorted) 0]
    simp only [hkeep]
  refine ⟨_, hrun, .init (r0 := r) hc w2.sorted ?_⟩
  rw [setCrudeMatrix, if_neg (not_not.mpr w2.len), if_neg]
  simp only [List.any_eq_true, decide_eq_true_eq, not_exists, not_and]
  rintro row hrow e he hbad
  have := w2.cols row hrow e he
  omega

/-- **C100.** Remapping an intensive field between two Cartesian grids which fill the same box, with the nature which conserves the integral: the integral
of the field is the same on the two grids. -/
theorem C100_integral_conserved {eps : K} {src tgt : List (List K)} (h : GridsOK eps src tgt) (hd : src.length ≤ 3) (hsep : Separated eps src tgt)
    (hc : Covers tgt src) {fuel : Nat} (hf : ∀ s ∈ src, ∀ t ∈ tgt, s.length + t.length ≤ fuel) (r : Rem K) {clock : Nat} (hcl : clock ≠ 0) (disc : Nat) :
    ∃ r', prepareCC r clock disc eps fuel src tgt = .ok (some r') ∧
      ∀ {f g : RField K}, RLiesOn f ⟨disc, (nbAlong src).prod⟩ → RLiesOn g ⟨disc, (nbAlong tgt).prod⟩ →
        f.nature = .intensiveConservation → g.nature = .intensiveConservation → f.meshDim ≠ -1 → g.meshDim ≠ -1 →
        (∀ i < (nbAlong tgt).prod, g.measure.getD i 0 = cellVol tgt (gridPos (nbAlong tgt) i)) →
        ∀ {nc : Nat} {S old : List K}, Holds f nc S → Receives g nc old → ∀ junk : K,
          ∃ r'' T, transferUnderground r' f g (some 0) junk = .ok (r'', { g with arr := some (nc, T) }) ∧ ∀ c < nc,
            ∑ i ∈ range (nbAlong tgt).prod, cellVol tgt (gridPos (nbAlong tgt) i) * rtup nc T i c =
            ∑ j ∈ range (nbAlong src).prod, cellVol src (gridPos (nbAlong src) j) * rtup nc S j c := by
  obtain ⟨W, w1, w2⟩ := C100_source_covered h hsep hc hf
  obtain ⟨r', r1, r2⟩ := prepareCC_ok h hd hf r hcl disc w1
  refine ⟨r', r1, fun {f g} hfl hgl hnf hng hdf hdg hmeas {nc S old} hS hold junk => ?_⟩
  have hpos : ∀ i < (nbAlong tgt).prod, g.measure.getD i 0 ≠ 0 := by
    intro i hi
    rw [hmeas i hi]
    have key : ∀ (axes : List (List K)) (I : List Nat), (∀ x ∈ axes, x ≠ [] ∧ AxisOK eps x) → List.Forall₂ (fun i n => i < n) I (nbAlong axes) → 0 < cellVol axes I := by
      intro axes
      induction axes with
      | nil => intro I _ _; cases I <;> simp [cellVol]
      | cons x axes ih =>
        intro I hax hI
        simp only [nbAlong, List.map_cons] at hI
        obtain ⟨a, I', ha, hI', rfl⟩ := List.forall₂_cons_right_iff.mp hI
        rw [cellVol]
        have := (hax x (by simp)).2 a (by omega)
        have hp := h.pos
        exact mul_pos (by linarith) (ih I' (fun y hy => hax y (List.mem_cons_of_mem _ hy)) hI')
    exact (key tgt _ h.tgtOK (gridPos_lt hi).1).ne'
  obtain ⟨r'', T, t1, t2⟩ := C81_intensive_conservation r2 hfl hgl hnf hng hdf hdg hS hold hpos junk
  refine ⟨r'', T, t1, fun c hcc => ?_⟩
  have t2 := t2 c hcc
  simp only at t2
  rw [sum_congr rfl fun i hi => by rw [hmeas i (mem_range.mp hi)]] at t2
  rw [t2]
  exact sum_congr rfl fun j hj => by rw [w2 j (mem_range.mp hj)]

/-- **C100.** Remapping an extensive field with the nature which conserves the sum, from a grid to one which covers it: the sum of the values is the same. -/
theorem C100_sum_conserved {eps : K} {src tgt : List (List K)} (h : GridsOK eps src tgt) (hd : src.length ≤ 3) (hsep : Separated eps src tgt)
    (hc : Covers tgt src) {fuel : Nat} (hf : ∀ s ∈ src, ∀ t ∈ tgt, s.length + t.length ≤ fuel) (r : Rem K) {clock : Nat} (hcl : clock ≠ 0) (disc : Nat) :
    ∃ r', prepareCC r clock disc eps fuel src tgt = .ok (some r') ∧
      ∀ {f g : RField K}, RLiesOn f ⟨disc, (nbAlong src).prod⟩ → RLiesOn g ⟨disc, (nbAlong tgt).prod⟩ →
        f.nature = .extensiveConservation → g.nature = .extensiveConservation →
        ∀ {nc : Nat} {S old : List K}, Holds f nc S → Receives g nc old → ∀ junk : K,
          ∃ r'' T, transferUnderground r' f g (some 0) junk = .ok (r'', { g with arr := some (nc, T) }) ∧ ∀ c < nc,
            ∑ i ∈ range (nbAlong tgt).prod, rtup nc T i c = ∑ j ∈ range (nbAlong src).prod, rtup nc S j c := by
  obtain ⟨W, w1, w2⟩ := C100_source_covered h hsep hc hf
  obtain ⟨r', r1, r2⟩ := prepareCC_ok h hd hf r hcl disc w1
  refine ⟨r', r1, fun {f g} hfl hgl hnf hng {nc S old} hS hold junk => ?_⟩
  obtain ⟨r'', T, t1, t2⟩ := C81_extensive_conservation r2 hfl hgl hnf hng hS hold junk
  refine ⟨r'', T, t1, fun c hcc => ?_⟩
  rw [t2 c hcc, filter_true_of_mem]
  intro j hj
  have hj := mem_range.mp hj
  rw [w2 j hj]
  have key : ∀ (axes : List (List K)) (I : List Nat), (∀ x ∈ axes, x ≠ [] ∧ AxisOK eps x) → List.Forall₂ (fun i n => i < n) I (nbAlong axes) → 0 < cellVol axes I := by
    intro axes
    induction axes with
    | nil => intro I _ _; cases I <;> simp [cellVol]
    | cons x axes ih =>
      intro I hax hI
      simp only [nbAlong, List.map_cons] at hI
      obtain ⟨a, I', ha, hI', rfl⟩ := List.forall₂_cons_right_iff.mp hI
      rw [cellVol]
      have := (hax x (by simp)).2 a (by omega)
      have hp := h.pos
      exact mul_pos (by linarith) (ih I' (fun y hy => hax y (List.mem_cons_of_mem _ hy)) hI')
  exact (key src _ h.srcOK (gridPos_lt hj).1).ne'

/-- **C100.** Grids of different dimensions, or of dimension other than 1, 2 and 3, are refused. -/
theorem C100_refused (r : Rem K) (clock disc : Nat) (eps : K) (fuel : Nat) (src tgt : List (List K))
    (h : tgt.length ≠ src.length ∨ src.length = 0 ∨ 3 < src.length) : prepareCC r clock disc eps fuel src tgt = throwX := by
  rw [prepareCC]
  by_cases h1 : tgt.length ≠ src.length
  · rw [if_pos h1]
  · rw [if_neg h1, if_pos (by omega)]

/-! ## Findings -/

/-- **C100, finding.** With a precision of zero (`setPrecision(0.)`) the computation never ends for two equal grids of one cell: neither index moves when the two
cells end at the same place, and the list of interferences grows without limit. -/
theorem C100_finding_zero_precision (fuel : Nat) : ccFirst (0 : ℚ) [0, 1] [0, 1] (fuel + 1) 0 0 = .ok (some (some (0, 0))) ∧
    ccNext (0 : ℚ) [0, 1] [0, 1] fuel 0 0 = .ok none := by
  constructor
  · rw [ccFirst, if_pos (by decide)]
    have h1 : rd ([0, 1] : List ℚ) ((0 : Nat) : Int) = .ok 0 := rfl
    have h2 : rd ([0, 1] : List ℚ) ((0 + 1 : Nat) : Int) = .ok 1 := rfl
    rw [h1, ok_bind, h2, ok_bind, if_neg (by norm_num), ok_bind, ok_bind, if_neg (by norm_num)]
  · induction fuel with
    | zero => rfl
    | succ fuel ih =>
      have h1 : rd ([0, 1] : List ℚ) ((0 : Nat) : Int) = .ok 0 := rfl
      have h2 : rd ([0, 1] : List ℚ) ((0 + 1 : Nat) : Int) = .ok 1 := rfl
      rw [ccNext, h1, ok_bind, ok_bind, h2, ok_bind, ok_bind]
      simp only
      rw [if_neg (show ¬ ((1 : ℚ) - 1 > -0) by norm_num), if_neg (show ¬ ((1 : ℚ) - 1 < 0) by norm_num)]
      simp only [if_true]
      rw [ih]
      rfl

/-- **C100, finding.** With cells smaller than the precision a coefficient can be negative. -/
theorem C100_finding_small_cells : interpolateCC (1 : ℚ) 10 [[0, 10, 101/10]] [[0, 51/5, 12]] = .ok (some [[(0, 10)], [(1, -1/10)]]) := by
  decide +kernel

/-! ## Examples -/

/-- a grid of 2 × 1 cells and one of 3 × 2 cells -/
def exCCs : List (List ℚ) := [[0, 1, 3], [0, 2]]
/-- see `exCCs` -/
def exCCt : List (List ℚ) := [[0, 1/2, 2, 3], [0, 1, 2]]

/-- the hypotheses hold for the two grids and the matrix is what one computes by hand -/
example : GridsOK (1/10) exCCs exCCt ∧ Separated (1/10) exCCs exCCt ∧ Covers exCCs exCCt ∧ Covers exCCt exCCs ∧
    interpolateCC (1/10) 10 exCCs exCCt =
      .ok (some [[(0, 1/2)], [(0, 1/2), (1, 1)], [(1, 1)], [(0, 1/2)], [(0, 1/2), (1, 1)], [(1, 1)]]) ∧
    nbAlong exCCt = [3, 2] ∧ gridPos [3, 2] 4 = [1, 1] ∧ cellVol exCCt [1, 1] = 3/2 := by
  refine ⟨⟨by norm_num, rfl, by simp [exCCs], ?_, ?_⟩, ?_, ?_, ?_, by decide +kernel, rfl, rfl, ?_⟩
  · intro x hx
    simp only [exCCs, List.mem_cons, List.not_mem_nil, or_false] at hx
    rcases hx with rfl | rfl <;> refine ⟨by simp, fun i hi => ?_⟩ <;> simp only [List.length_cons, List.length_nil] at hi
    · obtain rfl | rfl : i = 0 ∨ i = 1 := by omega
      all_goals norm_num
    · obtain rfl : i = 0 := by omega
      norm_num
  · intro x hx
    simp only [exCCt, List.mem_cons, List.not_mem_nil, or_false] at hx
    rcases hx with rfl | rfl <;> refine ⟨by simp, fun i hi => ?_⟩ <;> simp only [List.length_cons, List.length_nil] at hi
    · obtain rfl | rfl | rfl : i = 0 ∨ i = 1 ∨ i = 2 := by omega
      all_goals norm_num
    · obtain rfl | rfl : i = 0 ∨ i = 1 := by omega
      all_goals norm_num
  · refine .cons ?_ (.cons ?_ .nil) <;> decide +kernel
  · refine .cons ?_ (.cons ?_ .nil) <;> norm_num
  · refine .cons ?_ (.cons ?_ .nil) <;> norm_num
  · norm_num [cellVol, exCCt]

end
end MC
