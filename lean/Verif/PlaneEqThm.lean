import Verif.PlaneEq
import Mathlib.Tactic.FinCases
import Mathlib.Tactic.LinearCombination

/-!
# The plane of a face contains its points; the planes that are never found
-/

namespace MC

section
variable {K : Type} [Field K] [LinearOrder K] [IsStrictOrderedRing K]

/-- the plane `a x + b y + c z + d = 0` contains the point -/
def OnPlane (v : List K) (p : K × K × K) : Prop := v.getD 0 0 * p.1 + v.getD 1 0 * p.2.1 + v.getD 2 0 * p.2.2 + v.getD 3 0 = 0

/-- the coordinates of node `i` are `p` -/
def NodeAt (coor : List K) (i : Int) (p : K × K × K) : Prop :=
  ∃ n : Nat, i = n ∧ coor[3 * n]? = some p.1 ∧ coor[3 * n + 1]? = some p.2.1 ∧ coor[3 * n + 2]? = some p.2.2

/-- the coordinates of the vector product of `q - p` and `r - p` -/
def NormalOf (p q r n : K × K × K) : Prop :=
  n.1 = (q.2.1 - p.2.1) * (r.2.2 - p.2.2) - (q.2.2 - p.2.2) * (r.2.1 - p.2.1) ∧
  n.2.1 = (q.2.2 - p.2.2) * (r.1 - p.1) - (q.1 - p.1) * (r.2.2 - p.2.2) ∧
  n.2.2 = (q.1 - p.1) * (r.2.1 - p.2.1) - (q.2.1 - p.2.1) * (r.1 - p.1)

/-- the norm of the vector product is more than a thousandth of the product of the norms -/
def SpreadPoints (sqrt : K → K) (p q r : K × K × K) : Prop :=
  ∀ n, NormalOf p q r n →
    sqrt ((q.1 - p.1) ^ 2 + (q.2.1 - p.2.1) ^ 2 + (q.2.2 - p.2.2) ^ 2) * sqrt ((r.1 - p.1) ^ 2 + (r.2.1 - p.2.1) ^ 2 + (r.2.2 - p.2.2) ^ 2) / 1000 <
      sqrt (n.1 ^ 2 + n.2.1 ^ 2 + n.2.2 ^ 2)

/-- the mean of points -/
def MeanPoint (ps : List (K × K × K)) : K × K × K :=
  ((ps.map (·.1)).sum / ps.length, (ps.map (·.2.1)).sum / ps.length, (ps.map (·.2.2)).sum / ps.length)

omit [LinearOrder K] [IsStrictOrderedRing K] in
theorem plNode_iff {coor : List K} {i : Int} {p : K × K × K} (h : NodeAt coor i p) : plNode coor i = .ok p := by
  obtain ⟨n, rfl, h0, h1, h2⟩ := h
  unfold plNode
  rw [rd_of_getElem? (i := (n : Int) * 3 + 0) (by omega) (by rw [show ((n : Int) * 3 + 0).toNat = 3 * n by omega]; exact h0), ok_bind,
    rd_of_getElem? (i := (n : Int) * 3 + 1) (by omega) (by rw [show ((n : Int) * 3 + 1).toNat = 3 * n + 1 by omega]; exact h1), ok_bind,
    rd_of_getElem? (i := (n : Int) * 3 + 2) (by omega) (by rw [show ((n : Int) * 3 + 2).toNat = 3 * n + 2 by omega]; exact h2), ok_bind]

theorem plWide_iff (sqrt : K → K) (p q r : K × K × K) : plWide sqrt p q r ↔ SpreadPoints sqrt p q r := by
  have hN : NormalOf p q r (plCross (plSub q p) (plSub r p)) := ⟨rfl, rfl, rfl⟩
  have key : ∀ n, NormalOf p q r n → n = plCross (plSub q p) (plSub r p) := by
    rintro ⟨a, b, c⟩ ⟨h1, h2, h3⟩
    simp only at h1 h2 h3
    simp only [plCross, plSub, h1, h2, h3]
  have sq : ∀ a : K × K × K, plSq a = a.1 ^ 2 + a.2.1 ^ 2 + a.2.2 ^ 2 := fun a => by unfold plSq; ring
  unfold plWide SpreadPoints
  rw [sq, sq, sq, gt_iff_lt]
  have e : ∀ x y : K, 1 / 1000 * x * y = x * y / 1000 := fun x y => by ring
  rw [e]
  constructor
  · intro h n hn
    rw [key n hn]
    exact h
  · intro h
    exact h _ hN

omit [LinearOrder K] [IsStrictOrderedRing K] in
theorem plAdd_fold (ps : List (K × K × K)) (s : K × K × K) :
    ps.foldl (fun s p => plAdd p s) s = (s.1 + (ps.map (·.1)).sum, s.2.1 + (ps.map (·.2.1)).sum, s.2.2 + (ps.map (·.2.2)).sum) := by
  induction ps generalizing s with
  | nil => simp
  | cons p ps ih =>
    rw [List.foldl_cons, ih]
    simp only [plAdd, List.map_cons, List.sum_cons]
    refine Prod.ext ?_ (Prod.ext ?_ ?_) <;> simp only <;> ring

omit [LinearOrder K] [IsStrictOrderedRing K] in
theorem plNodes_mapM {coor : List K} {nodes : List Int} {ps : List (K × K × K)} (h : List.Forall₂ (NodeAt coor) nodes ps) :
    nodes.mapM (plNode coor) = .ok ps := by
  induction h with
  | nil => rfl
  | cons h _ ih =>
    rw [List.mapM_cons, plNode_iff h, ok_bind, ih]
    rfl

omit [LinearOrder K] [IsStrictOrderedRing K] in
theorem plMiddle_eq {coor : List K} {nodes : List Int} {ps : List (K × K × K)} (h : List.Forall₂ (NodeAt coor) nodes ps) :
    plMiddle coor nodes = .ok (MeanPoint ps) := by
  unfold plMiddle
  rw [plNodes_mapM h, ok_bind, plAdd_fold, h.length_eq]
  simp only [MeanPoint, zero_add, mul_one_div]

/-- the matrix of `plMatrix` -/
def plMat (p q r : K × K × K) : Matrix (Fin 4) (Fin 4) K :=
  Matrix.of ![![p.1, p.2.1, p.2.2, 1], ![q.1, q.2.1, q.2.2, 1], ![r.1, r.2.1, r.2.2, 1], ![1, 1, 1, 0]]

omit [LinearOrder K] [IsStrictOrderedRing K] in
theorem plMat_isMat (p q r : K × K × K) : IsMat (⟨4, 4, plMatrix p q r⟩ : DMat K) (plMat p q r) := by
  refine ⟨rfl, rfl, rfl, fun i j => ?_⟩
  fin_cases i <;> fin_cases j <;> rfl

/-- the sum of the coordinates of the normal -/
def plNormalSum (p q r : K × K × K) : K :=
  (plCross (plSub q p) (plSub r p)).1 + (plCross (plSub q p) (plSub r p)).2.1 + (plCross (plSub q p) (plSub r p)).2.2

omit [LinearOrder K] [IsStrictOrderedRing K] in
theorem plMat_det (p q r : K × K × K) : (plMat p q r).det = - plNormalSum p q r := by
  rw [plMat, Matrix.det_succ_row_zero]
  simp [Fin.sum_univ_succ, Matrix.det_fin_three, Fin.succAbove, plNormalSum, plCross, plSub]
  ring

theorem plSolve_ok {p q r : K × K × K} {v : List K} (e : plSolve p q r = .ok v) :
    v.length = 4 ∧ v.getD 0 0 + v.getD 1 0 + v.getD 2 0 = 1 ∧ OnPlane v p ∧ OnPlane v q ∧ OnPlane v r := by
  unfold plSolve at e
  cases hm : inverseMatrix (plMatrix p q r) 4 with
  | error x => rw [hm] at e; exact nomatch e
  | ok m =>
    obtain ⟨R, hR, h1, _⟩ := C109_answer (plMat_isMat p q r) hm
    rw [hm] at e
    have c0 := hR.2.2.2 0 3
    have c1 := hR.2.2.2 1 3
    have c2 := hR.2.2.2 2 3
    have c3 := hR.2.2.2 3 3
    simp only [ok_bind] at e
    rw [rd_of_getElem? (i := 3) (by omega) c0] at e
    simp only [ok_bind] at e
    rw [rd_of_getElem? (i := 7) (by omega) c1] at e
    simp only [ok_bind] at e
    rw [rd_of_getElem? (i := 11) (by omega) c2] at e
    simp only [ok_bind] at e
    rw [rd_of_getElem? (i := 15) (by omega) c3] at e
    simp only [ok_bind] at e
    injection e with e
    subst e
    have row : ∀ i : Fin 4, ∑ k : Fin 4, plMat p q r i k * R k 3 = if i = 3 then 1 else 0 := fun i => by
      rw [← Matrix.mul_apply, h1, Matrix.one_apply]
    have r0 := row 0
    have r1 := row 1
    have r2 := row 2
    have r3 := row 3
    simp [Fin.sum_univ_four, plMat] at r0 r1 r2 r3
    refine ⟨rfl, ?_, ?_, ?_, ?_⟩
    · simpa using r3
    · simp only [OnPlane]; simp; linear_combination r0
    · simp only [OnPlane]; simp; linear_combination r1
    · simp only [OnPlane]; simp; linear_combination r2

theorem plSolve_spec (p q r : K × K × K) : (plNormalSum p q r ≠ 0 → ∃ v, plSolve p q r = .ok v) ∧ (plNormalSum p q r = 0 → plSolve p q r = undef) := by
  constructor
  · intro h
    obtain ⟨m, R, hm, hR, _⟩ := C109_inverse (by omega) (plMat_isMat p q r) (by rw [plMat_det]; exact neg_ne_zero.2 h)
    unfold plSolve
    rw [hm]
    have c0 := hR.2.2.2 0 3
    have c1 := hR.2.2.2 1 3
    have c2 := hR.2.2.2 2 3
    have c3 := hR.2.2.2 3 3
    simp only [ok_bind]
    rw [rd_of_getElem? (i := 3) (by omega) c0]
    simp only [ok_bind]
    rw [rd_of_getElem? (i := 7) (by omega) c1]
    simp only [ok_bind]
    rw [rd_of_getElem? (i := 11) (by omega) c2]
    simp only [ok_bind]
    rw [rd_of_getElem? (i := 15) (by omega) c3]
    exact ⟨_, rfl⟩
  · intro h
    unfold plSolve
    rw [C109_singular (by omega) (plMat_isMat p q r) (by rw [plMat_det, h, neg_zero])]
    rfl

/-- Three valid nodes: where the loop goes. -/
theorem planeEquation_eq (sqrt : K → K) {coor : List K} {nbNodes : Nat} {i j k : Int} {rest : List Int} {p q r : K × K × K}
    (hp : plNode coor i = .ok p) (hq : plNode coor j = .ok q) (hr : plNode coor k = .ok r) (hv : ∀ x ∈ [i, j, k], 0 ≤ x ∧ x < nbNodes) :
    planeEquation sqrt coor nbNodes (i :: j :: k :: rest) = plFrom sqrt coor (i :: j :: k :: rest) p q r := by
  have hc : plCheck nbNodes [i, j, k] = .ok () := by
    unfold plCheck
    rw [if_pos (by rw [List.all_eq_true]; intro x hx; exact decide_eq_true (hv x hx))]
  simp only [planeEquation, hp, hq, hr, hc, ok_bind]

/-- An answer is the equation of a plane through the two first nodes, and through the third one, or through the middle of the nodes when the
three first ones are nearly on a line.  The sum of the three first coefficients is 1. -/
theorem C111_plane (sqrt : K → K) {coor : List K} {nbNodes : Nat} {i j k : Int} {rest : List Int} {p q r : K × K × K}
    (hp : NodeAt coor i p) (hq : NodeAt coor j q) (hr : NodeAt coor k r) (hv : ∀ x ∈ [i, j, k], 0 ≤ x ∧ x < nbNodes) {v : List K}
    (e : planeEquation sqrt coor nbNodes (i :: j :: k :: rest) = .ok v) :
    v.length = 4 ∧ v.getD 0 0 + v.getD 1 0 + v.getD 2 0 = 1 ∧ OnPlane v p ∧ OnPlane v q ∧
      (SpreadPoints sqrt p q r → OnPlane v r) ∧
      (¬ SpreadPoints sqrt p q r → ∀ ps, List.Forall₂ (NodeAt coor) (i :: j :: k :: rest) ps → OnPlane v (MeanPoint ps)) := by
  rw [planeEquation_eq sqrt (plNode_iff hp) (plNode_iff hq) (plNode_iff hr) hv] at e
  unfold plFrom at e
  by_cases hw : plWide sqrt p q r
  · rw [if_pos hw] at e
    obtain ⟨h1, h2, h3, h4, h5⟩ := plSolve_ok e
    exact ⟨h1, h2, h3, h4, fun _ => h5, fun h => absurd ((plWide_iff sqrt p q r).1 hw) h⟩
  · rw [if_neg hw] at e
    split at e
    · exact nomatch e
    · cases hm : plMiddle coor (i :: j :: k :: rest) with
      | error x => rw [hm] at e; exact nomatch e
      | ok g =>
        rw [hm, ok_bind] at e
        obtain ⟨h1, h2, h3, h4, h5⟩ := plSolve_ok e
        exact ⟨h1, h2, h3, h4, fun h => absurd ((plWide_iff sqrt p q r).2 h) hw, fun _ ps hps => by
          rw [plMiddle_eq hps] at hm
          injection hm with hm
          exact hm ▸ h5⟩

omit [LinearOrder K] [IsStrictOrderedRing K] in
/-- With three points, all the points of their plane satisfy the equation. -/
theorem C111_coplanar {v : List K} {p q r : K × K × K} (hp : OnPlane v p) (hq : OnPlane v q) (hr : OnPlane v r) (s t : K) :
    OnPlane v (p.1 + s * (q.1 - p.1) + t * (r.1 - p.1), p.2.1 + s * (q.2.1 - p.2.1) + t * (r.2.1 - p.2.1),
      p.2.2 + s * (q.2.2 - p.2.2) + t * (r.2.2 - p.2.2)) := by
  unfold OnPlane at *
  linear_combination (1 - s - t) * hp + s * hq + t * hr

/-- When the three first nodes are not nearly on a line, the plane is found exactly when the coordinates of its normal have a sum different from 0;
otherwise there is a division by 0. -/
theorem C111_found (sqrt : K → K) {coor : List K} {nbNodes : Nat} {i j k : Int} {rest : List Int} {p q r : K × K × K}
    (hp : NodeAt coor i p) (hq : NodeAt coor j q) (hr : NodeAt coor k r) (hv : ∀ x ∈ [i, j, k], 0 ≤ x ∧ x < nbNodes)
    (hw : SpreadPoints sqrt p q r) {n : K × K × K} (hN : NormalOf p q r n) :
    (n.1 + n.2.1 + n.2.2 ≠ 0 → ∃ v, planeEquation sqrt coor nbNodes (i :: j :: k :: rest) = .ok v) ∧
    (n.1 + n.2.1 + n.2.2 = 0 → planeEquation sqrt coor nbNodes (i :: j :: k :: rest) = undef) := by
  rw [planeEquation_eq sqrt (plNode_iff hp) (plNode_iff hq) (plNode_iff hr) hv, plFrom, if_pos ((plWide_iff sqrt p q r).2 hw)]
  rw [show n.1 + n.2.1 + n.2.2 = plNormalSum p q r by rw [hN.1, hN.2.1, hN.2.2]; rfl]
  exact plSolve_spec p q r

/-- FINDING: every face in a plane parallel to the direction (1, 1, 1), that is whose equation has coefficients of sum 0, makes a division by 0
instead of an exception. -/
theorem C111_finding_normal_sum (sqrt : K → K) {coor : List K} {nbNodes : Nat} {i j k : Int} {rest : List Int} {p q r : K × K × K}
    (hp : NodeAt coor i p) (hq : NodeAt coor j q) (hr : NodeAt coor k r) (hv : ∀ x ∈ [i, j, k], 0 ≤ x ∧ x < nbNodes)
    (hw : SpreadPoints sqrt p q r) (a b c d : K) (hn : a ≠ 0 ∨ b ≠ 0 ∨ c ≠ 0) (h0 : a + b + c = 0)
    (h1 : OnPlane [a, b, c, d] p) (h2 : OnPlane [a, b, c, d] q) (h3 : OnPlane [a, b, c, d] r) :
    planeEquation sqrt coor nbNodes (i :: j :: k :: rest) = undef := by
  refine (C111_found sqrt hp hq hr hv hw (n := plCross (plSub q p) (plSub r p)) ⟨rfl, rfl, rfl⟩).2 ?_
  have hdet : (plMat p q r).det = 0 := by
    refine Matrix.exists_mulVec_eq_zero_iff.1 ⟨![a, b, c, d], ?_, ?_⟩
    · intro h
      have e0 := congrFun h 0
      have e1 := congrFun h 1
      have e2 := congrFun h 2
      simp at e0 e1 e2
      rcases hn with hn | hn | hn
      · exact hn e0
      · exact hn e1
      · exact hn e2
    · simp only [OnPlane, List.getD_cons_zero, List.getD_cons_succ] at h1 h2 h3
      ext x
      fin_cases x <;> simp [Matrix.mulVec, dotProduct, Fin.sum_univ_four, plMat]
      · linear_combination h1
      · linear_combination h2
      · linear_combination h3
      · linear_combination h0
  rw [plMat_det] at hdet
  exact neg_eq_zero.1 hdet

omit [IsStrictOrderedRing K] in
/-- There is an answer only when the three first nodes exist; when their coordinates can be read and one of them does not exist, it throws. -/
theorem C111_checked (sqrt : K → K) {coor : List K} {nbNodes : Nat} {i j k : Int} {rest : List Int} :
    (∀ v, planeEquation sqrt coor nbNodes (i :: j :: k :: rest) = .ok v → ∀ x ∈ [i, j, k], 0 ≤ x ∧ x < nbNodes) ∧
    (∀ p q r, NodeAt coor i p → NodeAt coor j q → NodeAt coor k r → (∃ x ∈ [i, j, k], x < 0 ∨ nbNodes ≤ x) →
      planeEquation sqrt coor nbNodes (i :: j :: k :: rest) = throwX) := by
  constructor
  · intro v e
    unfold planeEquation at e
    cases hp : plNode coor i with
    | error x => simp only [hp] at e; exact nomatch e
    | ok p =>
      cases hq : plNode coor j with
      | error x => simp only [hp, hq, ok_bind] at e; exact nomatch e
      | ok q =>
        cases hr : plNode coor k with
        | error x => simp only [hp, hq, hr, ok_bind] at e; exact nomatch e
        | ok r =>
          simp only [hp, hq, hr, ok_bind] at e
          unfold plCheck at e
          split at e
          · rename_i h
            intro x hx
            exact of_decide_eq_true (List.all_eq_true.1 h x hx)
          · exact nomatch e
  · rintro p q r hp hq hr ⟨x, hx, h⟩
    have hc : plCheck nbNodes [i, j, k] = throwX := by
      unfold plCheck
      rw [if_neg]
      intro ha
      have := of_decide_eq_true (List.all_eq_true.1 ha x hx)
      omega
    simp only [planeEquation, plNode_iff hp, plNode_iff hq, plNode_iff hr, hc, ok_bind]
    rfl

/-- coordinates of four nodes in a mesh of three -/
example : planeEquation (fun x : ℚ => x) [6, 0, 0, 0, 3, 0, 0, 0, 2, 1, 1, 1] 3 [0, 1, 3] = throwX := by decide +kernel

/-- A cell of fewer than three nodes, and a triangle whose nodes are nearly on a line, throw. -/
theorem C111_throws (sqrt : K → K) (coor : List K) (nbNodes : Nat) :
    (∀ nodes : List Int, nodes.length < 3 → planeEquation sqrt coor nbNodes nodes = throwX) ∧
    (∀ i j k : Int, ∀ p q r, NodeAt coor i p → NodeAt coor j q → NodeAt coor k r → (∀ x ∈ [i, j, k], 0 ≤ x ∧ x < nbNodes) →
      ¬ SpreadPoints sqrt p q r → planeEquation sqrt coor nbNodes [i, j, k] = throwX) := by
  constructor
  · intro nodes h
    match nodes, h with
    | [], _ => rfl
    | [_], _ => rfl
    | [_, _], _ => rfl
    | _ :: _ :: _ :: _, h => simp at h; omega
  · intro i j k p q r hp hq hr hv hw
    rw [planeEquation_eq sqrt (plNode_iff hp) (plNode_iff hq) (plNode_iff hr) hv, plFrom, if_neg (mt (plWide_iff sqrt p q r).1 hw), if_pos (show [i, j, k].length = 3 from rfl)]

end

/-- a square root, on the squares that occur below -/
def plSqrtQ : ℚ → ℚ := fun x => if x = 4 then 2 else if x = 9 then 3 else if x = 16 then 4 else if x = 36 then 6 else x

/-- a face in the plane z = 5, and one in the plane x + 2 y + 3 z = 6 -/
example : planeEquation plSqrtQ [0, 0, 5, 2, 0, 5, 0, 3, 5, 7, 8, 5] 4 [0, 1, 2, 3] = .ok [0, 0, 1, -5] := by decide +kernel

example : planeEquation plSqrtQ [6, 0, 0, 0, 3, 0, 0, 0, 2] 3 [0, 1, 2] = .ok [1 / 6, 1 / 3, 1 / 2, -1] := by decide +kernel

/-- the three first nodes are on a line -/
example : planeEquation plSqrtQ [0, 0, 0, 1, 0, 0, 2, 0, 0, 1, 4, 0] 4 [0, 1, 2, 3] = .ok [0, 0, 1, 0] ∧
    planeEquation plSqrtQ [0, 0, 0, 1, 0, 0, 2, 0, 0] 3 [0, 1, 2] = throwX := by constructor <;> decide +kernel

/-- FINDING: a square in the plane x = y. -/
theorem C111_finding_diagonal : planeEquation plSqrtQ [0, 0, 0, 1, 1, 0, 1, 1, 1, 0, 0, 1] 4 [0, 1, 2, 3] = undef := by decide +kernel

/-- FINDING: the coordinates of a node that does not exist are read before the node is checked. -/
theorem C111_finding_late_check : planeEquation plSqrtQ [6, 0, 0, 0, 3, 0, 0, 0, 2] 3 [0, 1, 3] = undef := by decide +kernel

end MC
