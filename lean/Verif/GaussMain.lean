import Verif.GaussThm
import Mathlib.Analysis.Calculus.Deriv.Add

/-!
# C96: location of the Gauss points and derivatives of the shape functions
-/

namespace MC

section
variable {K : Type} [Field K] [LinearOrder K] [IsStrictOrderedRing K]

theorem isEqualG_neg_one (r : K) (h : isEqualG (((-1 : Rat)) : K) r = true) : r < 0 := by
  by_contra hr
  push Not at hr
  unfold isEqualG at h
  have h1 : |((-1 : Rat) : K)| = 1 := by simp
  rw [h1, abs_of_nonneg hr] at h
  have h2 : (1 : K) + r > 1 / 1000 := by
    have : (1 : K) / 1000 < 1 := by norm_num
    linarith
  rw [if_pos h2] at h
  simp only [decide_eq_true_eq] at h
  have h3 : |((-1 : Rat) : K) - r| = 1 + r := by
    rw [abs_of_nonpos (by push_cast; linarith)]; push_cast; ring
  have hp : (1 : K) + r ≠ 0 := by
    have : (0 : K) < 1 + r := by linarith
    exact this.ne'
  rw [h3, div_self hp] at h
  norm_num at h

theorem initPoint1_ok (g g' : GaussI K) (h : initPoint1 g = .ok g') :
    g.nbRef = 1 ∧ ∃ x r rows, g.fval = (x :: r) :: rows ∧ g'.fval = (1 :: r) :: rows ∧ g'.nbRef = g.nbRef := by
  unfold initPoint1 at h
  cases hp : point1Init g with
  | error e => rw [hp] at h; cases h
  | ok g1 =>
    rw [hp] at h
    simp only [ok_bind] at h
    split at h
    · next hc =>
      simp only [pure, Except.pure, Except.ok.injEq] at h
      subst h
      refine ⟨hc.1, ?_⟩
      unfold point1Init at hp
      split at hp
      · next x r rows hf =>
        simp only [Except.ok.injEq] at hp
        exact ⟨x, r, rows, hf, by rw [← hp], by rw [← hp]⟩
      · cases hp
    · cases h

/-- **C96.** For every type of cell, whatever the Gauss points are, the values of the shape functions at each Gauss point
sum to 1, and there is one value for each node. Excluded: the quadratic triangles whose first reference node has a negative
first coordinate (see `C96_finding_tri6`), and the points other than the first one for `NORM_POINT1`
(see `C96_finding_point1`). -/
theorem C96_shape_functions_sum_to_one (geo : Int) (cd : Nat) (gauss : List K) (ng : Nat) (ref : List K) (nr : Nat)
    (g : GaussI K) (h : newGaussInfo geo cd gauss ng ref nr = .ok g) (h0 : geo = 0 → ng ≤ 1)
    (h6 : geo = 6 → 0 ≤ ref.getD 0 0) : g.fval.length = ng ∧ ∀ w ∈ g.fval, w.length = g.nbRef ∧ w.sum = 1 := by
  by_cases hgeo : geo = 0
  · subst hgeo
    unfold newGaussInfo at h
    split at h
    · unfold initLocalInfo at h
      rw [if_pos (show (mkGaussI 0 (gauss.take (ng * cd)) ng (ref.take (nr * cd)) nr).geo = 0 from rfl)] at h
      obtain ⟨h1, x, r, rows, h2, h3, h4⟩ := initPoint1_ok _ _ h
      have hn : nr = 1 := h1
      subst hn
      have hf : (x :: r) :: rows = List.replicate ng (List.replicate 1 0) := h2.symm
      have hng := h0 rfl
      match ng, hng with
      | 0, _ => simp at hf
      | 1, _ =>
        simp only [List.replicate_succ, List.replicate_zero, List.cons.injEq] at hf
        obtain ⟨⟨_, rfl⟩, rfl⟩ := hf
        rw [h3, h4]
        refine ⟨rfl, ?_⟩
        simp [mkGaussI]
    · cases h
  · obtain ⟨es, hes, e, he, hnr, hcd, _, hn, hz, hf, _⟩ := newGaussInfo_ok geo cd gauss ng ref nr g hgeo h
    obtain ⟨hwf, _, hu, _, _⟩ := gaussTable_chk _ hes e he
    have hu' : e.unity = true := by
      rcases hu with ⟨h6', hh⟩ | hu
      · exfalso
        have hr := h6 h6'
        simp only at h6'
        subst h6'
        have hnr6 : nr = 6 ∧ cd = 2 := by
          have : es = [ge_tria6a, ge_tria6b] := by
            simp only [gaussTable, List.mem_cons, Prod.mk.injEq, List.not_mem_nil, or_false] at hes
            rcases hes with h | h | h | h | h | h | h | h | h | h | h | h | h | h | h | h | h | h | h <;>
              first
              | exact absurd h.1 (by decide)
              | exact h.2
          subst this
          simp only [List.mem_cons, List.not_mem_nil, or_false] at he
          rcases he with rfl | rfl
          · exact ⟨hnr, hcd⟩
          · exact ⟨hnr, hcd⟩
        obtain ⟨hn6, hc2⟩ := hnr6
        obtain ⟨rest, hrest⟩ : ∃ rest, e.ref = [-1, 1] :: rest := by
          cases hre : e.ref with
          | nil => rw [hre] at hh; cases hh
          | cons a rest =>
            rw [hre] at hh
            simp only [List.head?_cons, Option.some.injEq] at hh
            exact ⟨rest, by rw [hh]⟩
        cases ref with
        | nil =>
          unfold newGaussInfo at h
          rw [if_neg (by subst hn6; subst hc2; simp)] at h
          cases h
        | cons r rs =>
          rw [hrest] at hz
          subst hn6; subst hc2
          simp only [castL, List.flatten_cons, List.cons_append, List.map_cons, List.take_succ_cons, List.zip_cons_cons,
            List.all_cons, Bool.and_eq_true] at hz
          have := isEqualG_neg_one r hz.1
          simp at hr
          exact absurd this (not_lt.mpr hr)
      · exact hu
    rw [hf, hn]
    refine ⟨by simp, ?_⟩
    intro w hw
    simp only [List.mem_map, List.mem_range] at hw
    obtain ⟨i, _, rfl⟩ := hw
    exact ⟨by rw [e.values_length hwf, hnr], e.sum_values hu' _⟩

/-- The affine map `p ↦ A p + b` from points of `sd` coordinates to points of `sd'` coordinates. -/
def affineP (sd sd' : Nat) (A : Nat → Nat → K) (b : Nat → K) (p : List K) : List K :=
  (List.range sd').map fun d => ((List.range sd).map fun c => A d c * p.getD c 0).sum + b d

theorem ptOf_affineP (sd sd' : Nat) (A : Nat → Nat → K) (b : Nat → K) (p : List K) (d : Nat) (hd : d < sd') :
    ptOf (affineP sd sd' A b p) d = ((List.range sd).map fun c => A d c * ptOf p c).sum + b d := by
  simp [ptOf, affineP, List.getD_eq_getElem?_getD, hd]

theorem sum_range_add (n : Nat) (f g : Nat → K) :
    ((List.range n).map fun c => f c + g c).sum = ((List.range n).map f).sum + ((List.range n).map g).sum := by
  induction n with
  | zero => simp
  | succ n ih => simp only [List.range_succ, List.map_append, List.sum_append, ih]; simp; ring

theorem sum_range_mul_right (n : Nat) (f : Nat → K) (x : K) :
    ((List.range n).map fun c => f c * x).sum = ((List.range n).map f).sum * x := by
  induction n with
  | zero => simp
  | succ n ih => simp only [List.range_succ, List.map_append, List.sum_append, ih]; simp; ring

/-- The combination of the images of the nodes is the image of the combination of the nodes. -/
theorem combineAt_affine (sd sd' : Nat) (A : Nat → Nat → K) (b : Nat → K) (d : Nat) (hd : d < sd') (w : List K) :
    ∀ nodes : List (List K), w.length = nodes.length →
      combineAt d w (nodes.map (affineP sd sd' A b)) =
        ((List.range sd).map fun c => A d c * combineAt c w nodes).sum + w.sum * b d := by
  induction w with
  | nil => intro nodes _; simp [combineAt]
  | cons x w ih =>
    intro nodes hl
    cases nodes with
    | nil => simp at hl
    | cons p nodes =>
      have ih' := ih nodes (by simpa using hl)
      simp only [combineAt] at ih' ⊢
      simp only [List.map_cons, List.zipWith_cons_cons, List.sum_cons, ih', ptOf_affineP sd sd' A b p d hd]
      have : ((List.range sd).map fun c => A d c * (ptOf p c * x + (List.zipWith (fun wi p => ptOf p c * wi) w nodes).sum)) =
          (List.range sd).map fun c => A d c * ptOf p c * x + A d c * (List.zipWith (fun wi p => ptOf p c * wi) w nodes).sum :=
        List.map_congr_left fun c _ => by ring
      rw [this, sum_range_add, sum_range_mul_right]
      ring

theorem ptOf_combineG (sd : Nat) (w : List K) (nodes : List (List K)) (c : Nat) (hc : c < sd) :
    ptOf (combineG sd w nodes) c = combineAt c w nodes := by
  simp [ptOf, combineG, List.getD_eq_getElem?_getD, hc]

theorem combineG_affine (sd sd' : Nat) (A : Nat → Nat → K) (b : Nat → K) (w : List K) (nodes : List (List K))
    (hl : w.length = nodes.length) (hw : w.sum = 1) :
    combineG sd' w (nodes.map (affineP sd sd' A b)) = affineP sd sd' A b (combineG sd w nodes) := by
  unfold affineP
  conv_lhs => unfold combineG
  refine List.map_congr_left fun d hd => ?_
  rw [List.mem_range] at hd
  have := combineAt_affine sd sd' A b d hd w nodes hl
  unfold affineP at this
  rw [this, hw, one_mul]
  congr 2
  refine List.map_congr_left fun c hc => ?_
  rw [← ptOf_combineG sd w nodes c (List.mem_range.mp hc)]
  rfl

theorem rd_map_list {α β : Type} (f : α → β) (l : List α) (i : Int) : rd (l.map f) i = (rd l i).map f := by
  unfold rd
  split
  · rw [List.getElem?_map]; cases l[i.toNat]? <;> rfl
  · rfl

theorem mapM_map_except {α β : Type} (f : α → β) (F : Nat → M α) (G : Nat → M β) (h : ∀ i, G i = (F i).map f)
    (l : List Nat) : l.mapM G = (l.mapM F).map (List.map f) := by
  induction l with
  | nil => rfl
  | cons i l ih =>
    rw [List.mapM_cons, List.mapM_cons, h, ih]
    cases F i with
    | error x => rfl
    | ok a => cases l.mapM F <;> rfl

theorem mapM_length_ok {α : Type} (F : Nat → M α) (n : Nat) (l : List α) (h : (List.range n).mapM F = .ok l) :
    l.length = n := (mapM_range_okG F n l h).1

/-- **C96.** When the nodes of the mesh are moved by an affine map (a translation, a rotation, a scaling, a projection in
a space of another dimension), the Gauss points of every cell are moved by the same map; and the computation fails for the
moved mesh when it fails for the mesh. -/
theorem C96_points_follow_affine_maps (geo : Int) (cd : Nat) (gauss : List K) (ng : Nat) (ref : List K) (nr : Nat)
    (g : GaussI K) (h : newGaussInfo geo cd gauss ng ref nr = .ok g) (h0 : geo = 0 → ng ≤ 1)
    (h6 : geo = 6 → 0 ≤ ref.getD 0 0) (coords : List (List K)) (index : List Int) (sd sd' : Nat) (A : Nat → Nat → K)
    (b : Nat → K) :
    calcCoordsAlg g (coords.map (affineP sd sd' A b)) sd' index =
      (calcCoordsAlg g coords sd index).map (List.map (affineP sd sd' A b)) := by
  obtain ⟨_, hall⟩ := C96_shape_functions_sum_to_one geo cd gauss ng ref nr g h h0 h6
  unfold calcCoordsAlg
  have key : ∀ w ∈ g.fval, calcPoint g (coords.map (affineP sd sd' A b)) sd' index w =
      (calcPoint g coords sd index w).map (affineP sd sd' A b) := by
    intro w hw
    obtain ⟨hl, hs⟩ := hall w hw
    unfold calcPoint
    rw [mapM_map_except (affineP sd sd' A b) (cellNode coords index)]
    · cases hm : (List.range g.nbRef).mapM (cellNode coords index) with
      | error x => rfl
      | ok nodes =>
        have hn := mapM_length_ok _ _ _ hm
        simp only [Except.map, ok_bind, pure, Except.pure]
        rw [combineG_affine sd sd' A b w nodes (by omega) hs]
    · intro i
      unfold cellNode
      cases rd index i with
      | error x => rfl
      | ok id => simp only [ok_bind]; exact rd_map_list _ _ _
  revert key
  generalize g.fval = rows
  intro key
  clear hall
  induction rows with
  | nil => rfl
  | cons w rows ih =>
    have ih' := ih fun x hx => key x (List.mem_cons_of_mem _ hx)
    rw [List.mapM_cons, List.mapM_cons, key w (by simp), ih']
    cases calcPoint g coords sd index w with
    | error x => rfl
    | ok a => cases rows.mapM (calcPoint g coords sd index) <;> rfl

end

end MC
