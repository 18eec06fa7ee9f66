import Verif.GaussRef

/-!
# C96: derivatives of the shape functions, findings and examples
-/

namespace MC

open Function

theorem ptOf_set {K : Type} [Field K] (p : List K) (k : Nat) (hk : k < p.length) (t : K) :
    ptOf (p.set k t) = update (ptOf p) k t := by
  funext j
  by_cases h : j = k
  · subst h; simp [ptOf, hk]
  · rw [update_of_ne h]
    simp [ptOf, List.getD_eq_getElem?_getD, List.getElem?_set, Ne.symm h]

/-- **C96.** The derivatives of all the reference cells are the partial derivatives of the shape functions, at every point
of the space (farther than 1e-12 from the plane of the apex for the pyramids). -/
theorem C96_derivatives (t : Int × List RefElt) (ht : t ∈ gaussTable) (e : RefElt) (he : e ∈ t.2) (p : List ℝ)
    (hp : p.length = e.dim) (hfar : t.1 = 15 ∨ t.1 = 23 → 1 / 1000000000000 < |p.getD 2 0 - 1|) (i k : Nat)
    (hi : i < e.fn.length) (hk : k < e.dim) :
    HasDerivAt (fun s => (e.values (p.set k s)).getD i 0) (((e.derivs p).getD i []).getD k 0) (p.getD k 0) := by
  obtain ⟨hwf, hdv, _, _, hpo⟩ := gaussTable_chk t ht e he
  simp only [RefElt.wf, Bool.and_eq_true, decide_eq_true_eq, List.all_eq_true] at hwf
  have hdl : e.dev.length = e.fn.length := hwf.1.1.1.2
  have hdk : ∀ d ∈ e.dev, d.length = e.dim := hwf.1.2
  have hf : e.fn[i]? = some e.fn[i] := List.getElem?_eq_getElem hi
  have hd : e.dev[i]? = some (e.dev[i]'(by omega)) := List.getElem?_eq_getElem (by omega)
  have hlen : (e.dev[i]'(by omega)).length = e.dim := hdk _ (List.getElem_mem _)
  have hx : (e.dev[i]'(by omega))[k]? = some ((e.dev[i]'(by omega))[k]'(by omega)) := List.getElem?_eq_getElem (by omega)
  have hn : e.pole = true → nearApex p = false := by
    intro h
    unfold nearApex ptOf
    exact decide_eq_false (not_lt.mpr (hfar (hpo h)).le)
  have hmain := e.hasDerivAt hdv p hn i k _ _ _ hf hd hx
  have hder : ((e.derivs p).getD i []).getD k 0 = PExp.eval (ptOf p) ((e.dev[i]'(by omega))[k]'(by omega)) := by
    rw [e.derivs_of_far p hn]
    simp only [List.getD_eq_getElem?_getD, List.getElem?_map, hd, Option.map_some, Option.getD_some, hx]
  rw [hder]
  refine hmain.congr_of_eventuallyEq ?_
  have hval : ∀ s, (e.pole = true → nearApex (p.set k s) = false) →
      (e.values (p.set k s)).getD i 0 = e.fn[i].eval (update (ptOf p) k s) := by
    intro s hs
    rw [e.values_of_far _ hs, ← ptOf_set p k (by omega) s]
    simp only [List.getD_eq_getElem?_getD, List.getElem?_map, hf, Option.map_some, Option.getD_some]
  by_cases hpole : e.pole = true
  · by_cases hk2 : k = 2
    · subst hk2
      have hopen : IsOpen {s : ℝ | 1 / 1000000000000 < |s - 1|} :=
        isOpen_lt continuous_const (continuous_abs.comp (continuous_id.sub continuous_const))
      filter_upwards [hopen.mem_nhds (hfar (hpo hpole))] with s hs
      refine hval s fun _ => ?_
      unfold nearApex
      rw [ptOf_set p 2 (by omega) s, update_self]
      exact decide_eq_false (not_lt.mpr (le_of_lt hs))
    · refine Filter.Eventually.of_forall fun s => hval s fun _ => ?_
      have := hn hpole
      unfold nearApex at this ⊢
      rwa [ptOf_set p k (by omega) s, update_of_ne (fun h => hk2 h.symm)]
  · exact Filter.Eventually.of_forall fun s => hval s fun h => absurd h hpole

theorem sum_getD_range {K : Type} [Field K] (l : List K) : (∑ i ∈ Finset.range l.length, l.getD i 0) = l.sum := by
  induction l with
  | nil => simp
  | cons a l ih =>
    rw [List.length_cons, Finset.sum_range_succ']
    simp only [List.getD_cons_succ, List.getD_cons_zero, List.sum_cons, ih]
    ring

/-- **C96.** At every point the derivatives of the shape functions of the nodes sum to 0, whatever the direction is: the
jacobian computed with them does not change when the cell is moved. (Not at the apex of the pyramids of 13 nodes, see
`C96_finding_pyra13`.) -/
theorem C96_derivatives_sum_to_zero (t : Int × List RefElt) (ht : t ∈ gaussTable) (e : RefElt) (he : e ∈ t.2)
    (h6 : t.1 = 6 → e.ref.head? ≠ some [-1, 1]) (p : List ℝ) (hp : p.length = e.dim)
    (hfar : t.1 = 15 ∨ t.1 = 23 → 1 / 1000000000000 < |p.getD 2 0 - 1|) (k : Nat) (hk : k < e.dim) :
    ∑ i ∈ Finset.range e.fn.length, ((e.derivs p).getD i []).getD k 0 = 0 := by
  have hsum := HasDerivAt.fun_sum (u := Finset.range e.fn.length)
    (A := fun i s => (e.values (p.set k s)).getD i 0) (A' := fun i => ((e.derivs p).getD i []).getD k 0)
    (x := p.getD k 0) (fun i hi => C96_derivatives t ht e he p hp hfar i k (Finset.mem_range.mp hi) hk)
  obtain ⟨hwf, _, hu, _, _⟩ := gaussTable_chk t ht e he
  have hu' : e.unity = true := hu.resolve_left fun h => h6 h.1 h.2
  have hone : (fun s => ∑ i ∈ Finset.range e.fn.length, (e.values (p.set k s)).getD i 0) = fun _ => (1 : ℝ) := by
    funext s
    rw [← e.values_length hwf (p.set k s), sum_getD_range, e.sum_values hu']
  rw [hone] at hsum
  exact hsum.unique (hasDerivAt_const _ _)

/-! ## The apex of the pyramids -/

/-- the expression on the axis `gc[0] = gc[1] = 0` -/
def PExp.axis : PExp → PExp
  | .num q => .num q
  | .gc k => if k < 2 then .num 0 else .gc k
  | .neg a => .neg a.axis
  | .add a b => .add a.axis b.axis
  | .sub a b => .sub a.axis b.axis
  | .mul a b => .mul a.axis b.axis
  | .div a b => .div a.axis b.axis

theorem PExp.eval_axis {K : Type} [Field K] (z : K) (e : PExp) :
    e.axis.eval (ptOf [0, 0, z]) = e.eval (ptOf [0, 0, z]) := by
  induction e with
  | num q => rfl
  | gc k =>
    unfold PExp.axis
    split
    · next h =>
      match k, h with
      | 0, _ => simp [PExp.eval, ptOf]
      | 1, _ => simp [PExp.eval, ptOf]
    · rfl
  | neg a ih => simp only [axis, eval, ih]
  | add a b iha ihb => simp only [axis, eval, iha, ihb]
  | sub a b iha ihb => simp only [axis, eval, iha, ihb]
  | mul a b iha ihb => simp only [axis, eval, iha, ihb]
  | div a b iha ihb => simp only [axis, eval, iha, ihb]

/-- **C96.** For the pyramids of 5 nodes, the derivatives at the apex are the ones of all the points of the axis. -/
theorem C96_apex_derivatives_pyra5 {K : Type} [Field K] [LinearOrder K] [IsStrictOrderedRing K] (e : RefElt)
    (he : e = ge_pyra5a ∨ e = ge_pyra5b) (z : K) : e.derivs [0, 0, z] = e.derivs [0, 0, 1] := by
  have hchk : ∀ e, e = ge_pyra5a ∨ e = ge_pyra5b → ∃ a, e.apex = some a ∧ e.dev.length = a.2.length ∧
      ((List.zip e.dev a.2).all fun (x, c) => x.length = c.length ∧
        (List.zip x c).all fun (y, q) => PExp.eqv true y.axis (.num q)) = true := by
    intro e he
    rcases he with rfl | rfl
    · exact ⟨_, rfl, rfl, by decide +kernel⟩
    · exact ⟨_, rfl, rfl, by decide +kernel⟩
  obtain ⟨a, ha, hl, hc⟩ := hchk e he
  have h1 : nearApex ([0, 0, 1] : List K) = true := by simp [nearApex, ptOf]
  by_cases hn : nearApex [0, 0, z] = true
  · simp [RefElt.derivs, ha, hn, h1]
  · simp only [RefElt.derivs, ha, h1, if_true, if_neg hn]
    have hz := nearApex_false [0, 0, z] (by simpa using hn)
    have inner : ∀ (x : List PExp) (c : List Rat), x.length = c.length →
        ((List.zip x c).all fun (y, q) => PExp.eqv true y.axis (.num q)) = true →
        x.map (PExp.eval (ptOf [0, 0, z])) = castL c := by
      intro x
      induction x with
      | nil => intro c hl _; cases c with | nil => rfl | cons _ _ => simp at hl
      | cons y x ih =>
        intro c hl h
        cases c with
        | nil => simp at hl
        | cons q c =>
          simp only [List.zip_cons_cons, List.all_cons, Bool.and_eq_true] at h
          have := PExp.eqv_sound (ptOf [0, 0, z]) true _ _ h.1 (fun _ => hz)
          rw [PExp.eval_axis] at this
          rw [List.map_cons, this, ih c (by simpa using hl) h.2]
          rfl
    have outer : ∀ (d : List (List PExp)) (c : List (List Rat)), d.length = c.length →
        ((List.zip d c).all fun (x, c) => x.length = c.length ∧
          (List.zip x c).all fun (y, q) => PExp.eqv true y.axis (.num q)) = true →
        d.map (fun l => l.map (PExp.eval (ptOf [0, 0, z]))) = c.map castL := by
      intro d
      induction d with
      | nil => intro c hl _; cases c with | nil => rfl | cons _ _ => simp at hl
      | cons x d ih =>
        intro c hl h
        cases c with
        | nil => simp at hl
        | cons q c =>
          simp only [List.zip_cons_cons, List.all_cons, Bool.and_eq_true, decide_eq_true_eq] at h
          rw [List.map_cons, List.map_cons, inner x q h.1.1 h.1.2, ih c (by simpa using hl) h.2]
    exact outer e.dev a.2 hl hc

theorem tryElts_geo {K : Type} [Field K] [LinearOrder K] (es : List RefElt) (g g' : GaussI K)
    (h : tryElts es g = .ok g') : g'.geo = g.geo := by
  induction es generalizing g with
  | nil => simp [tryElts, throwX] at h
  | cons e es ih =>
    unfold tryElts initElt at h
    rcases hr : (List.range g.nbGauss).mapM (initRow e g) with er | rows
    · rw [hr] at h; simp [bind, Except.bind] at h
    · rw [hr] at h
      simp only [bind, Except.bind, pure, Except.pure] at h
      split at h
      · simp only [Except.ok.injEq] at h; rw [← h]
      · rw [ih _ h]

theorem initPoint1_geo {K : Type} [Field K] [LinearOrder K] (g g' : GaussI K) (h : initPoint1 g = .ok g') :
    g'.geo = g.geo := by
  unfold initPoint1 at h
  rcases hq : point1Init g with er | q
  · rw [hq] at h; simp [bind, Except.bind] at h
  · rw [hq] at h
    simp only [bind, Except.bind, pure, Except.pure] at h
    have hg : q.geo = g.geo := by
      unfold point1Init at hq
      split at hq
      · simp only [Except.ok.injEq] at hq; rw [← hq]
      · simp [undef] at hq
    split at h
    · simp only [Except.ok.injEq] at h; rw [← h, hg]
    · simp [throwX] at h

theorem newGaussInfo_geo {K : Type} [Field K] [LinearOrder K] (geo : Int) (cd : Nat) (gauss : List K) (ng : Nat)
    (ref : List K) (nr : Nat) (g : GaussI K) (h : newGaussInfo geo cd gauss ng ref nr = .ok g) : g.geo = geo := by
  unfold newGaussInfo at h
  split at h
  · unfold initLocalInfo at h
    split at h
    · exact initPoint1_geo _ _ h
    · split at h
      · exact tryElts_geo _ _ _ h
      · simp [throwX] at h
  · simp [undef] at h

/-! ## Several types -/

theorem find_putInfo {K : Type} (i : GaussI K) (l : List (GaussI K)) (geo : Int) :
    (putInfo i l).find? (fun j => j.geo = geo) = if geo = i.geo then some i else l.find? fun j => j.geo = geo := by
  induction l with
  | nil =>
    by_cases h : geo = i.geo
    · simp [putInfo, h]
    · simp [putInfo, h, Ne.symm h]
  | cons j l ih =>
    unfold putInfo
    by_cases hj : j.geo = i.geo
    · rw [if_pos hj]
      by_cases h : geo = i.geo
      · simp [h]
      · simp [h, hj, Ne.symm h]
    · rw [if_neg hj]
      by_cases hg : j.geo = geo
      · have h : geo ≠ i.geo := fun h => hj (hg.trans h)
        simp [hg, h]
      · rw [List.find?_cons_of_neg (by simpa using hg), ih, List.find?_cons_of_neg (by simpa using hg)]

/-- **C96.** A location given for a type replaces the former one of this type, and leaves the points of the cells of the
other types where they were; the cells of a type without location are refused. -/
theorem C96_one_location_for_each_type {K : Type} [Field K] [LinearOrder K] [IsStrictOrderedRing K] (l l' : List (GaussI K))
    (geo : Int) (cd : Nat) (gauss : List K) (ng : Nat) (ref : List K) (nr : Nat)
    (h : addGaussInfo l geo cd gauss ng ref nr = .ok l') (coords : List (List K)) (sd : Nat) (index : List Int) :
    (∃ g, newGaussInfo geo cd gauss ng ref nr = .ok g ∧
      calculateCoords l' geo coords sd index = calcCoordsAlg g coords sd index) ∧
    (∀ geo', geo' ≠ geo → calculateCoords l' geo' coords sd index = calculateCoords l geo' coords sd index) ∧
    calculateCoords ([] : List (GaussI K)) geo coords sd index = .error .exn := by
  unfold addGaussInfo at h
  rcases hn : newGaussInfo geo cd gauss ng ref nr with er | g
  · rw [hn] at h; simp [bind, Except.bind] at h
  · rw [hn] at h
    simp only [bind, Except.bind, pure, Except.pure, Except.ok.injEq] at h
    have hgeo : g.geo = geo := newGaussInfo_geo geo cd gauss ng ref nr g hn
    subst h
    refine ⟨⟨g, rfl, ?_⟩, fun geo' hne => ?_, rfl⟩
    · simp [calculateCoords, getInfoG, find_putInfo, hgeo, bind, Except.bind]
    · simp [calculateCoords, getInfoG, find_putInfo, hgeo, hne]

/-! ## Findings -/

/-- **Finding.** `NORM_TRI6` with the first reference cell, the one with the corners (-1,1), (-1,-1), (1,-1), which is also
the default one: the table `TRIA6A_REF` has (-1,1) in the place of (-1,0) for the fourth node, so that the reference nodes of
this triangle are refused, and the last shape function is `(1 + y)²` in the place of `(1 + x)(1 + y)`: with the coordinates
which are accepted, the values at a Gauss point do not sum to 1, and the point placed on the first node is not on it. -/
theorem C96_finding_tri6 :
    (newGaussInfo (K := Rat) 6 2 [0, -1/2] 1 [-1, 1, -1, -1, 1, -1, -1, 0, 0, -1, 0, 0] 6).map (·.fval) = .error .exn ∧
    (newGaussInfo (K := Rat) 6 2 [0, -1/2] 1 [-1, 1, -1, -1, 1, -1, -1, 1, 0, -1, 0, 0] 6).map (fun g => g.fval.map List.sum) =
      .ok [3/4] ∧
    (newGaussInfo (K := Rat) 6 2 [-1, 1] 1 [-1, 1, -1, -1, 1, -1, -1, 1, 0, -1, 0, 0] 6).map (·.fval) =
      .ok [[1, 0, 0, 0, 0, 4]] := by
  decide +kernel

/-- **Finding.** `NORM_POINT1` with several Gauss points: only the first one has the value 1, the other ones are placed at
the origin. -/
theorem C96_finding_point1 :
    ((newGaussInfo (K := Rat) 0 0 [] 2 [] 1).bind fun g => calcCoordsAlg g [[5, 7]] 2 [0]) = .ok [[5, 7], [0, 0]] := by
  decide +kernel

/-- **Finding.** The shape functions are written before the number of reference nodes is checked: with fewer reference nodes
than the type has, the arrays are overrun, whereas an exception is expected. -/
theorem C96_finding_overrun :
    (newGaussInfo (K := Rat) 6 2 [1/3, 1/3] 1 [0, 0, 1, 0, 0, 1] 3).map (·.fval) = .error .ub ∧
    (newGaussInfo (K := Rat) 3 2 [1/3, 1/3] 1 [0, 0, 1, 0, 0, 1, 1/2, 0, 1/2, 1/2, 0, 1/2] 6).map (·.fval) = .error .exn := by
  decide +kernel

/-- **Finding.** The pyramids of 13 nodes, at the apex: the derivatives with respect to the first coordinate sum to -1 in the
place of 0 (`devFunValue[6]` is -0.5, the opposite of its limit on the axis) and, for the second reference cell, the ones with
respect to the third coordinate sum to -3 (`devFunValue[14]` is overwritten by 0 in the place of `devFunValue[17]`). -/
theorem C96_finding_pyra13 :
    ((List.range 3).map fun k => ((ge_pyra13a.derivs (K := Rat) [0, 0, 1]).map fun d => d.getD k 0).sum) = [-1, 0, 0] ∧
    ((List.range 3).map fun k => ((ge_pyra13b.derivs (K := Rat) [0, 0, 1]).map fun d => d.getD k 0).sum) = [-1, 0, -3] ∧
    ((ge_pyra13a.derivs (K := Rat) [0, 0, 1]).getD 2 []).getD 0 0 = -1/2 ∧
    ((ge_pyra13a.derivs (K := Rat) [0, 0, 999999/1000000]).getD 2 []).getD 0 0 = 999999/2000000 := by
  decide +kernel

/-! ## Examples -/

/-- A quadratic triangle of the space whose Gauss points are the node 4 and the centre of the reference cell. -/
example : ((newGaussInfo (K := Rat) 6 2 [1/2, 1/2, 1/3, 1/3] 2 [0, 0, 1, 0, 0, 1, 1/2, 0, 1/2, 1/2, 0, 1/2] 6).bind fun g =>
    calcCoordsAlg g [[0, 0, 0], [6, 0, 0], [0, 6, 0], [3, -1, 0], [3, 3, 2], [0, 3, 0]] 3 [0, 1, 2, 3, 4, 5]) =
    .ok [[3, 3, 2], [2, 2 - 4/9, 8/9]] := by decide +kernel

/-- The sum of the values, for a pyramid. -/
example : (newGaussInfo (K := Rat) 15 3 [1/10, 1/5, 1/2] 1 [1, 0, 0, 0, 1, 0, -1, 0, 0, 0, -1, 0, 0, 0, 1] 5).map
    (fun g => g.fval.map List.sum) = .ok [1] := by decide +kernel

/-- A translated and scaled cell. -/
example : ((newGaussInfo (K := Rat) 4 2 [1/2, 0] 1 [-1, -1, 1, -1, 1, 1, -1, 1] 4).bind fun g =>
    calcCoordsAlg g ([[0, 0], [2, 0], [2, 2], [0, 1]].map (affineP 2 2 (fun d c => if d = c then 3 else 0) (fun _ => 1))) 2
      [0, 1, 2, 3]) =
    ((newGaussInfo (K := Rat) 4 2 [1/2, 0] 1 [-1, -1, 1, -1, 1, 1, -1, 1] 4).bind fun g =>
      calcCoordsAlg g [[0, 0], [2, 0], [2, 2], [0, 1]] 2 [0, 1, 2, 3]).map
      (List.map (affineP 2 2 (fun d c => if d = c then 3 else 0) (fun _ => 1))) := by decide +kernel

/-- The hypotheses of `C96_points_of_an_image_of_the_reference_cell` hold for the second triangle and its own nodes. -/
example : (3, [ge_tria3a, ge_tria3b]) ∈ gaussTable ∧ ge_tria3b ∈ [ge_tria3a, ge_tria3b] ∧ ge_tria3b.ref.Nodup ∧
    (castL (K := Rat) ge_tria3b.ref.flatten = [0, 0, 1, 0, 0, 1]) := by
  refine ⟨by simp [gaussTable], by simp, by decide, by decide +kernel⟩

/-- Two types, the second location of the triangles replaces the first one. -/
example : ((do
    let l ← addGaussInfo (K := Rat) [] 3 2 [0, 0] 1 [0, 0, 1, 0, 0, 1] 3
    let l ← addGaussInfo l 1 1 [0] 1 [-1, 1] 2
    let l ← addGaussInfo l 3 2 [1/3, 1/3] 1 [0, 0, 1, 0, 0, 1] 3
    let a ← calculateCoords l 3 [[0, 0], [3, 0], [0, 6]] 2 [0, 1, 2]
    let b ← calculateCoords l 1 [[0, 0], [3, 0], [0, 6]] 2 [1, 2]
    return (l.length, a, b)) : M _) = .ok (2, [[1, 2]], [[3/2, 3]]) := by decide +kernel

/-- A derivative of the hexahedron of 27 nodes. -/
example : (((ge_hexa27a.derivs (K := Rat) [1/2, 1/3, 1/5]).getD 26 []).getD 0 0) = -1 * (8/9) * (24/25) := by decide +kernel

/-- The derivatives of the pyramid of 5 nodes at the apex. -/
example : (ge_pyra5a.derivs (K := Rat) [0, 0, 1/2]) = [[1/2, 0, -1/4], [0, 1/2, -1/4], [-1/2, 0, -1/4], [0, -1/2, -1/4], [0, 0, 1]] := by
  decide +kernel

end MC
