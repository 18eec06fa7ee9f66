import Verif.GaussLinChk

/-!
# C97: conversion of the quadratic reference cells to linear ones, theorems
-/

namespace MC

theorem linTable_elts (t : Int × Int × List (RefElt × RefElt)) (ht : t ∈ linTable) :
    (t.1, t.2.2.map (·.1)) ∈ gaussTable ∧ ∀ p ∈ t.2.2, ∃ es, (t.2.1, es) ∈ gaussTable ∧ p.2 ∈ es := by
  have mem (c : Int) (es : List RefElt) (h : gaussTable.lookup c = some es) : (c, es) ∈ gaussTable := lookup_mem _ _ _ h
  simp only [linTable, List.mem_cons, List.not_mem_nil, or_false] at ht
  rcases ht with rfl | rfl | rfl | rfl | rfl | rfl | rfl | rfl | rfl | rfl | rfl <;>
    refine ⟨mem _ _ rfl, fun p hp => ⟨_, mem _ _ rfl, ?_⟩⟩ <;>
    simp only [List.mem_cons, List.not_mem_nil, or_false] at hp <;>
    (try subst hp; simp) <;> rcases hp with rfl | rfl <;> simp

section
variable {K : Type} [Field K] [LinearOrder K] [IsStrictOrderedRing K]

theorem isSatisfyS_cast (a b : List Rat) : isSatisfyS (castL (K := K) a) (castL b) =
    (decide (a.length = b.length) && (List.zip a b).all fun (l, r) => isEqualG l r) := by
  unfold isSatisfyS
  rw [zip_all_castL]
  simp [castL]

theorem tryLin_pick (g : GaussI K) (lt : Int) (pre post : List (RefElt × RefElt)) (p : RefElt × RefElt)
    (hg : g.ref = castL p.1.ref.flatten) (hpre : ∀ a ∈ pre, matchQ a.1 p.1 = false) (hp : matchQ p.1 p.1 = true) :
    tryLin g lt (pre ++ p :: post) = .ok (mkGaussI lt g.gauss g.nbGauss (castL p.2.ref.flatten) p.2.ref.length) := by
  induction pre with
  | nil =>
    rw [List.nil_append, tryLin, if_pos]
    rw [hg, isSatisfyS_cast]
    simpa [matchQ] using hp
  | cons a pre ih =>
    rw [List.cons_append, tryLin, if_neg, ih fun b hb => hpre b (List.mem_cons_of_mem _ hb)]
    rw [hg, isSatisfyS_cast]
    have := hpre a (by simp)
    unfold matchQ at this
    rw [this]; simp

/-- **C97.** A reference cell of a quadratic type is converted to a reference cell of its linear type: its nodes are the first
nodes, the corners, and the Gauss points are the same. -/
theorem C97_convert_to_linear (t : Int × Int × List (RefElt × RefElt)) (ht : t ∈ linTable) (e : RefElt)
    (he : ∃ es, (t.1, es) ∈ gaussTable ∧ e ∈ es) (g : GaussI K) (hgeo : g.geo = t.1) (hg : g.ref = castL e.ref.flatten) :
    ∃ cm e' es', getCellModel t.1 = .ok cm ∧ (cm.linearType, es') ∈ gaussTable ∧ e' ∈ es' ∧
      e'.ref = e.ref.take e'.fn.length ∧ e'.ref.length = e'.fn.length ∧
      convertToLinear g = .ok (mkGaussI cm.linearType g.gauss g.nbGauss (castL e'.ref.flatten) e'.fn.length) := by
  obtain ⟨hlk, ⟨cm, hcm, _, hlt⟩, hpw, hrow⟩ := linTable_rows t ht
  obtain ⟨hq, hl⟩ := linTable_elts t ht
  obtain ⟨es, hes, hee⟩ := he
  have hsame : es = t.2.2.map (·.1) := by
    have h1 := gaussTable_lookup _ hes
    have h2 := gaussTable_lookup _ hq
    exact Option.some.inj (h1.symm.trans h2)
  rw [hsame] at hee
  obtain ⟨p, hp, rfl⟩ := List.mem_map.mp hee
  obtain ⟨es', hes', hp'⟩ := hl p hp
  obtain ⟨r1, _, r3, r4, _⟩ := hrow p hp
  obtain ⟨pre, post, hsplit⟩ := List.append_of_mem hp
  refine ⟨cm, p.2, es', hcm, by rw [hlt]; exact hes', hp', r3, r4, ?_⟩
  unfold convertToLinear
  rw [hgeo, hlk]
  dsimp only
  rw [hsplit, tryLin_pick g _ pre post p hg _ r1, hlt, r4]
  intro a ha
  rw [hsplit, List.pairwise_append] at hpw
  exact (hpw.2.2 a ha p (by simp)).2

/-- **C97.** The types which are not quadratic (and the segments with 4 nodes) are refused. -/
theorem C97_convert_refused (g : GaussI K) (h : ∀ t ∈ linTable, g.geo ≠ t.1) : convertToLinear g = throwX := by
  unfold convertToLinear
  have : ∀ (l : List (Int × Int × List (RefElt × RefElt))), (∀ t ∈ l, g.geo ≠ t.1) → l.lookup g.geo = none := by
    intro l
    induction l with
    | nil => intro _; rfl
    | cons a l ih =>
      intro h
      rw [List.lookup_cons]
      have h1 := h a (by simp)
      rw [show (g.geo == a.1) = false from by simpa using h1]
      exact ih fun t ht => h t (List.mem_cons_of_mem _ ht)
  rw [this _ h]

/-! ## Cells with straight edges -/

theorem combineAt_range (d n : Nat) (f : Nat → K) (C : List (List K)) (h : C.length = n) :
    combineAt d ((List.range n).map f) C = ((List.range n).map fun i => f i * ptOf (C.getD i []) d).sum := by
  subst h
  unfold combineAt
  induction C generalizing f with
  | nil => simp
  | cons c C ih =>
    rw [List.length_cons, List.range_succ_eq_map, List.map_cons, List.map_map, List.zipWith_cons_cons, List.sum_cons,
      List.map_cons, List.map_map, List.sum_cons, ih (f ∘ Nat.succ)]
    congr 1
    simp only [List.getD_cons_zero]; ring

theorem row_eq (r : List K) (n : Nat) (h : r.length = n) : r = (List.range n).map fun i => r.getD i 0 := by
  apply List.ext_getElem?
  intro i
  by_cases hi : i < n
  · simp [hi, h]
  · rw [List.getElem?_eq_none (by omega), List.getElem?_eq_none (by simp; omega)]

/-- Nodes which are combinations of the corners, combined again. -/
theorem combineAt_nested (d sd n : Nat) (hd : d < sd) (C : List (List K)) (hC : C.length = n) (w : List K)
    (rows : List (List K)) (hr : ∀ r ∈ rows, r.length = n) :
    combineAt d w (rows.map fun r => combineG sd r C) =
      combineAt d ((List.range n).map fun i => (List.zipWith (fun a (r : List K) => r.getD i 0 * a) w rows).sum) C := by
  rw [combineAt_range d n _ C hC]
  induction w generalizing rows with
  | nil => simp [combineAt]
  | cons a w ih =>
    cases rows with
    | nil => simp [combineAt]
    | cons r rows =>
      have hr1 := hr r (by simp)
      have ih' := ih rows fun r hr' => hr r (List.mem_cons_of_mem _ hr')
      unfold combineAt at ih' ⊢
      rw [List.map_cons, List.zipWith_cons_cons, List.sum_cons, ih', ptOf_combineG sd r C d hd]
      simp only [List.zipWith_cons_cons, List.sum_cons, add_mul]
      rw [sum_range_add]
      congr 1
      have : combineAt d r C = ((List.range n).map fun i => r.getD i 0 * ptOf (C.getD i []) d).sum := by
        conv_lhs => rw [row_eq r n hr1]
        rw [combineAt_range d n _ C hC]
      rw [this, ← sum_range_mul_right]
      congr 1
      refine List.map_congr_left fun i _ => by ring

theorem getD_castL (l : List Rat) (i : Nat) : (castL (K := K) l).getD i 0 = ((l.getD i 0 : Rat) : K) := by
  simp only [castL, List.getD_eq_getElem?_getD, List.getElem?_map]
  cases l[i]? <;> simp

theorem eval_linE (q l : RefElt) (i : Nat) (v : Nat → K) :
    (linE q l i).eval v = (List.zipWith (fun a (r : List K) => r.getD i 0 * a) (q.fn.map (PExp.eval v))
      (q.ref.map fun r => l.values (castL r))).sum := by
  unfold linE
  rw [eval_sumE]
  congr 1
  generalize q.ref = R
  generalize q.fn = F
  induction F generalizing R with
  | nil => simp
  | cons f F ih =>
    cases R with
    | nil => simp
    | cons r R =>
      simp only [List.zipWith_cons_cons, List.map_cons, PExp.eval, ih]
      rw [l.values_cast r, getD_castL]

/-- The values of the quadratic functions, combined with the values of the linear functions at the quadratic nodes, are the
values of the linear functions. -/
theorem values_lin (q l : RefElt) (h : linOK q l = true) (hl : l.wf = true) (p : List K) :
    ((List.range l.fn.length).map fun i => (List.zipWith (fun a (r : List K) => r.getD i 0 * a) (q.values p)
      (q.ref.map fun r => l.values (castL r))).sum) = l.values p := by
  simp only [linOK, Bool.and_eq_true, beq_iff_eq, List.all_eq_true, List.mem_range] at h
  obtain ⟨⟨hpole, h1⟩, h2⟩ := h
  rw [row_eq (l.values p) _ (l.values_length hl p)]
  refine List.map_congr_left fun i hi => ?_
  have hi' := List.mem_range.mp hi
  by_cases hn : q.pole = true → nearApex p = false
  · rw [q.values_of_far p hn, l.values_of_far p (by rw [← hpole]; exact hn), ← eval_linE,
      PExp.eqv_sound (ptOf p) q.pole _ _ (h1 i hi') (fun hp => nearApex_false p (hn hp))]
    simp [List.getD_eq_getElem?_getD, hi']
  · simp only [Classical.not_imp, Bool.not_eq_false] at hn
    obtain ⟨a, ha, hv⟩ := q.values_of_near p hn.1 hn.2
    obtain ⟨b, hb, hv'⟩ := l.values_of_near p (by rw [← hpole]; exact hn.1) hn.2
    rw [ha, hb] at h2
    simp only [List.all_eq_true, List.mem_range, decide_eq_true_eq] at h2
    rw [hv, hv', getD_castL, ← h2 i hi']
    generalize q.ref = R
    generalize a.1 = A
    clear h1 h2 ha hv
    induction A generalizing R with
    | nil => simp [castL]
    | cons c A ih =>
      cases R with
      | nil => simp
      | cons r R =>
        have : castL (K := K) (c :: A) = (c : K) :: castL A := rfl
        rw [this]
        simp only [List.map_cons, List.zipWith_cons_cons, List.sum_cons, ih, Rat.cast_add, Rat.cast_mul]
        rw [l.values_cast r, getD_castL]

theorem tryElts_members (es : List RefElt) (g g' : GaussI K) (h : tryElts es g = .ok g') :
    g'.ref = g.ref ∧ g'.gauss = g.gauss ∧ g'.nbGauss = g.nbGauss := by
  induction es generalizing g with
  | nil => simp [tryElts, throwX] at h
  | cons e es ih =>
    unfold tryElts initElt at h
    rcases hr : (List.range g.nbGauss).mapM (initRow e g) with er | rows
    · rw [hr] at h; simp [bind, Except.bind] at h
    · rw [hr] at h
      simp only [bind, Except.bind, pure, Except.pure] at h
      split at h
      · simp only [Except.ok.injEq] at h; rw [← h]; exact ⟨rfl, rfl, rfl⟩
      · have := ih _ h
        exact this

theorem initPoint1_members (g g' : GaussI K) (h : initPoint1 g = .ok g') :
    g'.ref = g.ref ∧ g'.gauss = g.gauss ∧ g'.nbGauss = g.nbGauss := by
  unfold initPoint1 at h
  rcases hq : point1Init g with er | q
  · rw [hq] at h; simp [bind, Except.bind] at h
  · rw [hq] at h
    simp only [bind, Except.bind, pure, Except.pure] at h
    have hg : q.ref = g.ref ∧ q.gauss = g.gauss ∧ q.nbGauss = g.nbGauss := by
      unfold point1Init at hq
      split at hq
      · simp only [Except.ok.injEq] at hq; rw [← hq]; exact ⟨rfl, rfl, rfl⟩
      · simp [undef] at hq
    split at h
    · simp only [Except.ok.injEq] at h; rw [← h]; exact hg
    · simp [throwX] at h

theorem newGaussInfo_members (geo : Int) (cd : Nat) (gauss : List K) (ng : Nat) (ref : List K) (nr : Nat) (g : GaussI K)
    (h : newGaussInfo geo cd gauss ng ref nr = .ok g) :
    g.ref = ref.take (nr * cd) ∧ g.gauss = gauss.take (ng * cd) ∧ g.nbGauss = ng := by
  unfold newGaussInfo at h
  split at h
  · unfold initLocalInfo at h
    split at h
    · exact initPoint1_members _ _ h
    · split at h
      · exact tryElts_members _ _ _ h
      · simp [throwX] at h
  · simp [undef] at h

theorem mapM_list_ok {α β : Type} (f : α → M β) (F : α → β) (l : List α) (h : ∀ a ∈ l, f a = .ok (F a)) :
    l.mapM f = .ok (l.map F) := by
  induction l with
  | nil => rfl
  | cons a l ih => rw [List.mapM_cons, h a (by simp), ih fun b hb => h b (List.mem_cons_of_mem _ hb)]; rfl

theorem nodes_ok (coords : List (List K)) (index : List Int) (n : Nat) (C : List (List K)) (hC : C.length = n)
    (h : ∀ i c, C[i]? = some c → cellNode coords index i = .ok c) :
    (List.range n).mapM (cellNode coords index) = .ok C := by
  rw [mapM_ok_of _ (fun i => C.getD i []) _ (fun i hi => ?_)]
  · congr 1
    apply List.ext_getElem?
    intro i
    by_cases hi : i < n
    · simp [hi, hC]
    · rw [List.getElem?_eq_none (by simp; omega), List.getElem?_eq_none (by omega)]
  · have hi' := List.mem_range.mp hi
    have hs : C[i]? = some (C[i]'(by omega)) := List.getElem?_eq_getElem (by omega)
    rw [h i _ hs]
    simp [List.getD_eq_getElem?_getD, hs]

/-- **C97.** Cells with straight edges: every node of the quadratic cell is where the linear cell made of its corners places the
node of the reference cell (the mid-nodes are in the middle of the edges, and so on). Then the conversion of the quadratic
cells to linear ones moves no Gauss point. -/
theorem C97_conversion_keeps_the_points (t : Int × Int × List (RefElt × RefElt)) (ht : t ∈ linTable)
    (p : RefElt × RefElt) (hp : p ∈ t.2.2) (hd : p.1.ref.Nodup) (gauss : List K) (ng : Nat)
    (hl : gauss.length = ng * p.1.dim) (coords : List (List K)) (index index' : List Int) (sd : Nat) (C : List (List K))
    (hC : C.length = p.2.fn.length) (hlin : ∀ i c, C[i]? = some c → cellNode coords index' i = .ok c)
    (hquad : ∀ (j : Nat) (r : List Rat), p.1.ref[j]? = some r →
      cellNode coords index j = .ok (combineG sd (p.2.values (castL r)) C)) :
    ∃ g g0 g' pts, newGaussInfo t.1 p.1.dim gauss ng (castL p.1.ref.flatten) p.1.fn.length = .ok g ∧
      convertToLinear g = .ok g0 ∧
      newGaussInfo g0.geo p.1.dim g0.gauss g0.nbGauss g0.ref g0.nbRef = .ok g' ∧
      calcCoordsAlg g coords sd index = .ok pts ∧ calcCoordsAlg g' coords sd index' = .ok pts ∧ pts.length = ng := by
  obtain ⟨hlk, ⟨cm, hcm, _, hlt⟩, hpw, hrow⟩ := linTable_rows t ht
  obtain ⟨hq, hle⟩ := linTable_elts t ht
  obtain ⟨es', hes', hp'⟩ := hle p hp
  obtain ⟨r1, r2, r3, r4, r5⟩ := hrow p hp
  have hpq : p.1 ∈ t.2.2.map (·.1) := List.mem_map.mpr ⟨p, hp, rfl⟩
  obtain ⟨g, hg, hgeo, hn, hf, _⟩ := C96_reference_cells_are_recognised _ hq p.1 hpq gauss ng (by omega)
  obtain ⟨g', hg', _, hn', hf', _⟩ := C96_reference_cells_are_recognised _ hes' p.2 hp' gauss ng (by rw [← r2]; omega)
  obtain ⟨hwf, _, _, _, _⟩ := gaussTable_chk _ hq p.1 hpq
  obtain ⟨hwf', _, _, _, _⟩ := gaussTable_chk _ hes' p.2 hp'
  have hwq := hwf
  simp only [RefElt.wf, Bool.and_eq_true, decide_eq_true_eq, List.all_eq_true] at hwq
  have hrl : p.1.ref.length = p.1.fn.length := hwq.1.1.1.1
  obtain ⟨hgr, hgg, hgn⟩ := newGaussInfo_members _ _ _ _ _ _ _ hg
  have hfl : p.1.ref.flatten.length = p.1.fn.length * p.1.dim := ((gaussTable_sep _ hq).2.2.2.2 p.1 hpq).2
  have hgr' : g.ref = castL p.1.ref.flatten := by
    rw [hgr, List.take_of_length_le]; simp only [castL, List.length_map]; omega
  have hgg' : g.gauss = gauss := by rw [hgg, List.take_of_length_le]; omega
  obtain ⟨pre, post, hsplit⟩ := List.append_of_mem hp
  have hconv : convertToLinear g = .ok (mkGaussI t.2.1 g.gauss g.nbGauss (castL p.2.ref.flatten) p.2.ref.length) := by
    unfold convertToLinear
    rw [hgeo, hlk]
    dsimp only
    rw [hsplit, tryLin_pick g _ pre post p hgr' _ r1]
    intro a ha
    rw [hsplit, List.pairwise_append] at hpw
    exact (hpw.2.2 a ha p (by simp)).2
  have hnq : (List.range g.nbRef).mapM (cellNode coords index) =
      .ok ((p.1.ref.map fun r => p.2.values (castL r)).map fun r => combineG sd r C) := by
    refine nodes_ok coords index _ _ (by simp [hn, hrl]) fun i c hc => ?_
    simp only [List.map_map, List.getElem?_map, Option.map_eq_some_iff] at hc
    obtain ⟨r, hr, rfl⟩ := hc
    exact hquad i r hr
  have hnl : (List.range g'.nbRef).mapM (cellNode coords index') = .ok C :=
    nodes_ok coords index' _ _ (by rw [hC, hn']) hlin
  refine ⟨g, _, g', (List.range ng).map fun i => combineG sd (p.2.values (gaussPt p.1.dim gauss i)) C, hg, hconv, ?_, ?_, ?_, by simp⟩
  · have e1 : (mkGaussI t.2.1 g.gauss g.nbGauss (castL p.2.ref.flatten) p.2.ref.length).geo = t.2.1 := rfl
    have e2 : (mkGaussI t.2.1 g.gauss g.nbGauss (castL p.2.ref.flatten) p.2.ref.length).gauss = g.gauss := rfl
    have e3 : (mkGaussI t.2.1 g.gauss g.nbGauss (castL p.2.ref.flatten) p.2.ref.length).nbGauss = g.nbGauss := rfl
    have e4 : (mkGaussI t.2.1 g.gauss g.nbGauss (castL p.2.ref.flatten) p.2.ref.length).ref = castL p.2.ref.flatten := rfl
    have e5 : (mkGaussI t.2.1 g.gauss g.nbGauss (castL p.2.ref.flatten) p.2.ref.length).nbRef = p.2.ref.length := rfl
    rw [e1, e2, e3, e4, e5, hgg', hgn, r4, r2]
    exact hg'
  · unfold calcCoordsAlg
    rw [hf]
    rw [mapM_list_ok _ (fun w => combineG sd w ((p.1.ref.map fun r => p.2.values (castL r)).map fun r => combineG sd r C))]
    · rw [List.map_map]
      congr 1
      refine List.map_congr_left fun i _ => ?_
      simp only [Function.comp]
      unfold combineG
      refine List.map_congr_left fun d hdm => ?_
      have := combineAt_nested d sd p.2.fn.length (List.mem_range.mp hdm) C hC (p.1.values (gaussPt p.1.dim gauss i))
        (p.1.ref.map fun r => p.2.values (castL r)) (by
          intro r hr
          obtain ⟨x, _, rfl⟩ := List.mem_map.mp hr
          exact p.2.values_length hwf' _)
      unfold combineG at this
      rw [this, values_lin p.1 p.2 (linTable_ok t ht p hp hd) hwf']
    · intro w _
      unfold calcPoint
      rw [hnq]; rfl
  · unfold calcCoordsAlg
    rw [hf', ← r2]
    rw [mapM_list_ok _ (fun w => combineG sd w C)]
    · rw [List.map_map]; rfl
    · intro w _
      unfold calcPoint
      rw [hnl]; rfl

end

end MC
