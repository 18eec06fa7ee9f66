import Verif.GaussMain

/-!
# C96: cells which are images of the reference cell, Gauss points on nodes, derivatives
-/

namespace MC

theorem gaussTable_lookup : ∀ t ∈ gaussTable, gaussTable.lookup t.1 = some t.2 := by
  intro t ht
  simp only [gaussTable, List.mem_cons, List.not_mem_nil, or_false] at ht
  rcases ht with rfl | rfl | rfl | rfl | rfl | rfl | rfl | rfl | rfl | rfl | rfl | rfl | rfl | rfl | rfl | rfl | rfl | rfl | rfl <;>
    rfl

/-- the reference nodes of `b` are taken for the ones of `a` -/
def matchQ (a b : RefElt) : Bool := (List.zip a.ref.flatten b.ref.flatten).all fun (l, r) => isEqualG l r

theorem gaussTable_sep : ∀ t ∈ gaussTable, t.2.Pairwise (fun a b => matchQ a b = false) ∧
    (∀ a ∈ t.2, matchQ a a = true) ∧ (∀ a ∈ t.2, ∀ b ∈ t.2, a.fn.length = b.fn.length ∧ a.dim = b.dim) ∧
    t.1 ≠ 0 ∧ (∀ a ∈ t.2, a.fn.length ≠ 0 ∧ a.ref.flatten.length = a.fn.length * a.dim) := by
  decide +kernel

section
variable {K : Type} [Field K] [LinearOrder K] [IsStrictOrderedRing K]

theorem isEqualG_cast (a b : Rat) : isEqualG (a : K) (b : K) = isEqualG a b := by
  unfold isEqualG
  have h1 : (|(a : K)| + |(b : K)| > 1 / 1000) ↔ |a| + |b| > 1 / 1000 := by
    rw [gt_iff_lt, gt_iff_lt, ← Rat.cast_lt (K := K) (p := 1 / 1000)]; push_cast; rfl
  have h2 : (|(a : K) - (b : K)| / (|(a : K)| + |(b : K)|) < 1 / 1000) ↔ |a - b| / (|a| + |b|) < 1 / 1000 := by
    rw [← Rat.cast_lt (K := K)]; push_cast; rfl
  by_cases h : |a| + |b| > 1 / 1000
  · rw [if_pos h, if_pos (h1.mpr h)]
    exact decide_eq_decide.mpr h2
  · rw [if_neg h, if_neg (fun h' => h (h1.mp h'))]

theorem zip_all_castL (l m : List Rat) :
    ((List.zip (castL (K := K) l) (castL m)).all fun (x, y) => isEqualG x y) =
      (List.zip l m).all fun (x, y) => isEqualG x y := by
  induction l generalizing m with
  | nil => simp [castL]
  | cons a l ih =>
    cases m with
    | nil => simp [castL]
    | cons b m =>
      have := ih m
      simp only [castL] at this
      simp only [castL, List.map_cons, List.zip_cons_cons, List.all_cons, isEqualG_cast, this]

theorem mapM_ok_of {α : Type} (f : Nat → M α) (F : Nat → α) (is : List Nat) (h : ∀ i ∈ is, f i = .ok (F i)) :
    is.mapM f = .ok (is.map F) := by
  induction is with
  | nil => rfl
  | cons i is ih =>
    rw [List.mapM_cons, h i (by simp), ih fun j hj => h j (List.mem_cons_of_mem _ hj)]
    rfl

/-- The cells which are not recognised are passed over. -/
theorem tryElts_pick (pre : List RefElt) (e : RefElt) (post : List RefElt) : ∀ (g : GaussI K)
    (R : RefElt → Nat → List K × List K),
    (∀ e' ∈ pre, (∀ i < g.nbGauss, initRow e' g i = .ok (R e' i)) ∧ isSatisfyG e' g = false) →
    (∀ i < g.nbGauss, initRow e g i = .ok (R e i)) → isSatisfyG e g = true →
    tryElts (pre ++ e :: post) g = .ok { g with fval := (List.range g.nbGauss).map fun i => (R e i).1
                                                dval := (List.range g.nbGauss).map fun i => (R e i).2 } := by
  induction pre with
  | nil =>
    intro g R _ h2 h3
    simp only [List.nil_append, tryElts, initElt]
    rw [mapM_ok_of _ (R e) _ (fun i hi => h2 i (List.mem_range.mp hi))]
    simp only [ok_bind, pure, Except.pure, h3, if_true, List.map_map]
    rfl
  | cons a pre ih =>
    intro g R h1 h2 h3
    obtain ⟨ha, hs⟩ := h1 a (by simp)
    simp only [List.cons_append, tryElts, initElt]
    rw [mapM_ok_of _ (R a) _ (fun i hi => ha i (List.mem_range.mp hi))]
    simp only [ok_bind, pure, Except.pure, hs]
    exact ih { g with fval := ((List.range g.nbGauss).map (R a)).map (·.1), dval := ((List.range g.nbGauss).map (R a)).map (·.2) }
      R (fun e' he' => h1 e' (List.mem_cons_of_mem _ he')) h2 h3

/-- **C96.** The reference coordinates of any of the reference cells known for a type are accepted, for any number of Gauss
points anywhere, and it is the functions and the derivatives of this very cell which are evaluated. -/
theorem C96_reference_cells_are_recognised (t : Int × List RefElt) (ht : t ∈ gaussTable) (e : RefElt) (he : e ∈ t.2)
    (gauss : List K) (ng : Nat) (hl : ng * e.dim ≤ gauss.length) :
    ∃ g, newGaussInfo t.1 e.dim gauss ng (castL e.ref.flatten) e.fn.length = .ok g ∧ g.geo = t.1 ∧
      g.nbRef = e.fn.length ∧ g.fval = (List.range ng).map (fun i => e.values (gaussPt e.dim gauss i)) ∧
      g.dval = (List.range ng).map (fun i => (e.derivs (gaussPt e.dim gauss i)).flatten) := by
  obtain ⟨hsep, hself, hsame, ht0, hsz⟩ := gaussTable_sep t ht
  obtain ⟨hne, hlen⟩ := hsz e he
  obtain ⟨pre, post, hsplit⟩ := List.append_of_mem he
  set g0 : GaussI K := mkGaussI t.1 (gauss.take (ng * e.dim)) ng ((castL e.ref.flatten).take (e.fn.length * e.dim)) e.fn.length
    with hg0
  have e1 : g0.nbGauss = ng := rfl
  have e2 : g0.nbRef = e.fn.length := rfl
  have e3 : g0.gauss = gauss.take (ng * e.dim) := rfl
  have hcl : (castL (K := K) e.ref.flatten).length = e.fn.length * e.dim := by simp only [castL, List.length_map]; exact hlen
  have e4 : g0.ref = castL e.ref.flatten := by
    have : g0.ref = (castL e.ref.flatten).take (e.fn.length * e.dim) := rfl
    rw [this, ← hcl, List.take_length]
  have hrd : g0.refDim = e.dim := by
    unfold GaussI.refDim
    rw [e2, e4, if_pos hne, hcl]
    exact Nat.mul_div_cancel_left _ (Nat.pos_of_ne_zero hne)
  have hgd : ng ≠ 0 → g0.gaussDim = e.dim := by
    intro hng
    unfold GaussI.gaussDim
    rw [e1, e3, if_pos hng, List.length_take, Nat.min_eq_left hl]
    exact Nat.mul_div_cancel_left _ (Nat.pos_of_ne_zero hng)
  have hrow : ∀ e' ∈ t.2, ∀ i < ng, initRow e' g0 i =
      .ok (e'.values (gaussPt e.dim gauss i), (e'.derivs (gaussPt e.dim gauss i)).flatten) := by
    intro e' he' i hi
    obtain ⟨s1, s2⟩ := hsame e' he' e he
    have hle : (i + 1) * e.dim ≤ ng * e.dim := Nat.mul_le_mul_right _ (by omega)
    rw [Nat.add_mul] at hle
    unfold initRow
    rw [hgd (by omega), e3, e2, hrd, s1, s2, if_pos (by rw [List.length_take, Nat.min_eq_left hl]; omega),
      if_pos ⟨le_refl _, le_refl _⟩]
    have : ((gauss.take (ng * e.dim)).drop (i * e.dim)).take e.dim = gaussPt e.dim gauss i := by
      unfold gaussPt
      rw [List.drop_take, List.take_take, Nat.min_eq_left]
      omega
    simp only [Nat.sub_self, List.replicate_zero, List.append_nil, this]
  have hsat : ∀ e' ∈ t.2, isSatisfyG e' g0 = matchQ e' e := by
    intro e' he'
    obtain ⟨s1, s2⟩ := hsame e' he' e he
    unfold isSatisfyG matchQ
    rw [e4, e2, hrd, s1, s2, zip_all_castL]
    simp
  have hpick := tryElts_pick pre e post g0
    (fun e' i => (e'.values (gaussPt e.dim gauss i), (e'.derivs (gaussPt e.dim gauss i)).flatten))
    (fun e' he' => by
      have hm : e' ∈ t.2 := by rw [hsplit]; simp [he']
      refine ⟨fun i hi => hrow e' hm i hi, ?_⟩
      rw [hsat e' hm]
      rw [hsplit, List.pairwise_append] at hsep
      exact hsep.2.2 e' he' e (by simp))
    (fun i hi => hrow e he i hi) (by rw [hsat e he]; exact hself e he)
  refine ⟨{ g0 with fval := (List.range ng).map (fun i => e.values (gaussPt e.dim gauss i))
                    dval := (List.range ng).map (fun i => (e.derivs (gaussPt e.dim gauss i)).flatten) }, ?_, rfl, rfl, rfl, rfl⟩
  · unfold newGaussInfo
    rw [if_pos ⟨hl, by rw [hcl]⟩]
    unfold initLocalInfo
    rw [if_neg (show ¬ g0.geo = 0 from ht0)]
    have : gaussTable.lookup g0.geo = some t.2 := gaussTable_lookup t ht
    rw [this, hsplit]
    exact hpick

/-- **C96.** When a cell is the image of its reference cell by an affine map, its Gauss points are the images of the points
given in the reference cell (the reference nodes being distinct, which leaves out the first reference cell of `NORM_TRI6` and
the degenerated ones, and the points not being within 1e-12 of the apex of a pyramid). -/
theorem C96_points_of_an_image_of_the_reference_cell (t : Int × List RefElt) (ht : t ∈ gaussTable) (e : RefElt)
    (he : e ∈ t.2) (hd : e.ref.Nodup) (gauss : List K) (ng : Nat) (hl : ng * e.dim ≤ gauss.length)
    (hfar : t.1 = 15 ∨ t.1 = 23 → ∀ i < ng, 1 / 1000000000000 ≤ |(gaussPt e.dim gauss i).getD 2 0 - 1|)
    (coords : List (List K)) (index : List Int) (sd : Nat) (A : Nat → Nat → K) (b : Nat → K)
    (hc : ∀ (j : Nat) (r : List Rat), e.ref[j]? = some r →
      cellNode coords index j = .ok (affineP e.dim sd A b (castL r))) :
    ∃ g, newGaussInfo t.1 e.dim gauss ng (castL e.ref.flatten) e.fn.length = .ok g ∧
      calcCoordsAlg g coords sd index =
        .ok ((List.range ng).map fun i => affineP e.dim sd A b (gaussPt e.dim gauss i)) := by
  obtain ⟨g, hg, _, hn, hf, _⟩ := C96_reference_cells_are_recognised t ht e he gauss ng hl
  refine ⟨g, hg, ?_⟩
  obtain ⟨hwf, _, hu, hr, hp⟩ := gaussTable_chk t ht e he
  obtain ⟨hrep, hkr⟩ := hr hd
  have hwf' := hwf
  simp only [RefElt.wf, Bool.and_eq_true, decide_eq_true_eq, List.all_eq_true] at hwf'
  have hrl : e.ref.length = e.fn.length := hwf'.1.1.1.1
  have hu' : e.unity = true := by
    rcases hu with ⟨h6, hh⟩ | hu
    · exfalso
      simp only [gaussTable, List.mem_cons, List.not_mem_nil, or_false] at ht
      rcases ht with rfl | rfl | rfl | rfl | rfl | rfl | rfl | rfl | rfl | rfl | rfl | rfl | rfl | rfl | rfl | rfl | rfl | rfl | rfl
      all_goals first
        | exact absurd h6 (by decide)
        | skip
      simp only [List.mem_cons, List.not_mem_nil, or_false] at he
      rcases he with rfl | rfl
      · exact absurd hd (by decide +kernel)
      · exact absurd hh (by decide +kernel)
    · exact hu
  have hnodes : (List.range g.nbRef).mapM (cellNode coords index) =
      .ok (e.ref.map fun r => affineP e.dim sd A b (castL r)) := by
    rw [hn, ← hrl]
    rw [mapM_ok_of _ (fun j => affineP e.dim sd A b (castL (e.ref.getD j []))) _ (fun j hj => ?_)]
    · congr 1
      apply List.ext_getElem?
      intro j
      by_cases hj : j < e.ref.length
      · simp [hj]
      · rw [List.getElem?_eq_none (by simp; omega), List.getElem?_eq_none (by simp; omega)]
    · have hj' := List.mem_range.mp hj
      have : e.ref[j]? = some e.ref[j] := List.getElem?_eq_getElem hj'
      rw [hc j _ this]
      simp [List.getD_eq_getElem?_getD, this]
  unfold calcCoordsAlg
  rw [hf]
  have key : ∀ i < ng, calcPoint g coords sd index (e.values (gaussPt e.dim gauss i)) =
      .ok (affineP e.dim sd A b (gaussPt e.dim gauss i)) := by
    intro i hi
    unfold calcPoint
    rw [hnodes]
    simp only [ok_bind, pure, Except.pure, Except.ok.injEq]
    have hmm : (e.ref.map fun r => affineP e.dim sd A b (castL r)) = (e.ref.map (castL (K := K))).map (affineP e.dim sd A b) := by
      simp
    rw [hmm, combineG_affine e.dim sd A b _ _ (by simp [e.values_length hwf, hrl]) (e.sum_values hu' _)]
    have hpt : e.pole = true → nearApex (gaussPt e.dim gauss i) = false := by
      intro hpo
      have := hfar (hp hpo) i hi
      unfold nearApex ptOf
      exact decide_eq_false (not_lt.mpr this)
    unfold affineP
    refine List.map_congr_left fun d _ => ?_
    congr 2
    refine List.map_congr_left fun c hcc => ?_
    congr 1
    have h1 := ptOf_combineG e.dim (e.values (gaussPt e.dim gauss i)) (e.ref.map castL) c (List.mem_range.mp hcc)
    have h2 := e.combine_ref hrep (gaussPt e.dim gauss i) hpt c (List.mem_range.mp hcc)
    exact h1.trans h2
  have hgen : ∀ is : List Nat, (∀ i ∈ is, i < ng) →
      (is.map fun i => e.values (gaussPt e.dim gauss i)).mapM (calcPoint g coords sd index) =
        .ok (is.map fun i => affineP e.dim sd A b (gaussPt e.dim gauss i)) := by
    intro is
    induction is with
    | nil => intro _; rfl
    | cons i is ih =>
      intro h
      rw [List.map_cons, List.mapM_cons, key i (h i (by simp)), ih fun j hj => h j (List.mem_cons_of_mem _ hj)]
      rfl
  exact hgen _ fun i hi => List.mem_range.mp hi

/-- **C96.** A Gauss point placed on a node of the reference cell is placed on the same node of every cell, curved or not. -/
theorem C96_gauss_point_on_a_node (t : Int × List RefElt) (ht : t ∈ gaussTable) (e : RefElt) (he : e ∈ t.2)
    (hd : e.ref.Nodup) (gauss : List K) (ng : Nat) (g : GaussI K)
    (hg : newGaussInfo t.1 e.dim gauss ng (castL e.ref.flatten) e.fn.length = .ok g) (i j : Nat) (hi : i < ng) (r : List Rat)
    (hj : e.ref[j]? = some r) (hp : gaussPt e.dim gauss i = castL r) (coords : List (List K)) (index : List Int) (sd : Nat)
    (hsd : ∀ p ∈ coords, p.length = sd) (pts : List (List K)) (h : calcCoordsAlg g coords sd index = .ok pts) :
    ∃ n, cellNode coords index j = .ok n ∧ pts[i]? = some n := by
  have hl : ng * e.dim ≤ gauss.length := by
    unfold newGaussInfo at hg
    split at hg
    · next hb => exact hb.1
    · cases hg
  obtain ⟨g', hg', _, hn, hf, _⟩ := C96_reference_cells_are_recognised t ht e he gauss ng hl
  rw [hg] at hg'
  simp only [Except.ok.injEq] at hg'
  subst hg'
  obtain ⟨hwf, _, _, hr, _⟩ := gaussTable_chk t ht e he
  obtain ⟨_, hkr⟩ := hr hd
  have hwf' := hwf
  simp only [RefElt.wf, Bool.and_eq_true, decide_eq_true_eq, List.all_eq_true] at hwf'
  have hrl : e.ref.length = e.fn.length := hwf'.1.1.1.1
  have hjl : j < e.fn.length := by
    rw [← hrl]; exact (List.getElem?_eq_some_iff.mp hj).1
  unfold calcCoordsAlg at h
  have hrow : g.fval[i]? = some (e.values (castL r)) := by rw [hf]; simp [hi, hp]
  have hget : ∀ (rows : List (List K)) (i : Nat) (w : List K) (pts : List (List K)),
      rows.mapM (calcPoint g coords sd index) = .ok pts → rows[i]? = some w →
      ∃ q, calcPoint g coords sd index w = .ok q ∧ pts[i]? = some q := by
    intro rows
    induction rows with
    | nil => intro i w pts _ hw; simp at hw
    | cons a rows ih =>
      intro i w pts hm hw
      rw [List.mapM_cons] at hm
      cases ha : calcPoint g coords sd index a with
      | error x => rw [ha] at hm; cases hm
      | ok q =>
        rw [ha] at hm
        simp only [ok_bind] at hm
        cases hr : rows.mapM (calcPoint g coords sd index) with
        | error x => rw [hr] at hm; cases hm
        | ok l =>
          rw [hr] at hm
          simp only [ok_bind, pure, Except.pure, Except.ok.injEq] at hm
          subst hm
          cases i with
          | zero =>
            simp only [List.getElem?_cons_zero, Option.some.injEq] at hw
            subst hw
            exact ⟨q, ha, rfl⟩
          | succ i => simpa using ih i w l hr (by simpa using hw)
  obtain ⟨q, hq, hpi⟩ := hget _ i _ pts h hrow
  unfold calcPoint at hq
  cases hm : (List.range g.nbRef).mapM (cellNode coords index) with
  | error x => rw [hm] at hq; cases hq
  | ok nodes =>
    rw [hm] at hq
    simp only [ok_bind, pure, Except.pure, Except.ok.injEq] at hq
    obtain ⟨hnl, hnode⟩ := mapM_range_okG _ _ _ hm
    obtain ⟨n, hn1, hn2⟩ := hnode j (by omega)
    refine ⟨n, hn1, ?_⟩
    rw [hpi, ← hq, e.values_node hkr j r hj]
    congr 1
    have hns : n.length = sd := by
      unfold cellNode at hn1
      cases hid : rd index (j : Int) with
      | error x => rw [hid] at hn1; cases hn1
      | ok id =>
        rw [hid] at hn1
        simp only [ok_bind] at hn1
        unfold rd at hn1
        split at hn1
        · split at hn1
          · next p hp =>
            simp only [Except.ok.injEq] at hn1
            subst hn1
            exact hsd _ (List.mem_of_getElem? hp)
          · cases hn1
        · cases hn1
    have hcomb : ∀ d, combineAt d ((List.range e.fn.length).map fun i => if i = j then (1 : K) else 0) nodes = ptOf n d := by
      intro d
      have gen : ∀ (nodes : List (List K)) (s m : Nat), nodes.length = m → ∀ j n, s ≤ j → nodes[j - s]? = some n →
          combineAt d ((List.range' s m).map fun i => if i = j then (1 : K) else 0) nodes = ptOf n d := by
        intro nodes
        induction nodes with
        | nil => intro s m _ j n _ hn; simp at hn
        | cons a nodes ih =>
          intro s m hm j n hs hn
          cases m with
          | zero => simp at hm
          | succ m =>
            simp only [List.range'_succ, List.map_cons, combineAt, List.zipWith_cons_cons, List.sum_cons]
            have hm' : nodes.length = m := by simpa using hm
            by_cases hsj : s = j
            · subst hsj
              simp only [Nat.sub_self, List.getElem?_cons_zero, Option.some.injEq] at hn
              subst hn
              have hz : ∀ (nodes : List (List K)) (s' m : Nat), s < s' →
                  (List.zipWith (fun wi p => ptOf p d * wi) ((List.range' s' m).map fun i => if i = s then (1 : K) else 0)
                    nodes).sum = 0 := by
                intro nodes
                induction nodes with
                | nil => intro s' m _; simp
                | cons b nodes ih2 =>
                  intro s' m hs'
                  cases m with
                  | zero => simp
                  | succ m =>
                    simp only [List.range'_succ, List.map_cons, List.zipWith_cons_cons, List.sum_cons]
                    rw [ih2 (s' + 1) m (by omega), if_neg (by omega)]
                    ring
              rw [hz nodes (s + 1) m (by omega)]
              simp
            · rw [if_neg hsj]
              have := ih (s + 1) m hm' j n (by omega) (by
                have : j - s = (j - (s + 1)) + 1 := by omega
                rw [this] at hn
                simpa using hn)
              simp only [combineAt] at this
              rw [this]
              ring
      have := gen nodes 0 e.fn.length (by omega) j n (by omega) (by simpa using hn2)
      rw [List.range_eq_range']
      exact this
    unfold combineG
    apply List.ext_getElem?
    intro d
    by_cases hdd : d < sd
    · simp only [List.getElem?_map, List.getElem?_range, hdd, Option.map_some, hcomb]
      have : n[d]? = some n[d] := List.getElem?_eq_getElem (by omega)
      simp [ptOf, this]
    · rw [List.getElem?_eq_none (by simp; omega), List.getElem?_eq_none (by omega)]

end

end MC
