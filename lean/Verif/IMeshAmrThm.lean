import Verif.IMeshAmrProps

/-!
# Exchange of cell fields between a coarse grid and a refined part of it – condensation

C91: after a condensation every coarse cell of the part holds the sum of the fine cells it contains, the other cells are unchanged.
-/

namespace MC
variable {V : Type}

/-- The fine cell `e` of the coarse cell `q`: the cells of the part are numbered from its lower corner. -/
def fineCell : List (Int × Int) → List Int → List Int → List Int → List Int
  | r :: loc, f :: facts, x :: q, e :: es => ((x - r.1) * f + e) :: fineCell loc facts q es
  | _, _, _, _ => []

theorem filter_range_div (f : Nat) (d t : Nat) (hf : 0 < f) (ht : t < d) :
    (List.range (d * f)).filter (fun x => decide (x / f = t)) = (List.range f).map fun e => t * f + e := by
  have : (List.range (d * f)) = (List.range d).flatMap fun i => (List.range f).map fun e => i * f + e := by
    have := range_mul_map (fun x => x) d f
    simpa using this
  rw [this, List.filter_flatMap]
  have h2 : ∀ i ∈ List.range d, ((List.range f).map fun e => i * f + e).filter (fun x => decide (x / f = t)) =
      if i = t then (List.range f).map fun e => t * f + e else [] := by
    intro i _
    split_ifs with h
    · subst h
      rw [List.filter_eq_self]
      intro x hx
      obtain ⟨e, he, rfl⟩ := List.mem_map.mp hx
      have := List.mem_range.mp he
      rw [Nat.mul_comm, Nat.mul_add_div hf, Nat.div_eq_of_lt this]; simp
    · rw [List.filter_eq_nil_iff]
      intro x hx
      obtain ⟨e, he, rfl⟩ := List.mem_map.mp hx
      have := List.mem_range.mp he
      rw [Nat.mul_comm, Nat.mul_add_div hf, Nat.div_eq_of_lt this]; simpa using h
  rw [flatMap_ext h2]
  clear h2 this
  induction d with
  | zero => omega
  | succ d ih =>
    rw [List.range_succ, List.flatMap_append]
    by_cases h : t < d
    · rw [ih h]
      simp [show d ≠ t by omega]
    · have : t = d := by omega
      subst this
      have : (List.range t).flatMap (fun i => if i = t then (List.range f).map fun e => t * f + e else []) = [] := by
        rw [List.flatMap_eq_nil_iff]
        intro i hi
        rw [if_neg (by have := List.mem_range.mp hi; omega)]
      rw [this]
      simp

/-- the fine cells of a coarse cell, in the order of the loops -/
theorem coarse_fibre {g : Int} {loc : List (Int × Int)} {facts : List Int} : ∀ {q : List Int}, InBox loc q → facts.length = loc.length → (∀ f ∈ facts, 1 ≤ f) →
    (boxPos (fineDims loc facts)).filter (fun p => decide (coarseOf g loc facts p = q.map (· + g))) = (boxPos facts).map (fineCell loc facts q) := by
  induction loc generalizing facts with
  | nil =>
    intro q hq hl _
    cases hq
    obtain rfl : facts = [] := List.eq_nil_of_length_eq_zero (by simpa using hl)
    simp [fineDims, boxDims, boxPos, coarseOf, fineCell]
  | cons r loc ih =>
    intro q hq hl hf
    cases hq with
    | cons hx hq' =>
      rename_i x q
      match facts, hl with
      | f :: facts, hl =>
      have f1 := hf f (by simp)
      have ih' := ih (facts := facts) hq' (by simpa using hl) fun y hy => hf y (by simp [hy])
      have e1 : fineDims (r :: loc) (f :: facts) = ((r.2 - r.1) * f) :: fineDims loc facts := rfl
      rw [e1]
      simp only [boxPos]
      rw [List.filter_flatMap, List.map_flatMap]
      have e2 : ∀ p ∈ boxPos (fineDims loc facts), ((List.range ((r.2 - r.1) * f).toNat).map fun (k : Nat) => (k : Int) :: p).filter
          (fun p => decide (coarseOf g (r :: loc) (f :: facts) p = (x :: q).map (· + g))) =
          if coarseOf g loc facts p = q.map (· + g) then (List.range f.toNat).map fun (e : Nat) => ((x - r.1) * f + e) :: p else [] := by
        intro p _
        rw [List.filter_map]
        have e3 : ((fun p => decide (coarseOf g (r :: loc) (f :: facts) p = (x :: q).map (· + g))) ∘ fun (k : Nat) => (k : Int) :: p) =
            fun (k : Nat) => decide (k / f.toNat = (x - r.1).toNat) && decide (coarseOf g loc facts p = q.map (· + g)) := by
          funext k
          simp only [Function.comp_def, coarseOf, List.map_cons, List.cons.injEq]
          rw [Bool.decide_and]
          congr 1
          congr 1
          apply propext
          have := cast_div_toNat (f := f) (by omega) k
          omega
        rw [e3]
        split_ifs with hc
        · simp only [hc, decide_true, Bool.and_true]
          rw [toNat_mul (by omega) (by omega), filter_range_div _ _ _ (by omega) (by omega), List.map_map]
          refine List.map_congr_left fun e _ => ?_
          simp only [Function.comp_def]
          congr 1
          push_cast
          rw [Int.toNat_of_nonneg (by omega), Int.toNat_of_nonneg (by omega)]
        · simp [hc]
      rw [flatMap_ext e2]
      have e4 : ∀ (l : List (List Int)) (P : List Int → Bool) (h : List Int → List (List Int)), l.flatMap (fun p => if P p = true then h p else []) = (l.filter P).flatMap h := by
        intro l P h
        induction l with
        | nil => rfl
        | cons a l ihl =>
          rw [List.flatMap_cons, ihl, List.filter_cons]
          split_ifs <;> simp
      have e5 := e4 (boxPos (fineDims loc facts)) (fun p => decide (coarseOf g loc facts p = q.map (· + g)))
        (fun p => (List.range f.toNat).map fun (e : Nat) => ((x - r.1) * f + e) :: p)
      simp only [decide_eq_true_eq] at e5
      rw [e5, ih', List.flatMap_map]
      refine flatMap_ext fun es _ => ?_
      rw [List.map_map]
      rfl

theorem inBox_coarseOf {g : Int} {loc : List (Int × Int)} {facts : List Int} : ∀ {p : List Int}, InGrid (fineDims loc facts) p → facts.length = loc.length →
    (∀ f ∈ facts, 1 ≤ f) → ∃ q, InBox loc q ∧ coarseOf g loc facts p = q.map (· + g) := by
  induction loc generalizing facts with
  | nil =>
    intro p hp hl _
    obtain rfl : facts = [] := List.eq_nil_of_length_eq_zero (by simpa using hl)
    exact ⟨[], .nil, by simp [coarseOf]⟩
  | cons r loc ih =>
    intro p hp hl hf
    match facts, hl with
    | f :: facts, hl =>
    have f1 := hf f (by simp)
    have e1 : fineDims (r :: loc) (f :: facts) = ((r.2 - r.1) * f) :: fineDims loc facts := rfl
    rw [e1] at hp
    cases hp with
    | cons hx hp' =>
      rename_i x p
      obtain ⟨q, hq, e⟩ := ih hp' (by simpa using hl) fun y hy => hf y (by simp [hy])
      refine ⟨(r.1 + x / f) :: q, .cons ⟨?_, ?_⟩ hq, by simp [coarseOf, e]⟩
      · have : 0 ≤ x / f := Int.ediv_nonneg hx.1 (by omega)
        omega
      · have : x / f < r.2 - r.1 := Int.ediv_lt_of_lt_mul (by omega) hx.2
        omega

theorem inGrid_ghost {g : Int} (hg : 0 ≤ g) {st p : List Int} (h : InGrid st p) : InGrid (st.map (· + 2 * g)) (p.map (· + g)) := by
  induction h with
  | nil => exact .nil
  | cons hx hs ih => exact .cons ⟨by beta_reduce; omega, by beta_reduce; omega⟩ ih

theorem map_add_inj {g : Int} {p q : List Int} (h : p.map (· + g) = q.map (· + g)) : p = q :=
  List.map_injective_iff.mpr (fun a b hab => by simpa using hab) h

theorem inGrid_fineCell {loc : List (Int × Int)} {facts : List Int} : ∀ {q e : List Int}, InBox loc q → InGrid facts e → facts.length = loc.length →
    InGrid (fineDims loc facts) (fineCell loc facts q e) := by
  induction loc generalizing facts with
  | nil =>
    intro q e hq he hl
    cases hq
    exact .nil
  | cons r loc ih =>
    intro q e hq he hl
    cases hq with
    | cons hx hq' =>
      cases he with
      | nil => simp at hl
      | cons hy he' =>
        rename_i x q y f e facts
        refine .cons ⟨?_, ?_⟩ (ih hq' he' (by simpa using hl))
        · have := Int.mul_nonneg (a := x - r.1) (b := f) (by omega) (by omega)
          omega
        · have : (x - r.1 + 1) * f ≤ (r.2 - r.1) * f := Int.mul_le_mul_of_nonneg_right (by omega) (by omega)
          rw [Int.add_mul] at this
          beta_reduce
          omega

theorem firstOf_fineCell {loc : List (Int × Int)} {facts : List Int} : ∀ {q e : List Int}, InBox loc q → InGrid facts e → facts.length = loc.length →
    firstOf facts (fineCell loc facts q e) = decide (e = facts.map fun _ => 0) := by
  induction loc generalizing facts with
  | nil =>
    intro q e hq he hl
    obtain rfl : facts = [] := List.eq_nil_of_length_eq_zero (by simpa using hl)
    cases he
    simp [firstOf]
  | cons r loc ih =>
    intro q e hq he hl
    cases hq with
    | cons hx hq' =>
      cases he with
      | nil => simp at hl
      | cons hy he' =>
        rename_i x q y f e facts
        simp only [fineCell, firstOf, List.map_cons, List.cons.injEq]
        rw [ih hq' he' (by simpa using hl), Bool.decide_and, Bool.and_comm]
        congr 1
        rw [Int.mul_comm, Int.mul_add_emod_self_left, Int.emod_eq_of_lt hy.1 hy.2]

theorem boxPos_head {ds : List Int} (h : ∀ d ∈ ds, 1 ≤ d) : ∃ tl, boxPos ds = (ds.map fun _ => 0) :: tl ∧ ∀ e ∈ tl, e ≠ ds.map fun _ => 0 := by
  have h1 : ∃ tl, boxPos ds = (ds.map fun _ => 0) :: tl := by
    induction ds with
    | nil => exact ⟨[], rfl⟩
    | cons d ds ih =>
      obtain ⟨tl, e⟩ := ih fun x hx => h x (by simp [hx])
      have d1 := h d (by simp)
      obtain ⟨n, hn⟩ : ∃ n, d.toNat = n + 1 := ⟨d.toNat - 1, by omega⟩
      simp only [boxPos, e, hn, List.range_succ_eq_map, List.flatMap_cons, List.map_cons, List.cons_append]
      exact ⟨_, rfl⟩
  obtain ⟨tl, e⟩ := h1
  refine ⟨tl, e, ?_⟩
  have hs := boxPos_sorted (dims := ds) fun d hd => by have := h d hd; omega
  have hn : (boxPos ds).Nodup := by
    apply List.Nodup.of_map (lin ds)
    rw [hs]
    exact List.nodup_range.map fun a b hab => by simpa using hab
  rw [e] at hn
  intro x hx hc
  subst hc
  exact (List.nodup_cons.mp hn).1 hx

/-- What a run of the accesses of a condensation gives. -/
theorem condAccess_run [AddCommMonoid V] {g : Int} {cst : List Int} {loc : List (Int × Int)} {facts : List Int} (hg : 0 ≤ g) (hb : BoxIn cst loc)
    (hf : facts.length = loc.length) (hfp : ∀ f ∈ facts, 1 ≤ f) {fine coarse : List V}
    (hfl : (fine.length : Int) = ((fineDims loc facts).map (· + 2 * g)).prod) (hcl : (coarse.length : Int) = (cst.map (· + 2 * g)).prod) :
    ∃ r, ((boxPos (fineDims loc facts)).map (condAccess g cst loc facts)).foldlM (condOp fine) coarse = .ok r ∧ r.length = coarse.length ∧
      (∀ q, InBox loc q → r.getD (lin (cst.map (· + 2 * g)) (q.map (· + g))).toNat 0 =
        ((boxPos facts).map fun e => fine.getD (lin ((fineDims loc facts).map (· + 2 * g)) ((fineCell loc facts q e).map (· + g))).toNat 0).sum) ∧
      (∀ x < coarse.length, (∀ q, InBox loc q → lin (cst.map (· + 2 * g)) (q.map (· + g)) ≠ x) → r.getD x 0 = coarse.getD x 0) := by
  have hloc : ∀ q, InBox loc q → InGrid (cst.map (· + 2 * g)) (q.map (· + g)) := fun q hq => inGrid_ghost hg (hb.grid hq)
  obtain ⟨r, e, l, w⟩ := condOps_spec fine ((boxPos (fineDims loc facts)).map (condAccess g cst loc facts)) coarse (by
    intro o ho
    obtain ⟨p, hp, rfl⟩ := List.mem_map.mp ho
    have hp' := mem_boxPos.mp hp
    obtain ⟨q, hq, e⟩ := inBox_coarseOf (g := g) hp' hf hfp
    refine ⟨by simpa only [condAccess, hfl] using lin_bounds (inGrid_ghost hg hp'), ?_⟩
    simp only [condAccess, e, hcl]
    exact lin_bounds (hloc q hq))
  refine ⟨r, e, l, fun q hq => ?_, fun x hx hne => ?_⟩
  · have hbq := lin_bounds (hloc q hq)
    rw [w _ hbq.1 (by omega), List.filter_map]
    have e1 : (boxPos (fineDims loc facts)).filter ((fun o => decide (o.2.1 = lin (cst.map (· + 2 * g)) (q.map (· + g)))) ∘ condAccess g cst loc facts) =
        (boxPos (fineDims loc facts)).filter (fun p => decide (coarseOf g loc facts p = q.map (· + g))) := by
      refine List.filter_congr fun p hp => ?_
      obtain ⟨q', hq', e'⟩ := inBox_coarseOf (g := g) (mem_boxPos.mp hp) hf hfp
      simp only [Function.comp_def, condAccess, e']
      congr 1
      exact propext ⟨fun h => lin_inj (hloc q' hq') (hloc q hq) h, fun h => by rw [h]⟩
    rw [e1, coarse_fibre hq hf hfp, List.map_map]
    obtain ⟨tl, e2, e3⟩ := boxPos_head hfp
    have hgr : ∀ e ∈ boxPos facts, InGrid facts e := fun e he => mem_boxPos.mp he
    rw [e2] at hgr ⊢
    rw [List.map_cons, List.foldl_cons, if_pos (by
      simp only [Function.comp_def, condAccess]
      rw [firstOf_fineCell hq (hgr _ (by simp)) hf]; simp), condFold_sum, List.map_cons, List.sum_cons, add_comm, List.map_map]
    · rfl
    · intro o ho
      obtain ⟨e, he, rfl⟩ := List.mem_map.mp ho
      simp only [Function.comp_def, condAccess]
      rw [firstOf_fineCell hq (hgr _ (by simp [he])) hf]
      simpa using e3 e he
  · have := w x (by omega) (by omega)
    rw [Int.toNat_natCast] at this
    rw [this]
    have : (((boxPos (fineDims loc facts)).map (condAccess g cst loc facts)).filter fun o => decide (o.2.1 = (x : Int))) = [] := by
      rw [List.filter_eq_nil_iff]
      intro o ho
      obtain ⟨p, hp, rfl⟩ := List.mem_map.mp ho
      obtain ⟨q', hq', e'⟩ := inBox_coarseOf (g := g) (mem_boxPos.mp hp) hf hfp
      simp only [condAccess, e']
      simpa using hne q' hq'
    rw [this]
    rfl

theorem BoxIn.le {st : List Int} {part : List (Int × Int)} (h : BoxIn st part) : ∀ r ∈ part, 0 ≤ r.1 ∧ r.1 ≤ r.2 := by
  induction h with
  | nil => simp
  | cons h hs ih =>
    intro r hr
    rcases List.mem_cons.mp hr with rfl | hr
    · exact ⟨h.1, h.2.1⟩
    · exact ih r hr

theorem BoxIn.st_nonneg {st : List Int} {part : List (Int × Int)} (h : BoxIn st part) : ∀ n ∈ st, 0 ≤ n := by
  induction h with
  | nil => simp
  | cons h hs ih =>
    intro r hr
    rcases List.mem_cons.mp hr with rfl | hr
    · omega
    · exact ih r hr

theorem fineDims_nonneg {loc : List (Int × Int)} {facts : List Int} (h : ∀ r ∈ loc, 0 ≤ r.1 ∧ r.1 ≤ r.2) (hf : ∀ f ∈ facts, 1 ≤ f) : ∀ d ∈ fineDims loc facts, 0 ≤ d := by
  intro d hd
  unfold fineDims at hd
  obtain ⟨i, hi, rfl⟩ := List.mem_iff_getElem.mp hd
  simp only [List.getElem_zipWith]
  simp only [List.length_zipWith, boxDims, List.length_map] at hi
  have h1 := h (loc[i]'(by omega)) (List.getElem_mem _)
  have h2 := hf (facts[i]'(by omega)) (List.getElem_mem _)
  simp only [boxDims, List.getElem_map]
  exact Int.mul_nonneg (by omega) (by omega)

theorem ghostChecks_ok {g : Int} {cst : List Int} {loc : List (Int × Int)} {facts : List Int} (hg : 0 ≤ g) (h1 : 1 ≤ cst.length) (hb : BoxIn cst loc)
    (hf : facts.length = loc.length) (hfp : ∀ f ∈ facts, 1 ≤ f) {a b : Int} (ha : a = (cst.map (· + 2 * g)).prod)
    (hb' : b = ((fineDims loc facts).map (· + 2 * g)).prod) : ghostChecks g cst loc facts a b = .ok () := by
  have hll : loc.length = cst.length := hb.length_eq
  unfold ghostChecks
  rw [if_neg (by omega), if_neg (by omega), deduceStructure_ok (by
      intro n hn
      obtain ⟨m, hm, rfl⟩ := List.mem_map.mp hn
      have := hb.st_nonneg m hm
      omega) (by
      intro hc
      have := congrArg List.length hc
      simp at this
      simp [this] at h1), ok_bind, if_neg (by omega), dimensions_ok hb, ok_bind, deduceStructure_ok (by
      intro n hn
      obtain ⟨m, hm, rfl⟩ := List.mem_map.mp hn
      have := fineDims_nonneg hb.le hfp m hm
      omega) (by
      intro hc
      have := congrArg List.length hc
      simp only [List.length_map, List.length_zipWith, boxDims, List.length_nil] at this
      omega), ok_bind]
  simp only [fineDims] at hb'
  rw [if_neg (by omega)]
  rfl

/-- **C91** `CondenseFineToCoarseGhost`: every coarse cell of the part receives the sum of the fine cells it contains (ghost cells do not count); the
other cells keep their values. -/
theorem C91_condenseGhost [AddCommMonoid V] {g : Int} {cst : List Int} {loc : List (Int × Int)} {facts : List Int} (hg : 0 ≤ g) (h1 : 1 ≤ cst.length)
    (h3 : cst.length ≤ 3) (hb : BoxIn cst loc) (hf : facts.length = loc.length) (hfp : ∀ f ∈ facts, 1 ≤ f) {fine coarse : List V}
    (hfl : (fine.length : Int) = ((fineDims loc facts).map (· + 2 * g)).prod) (hcl : (coarse.length : Int) = (cst.map (· + 2 * g)).prod) :
    ∃ r, condenseGhost cst fine loc facts coarse g = .ok r ∧ r.length = coarse.length ∧
      (∀ q, InBox loc q → r.getD (lin (cst.map (· + 2 * g)) (q.map (· + g))).toNat 0 =
        ((boxPos facts).map fun e => fine.getD (lin ((fineDims loc facts).map (· + 2 * g)) ((fineCell loc facts q e).map (· + g))).toNat 0).sum) ∧
      (∀ x < coarse.length, (∀ q, InBox loc q → lin (cst.map (· + 2 * g)) (q.map (· + g)) ≠ x) → r.getD x 0 = coarse.getD x 0) := by
  have hll : loc.length = cst.length := hb.length_eq
  obtain ⟨cmds, e1, e2⟩ := condGhost_trace (g := g) hg h1 h3 hll (hf.trans hll) (fun r hr => (hb.le r hr).2) hfp
  obtain ⟨r, e3, w⟩ := condAccess_run hg hb hf hfp hfl hcl
  refine ⟨r, ?_, w⟩
  unfold condenseGhost
  rw [ghostChecks_ok hg h1 hb hf hfp hcl hfl, ok_bind, e1]
  simp only [condenseRun]
  rw [condRun_trace, e2, e3]

example : condenseGhost [3] [9, 1, 2, 3, 4, 9] [(1, 3)] [2] [0, 10, 20, 30, 40] 1 = .ok ([0, 10, 3, 7, 40] : List Int) := by decide +kernel
example : BoxIn [3] [(1, 3)] := .cons ⟨by decide, by decide, by decide⟩ .nil

theorem lin_zero_ghost (st p : List Int) : lin (st.map (· + 2 * 0)) (p.map (· + 0)) = lin st p := by simp

theorem cond_trace {cst : List Int} {loc : List (Int × Int)} {facts : List Int} (h1 : 1 ≤ cst.length) (h3 : cst.length ≤ 3)
    (hl : loc.length = cst.length) (hf : facts.length = cst.length) (hr : ∀ r ∈ loc, r.1 ≤ r.2) (hfp : ∀ f ∈ facts, 1 ≤ f) :
    ∃ cmds, condenseCmds cst loc facts = some cmds ∧ condTrace 0 cmds = (boxPos (fineDims loc facts)).map (condAccess 0 cst loc facts) := by
  match cst, loc, facts, h1, h3, hl, hf with
  | [n0], [r0], [f0], _, _, _, _ =>
    have a0 := hr r0 (by simp)
    have c0 := hfp f0 (by simp)
    refine ⟨_, rfl, ?_⟩
    simp only [condTrace, fineDims, boxDims, List.map_cons, List.map_nil, List.zipWith_cons_cons, List.zipWith_nil_left, boxPosD1, List.map_map]
    rw [(condLine_trace _ _ _ _ _).2, ← toNat_mul (by omega) (by omega)]
    refine List.map_congr_left fun X _ => ?_
    rw [cast_div_toNat (by omega), mod_toNat_zero (by omega)]
    simp only [Function.comp_def, condAccess, fineDims, boxDims, List.map_cons, List.map_nil, List.zipWith_cons_cons, List.zipWith_nil_left, lin, coarseOf, firstOf]
    simp only [Int.mul_zero, Int.add_zero, Prod.mk.injEq, and_true]
    ring
  | [n0, n1], [r0, r1], [f0, f1], _, _, _, _ =>
    have a0 := hr r0 (by simp)
    have a1 := hr r1 (by simp)
    have c0 := hfp f0 (by simp)
    have c1 := hfp f1 (by simp)
    refine ⟨_, rfl, ?_⟩
    have hfn : (((r0.2 - r0.1).toNat : Int) * (f0.toNat : Int)) = (r0.2 - r0.1) * f0 := by
      rw [Int.toNat_of_nonneg (by omega), Int.toNat_of_nonneg (by omega)]
    rw [(condAxis (d := r1.2 - r1.1) (f := f1) (s := (r0.2 - r0.1) * f0) (by omega) (by omega)
      (fun j c => condLine (r0.2 - r0.1) f0 (r0.1 + n0 * r1.1 + j * n0) c) (by
        intro j c
        rw [(condLine_trace _ _ _ _ 0).1, hfn])).2]
    simp only [fineDims, boxDims, List.map_cons, List.map_nil, List.zipWith_cons_cons, List.zipWith_nil_left, boxPosD2, List.map_flatMap]
    refine flatMap_ext fun Y _ => ?_
    simp only [List.map_map]
    rw [(condLine_trace _ _ _ _ _).2, ← toNat_mul (by omega) (by omega)]
    refine List.map_congr_left fun X _ => ?_
    rw [cast_div_toNat (by omega), cast_div_toNat (by omega), mod_toNat_zero (by omega)]
    simp only [Function.comp_def, condAccess, fineDims, boxDims, List.map_cons, List.map_nil, List.zipWith_cons_cons, List.zipWith_nil_left, lin, coarseOf, firstOf]
    simp only [Int.mul_zero, Int.add_zero, Prod.mk.injEq, Bool.true_and, and_true]
    constructor <;> ring
  | [n0, n1, n2], [r0, r1, r2], [f0, f1, f2], _, _, _, _ =>
    have a0 := hr r0 (by simp)
    have a1 := hr r1 (by simp)
    have a2 := hr r2 (by simp)
    have c0 := hfp f0 (by simp)
    have c1 := hfp f1 (by simp)
    have c2 := hfp f2 (by simp)
    refine ⟨_, rfl, ?_⟩
    have hfn : (((r0.2 - r0.1).toNat : Int) * (f0.toNat : Int)) = (r0.2 - r0.1) * f0 := by
      rw [Int.toNat_of_nonneg (by omega), Int.toNat_of_nonneg (by omega)]
    have plane : ∀ (k : Int) (c : Bool) (q : Int), _ := fun k c q =>
      condAxis (d := r1.2 - r1.1) (f := f1) (s := (r0.2 - r0.1) * f0) (p := q) (by omega) (by omega)
        (fun j c' => condLine (r0.2 - r0.1) f0 (r0.1 + n0 * r1.1 + n0 * n1 * r2.1 + k * (n0 * n1) + j * n0) (c && c')) (fun j c' => by
          rw [(condLine_trace _ _ _ _ 0).1, hfn])
    rw [(condAxis (d := r2.2 - r2.1) (f := f2) (s := ((r1.2 - r1.1) * f1) * ((r0.2 - r0.1) * f0)) (by omega) (by omega)
      (fun k c => (List.range (r1.2 - r1.1).toNat).flatMap fun (j : Nat) => (List.range f1.toNat).flatMap fun (je : Nat) =>
        condLine (r0.2 - r0.1) f0 (r0.1 + n0 * r1.1 + n0 * n1 * r2.1 + k * (n0 * n1) + j * n0) (c && decide (je = 0))) (by
        intro k c
        rw [(plane k c 0).1])).2]
    simp only [fineDims, boxDims, List.map_cons, List.map_nil, List.zipWith_cons_cons, List.zipWith_nil_left, boxPosD3, List.map_flatMap]
    refine flatMap_ext fun Z _ => ?_
    rw [(plane _ _ _).2]
    refine flatMap_ext fun Y _ => ?_
    simp only [List.map_map]
    rw [(condLine_trace _ _ _ _ _).2, ← toNat_mul (by omega) (by omega)]
    refine List.map_congr_left fun X _ => ?_
    rw [cast_div_toNat (by omega), cast_div_toNat (by omega), cast_div_toNat (by omega), mod_toNat_zero (by omega)]
    simp only [Function.comp_def, condAccess, fineDims, boxDims, List.map_cons, List.map_nil, List.zipWith_cons_cons, List.zipWith_nil_left, lin, coarseOf, firstOf]
    simp only [Int.mul_zero, Int.add_zero, Prod.mk.injEq, Bool.true_and, and_true]
    constructor <;> ring

theorem deduceRange_ok {cst : List Int} {loc : List (Int × Int)} (hb : BoxIn cst loc) : deduceNumberOfGivenRange loc = .ok (boxDims loc).prod := by
  unfold deduceNumberOfGivenRange
  rw [if_neg]
  · rfl
  · simp only [List.any_eq_true, decide_eq_true_eq, not_exists, not_and]
    intro r hr
    have := hb.le r hr
    omega

theorem fineDims_prod {loc : List (Int × Int)} {facts : List Int} (hf : facts.length = loc.length) : (fineDims loc facts).prod = facts.prod * (boxDims loc).prod := by
  induction loc generalizing facts with
  | nil =>
    obtain rfl : facts = [] := List.eq_nil_of_length_eq_zero (by simpa using hf)
    rfl
  | cons r loc ih =>
    match facts, hf with
    | f :: facts, hf =>
      have := ih (facts := facts) (by simpa using hf)
      simp only [fineDims, boxDims, List.map_cons, List.zipWith_cons_cons, List.prod_cons] at this ⊢
      rw [this]
      ring

theorem accumulateMul_ok {facts : List Int} (hfp : ∀ f ∈ facts, 1 ≤ f) (h : facts.prod < 2 ^ 31) : accumulateMulInt facts = facts.prod := by
  have := accumulateMulInt_small facts 1 (by omega) (fun x hx => by have := hfp x hx; omega) (by omega)
  simpa [accumulateMulInt] using this

/-- **C91** `CondenseFineToCoarse`: every coarse cell of the part receives the sum of the fine cells it contains; the other cells keep their values. -/
theorem C91_condense [AddCommMonoid V] {cst : List Int} {loc : List (Int × Int)} {facts : List Int} (h1 : 1 ≤ cst.length)
    (h3 : cst.length ≤ 3) (hb : BoxIn cst loc) (hf : facts.length = loc.length) (hfp : ∀ f ∈ facts, 1 ≤ f) (h31 : facts.prod < 2 ^ 31) {fine coarse : List V}
    (hfl : (fine.length : Int) = (fineDims loc facts).prod) (hcl : (coarse.length : Int) = cst.prod) :
    ∃ r, condense cst fine loc facts coarse = .ok r ∧ r.length = coarse.length ∧
      (∀ q, InBox loc q → r.getD (lin cst q).toNat 0 = ((boxPos facts).map fun e => fine.getD (lin (fineDims loc facts) (fineCell loc facts q e)).toNat 0).sum) ∧
      (∀ x < coarse.length, (∀ q, InBox loc q → lin cst q ≠ x) → r.getD x 0 = coarse.getD x 0) := by
  have hll : loc.length = cst.length := hb.length_eq
  have hfp' := fineDims_prod hf
  obtain ⟨cmds, e1, e2⟩ := cond_trace h1 h3 hll (hf.trans hll) (fun r hr => (hb.le r hr).2) hfp
  obtain ⟨r, e3, l, w1, w2⟩ := condAccess_run (g := 0) (by omega) hb hf hfp (fine := fine) (coarse := coarse) (by simpa using hfl) (by simpa using hcl)
  simp only [lin_zero_ghost] at w1 w2
  refine ⟨r, ?_, l, w1, w2⟩
  unfold condense
  rw [if_neg (by omega), deduceStructure_ok hb.st_nonneg (by rintro rfl; simp at h1), ok_bind, deduceRange_ok hb, ok_bind, if_neg (by omega)]
  by_cases hz : (boxDims loc).prod = 0
  · rw [if_pos hz, if_pos (by rw [hz] at hfp'; simp at hfp'; omega)]
    have : boxPos (fineDims loc facts) = [] := by
      apply List.eq_nil_of_length_eq_zero
      rw [length_boxPos (fineDims_nonneg hb.le hfp), hfp', hz]
      simp
    rw [this] at e3
    exact e3
  · rw [if_neg hz, if_neg (by rw [hfl, hfp']; simp), if_neg (by rw [hfl, hfp', accumulateMul_ok hfp h31]; simp), dimensions_ok hb, ok_bind, e1]
    simp only [condenseRun]
    rw [condRun_trace, e2, e3]

example : condense [2, 2] [1, 2, 3, 4, 5, 6, 7, 8, 9, 10, 11, 12] [(1, 2), (0, 2)] [2, 3] [100, 200, 300, 400] = .ok ([100, 21, 300, 57] : List Int) := by decide +kernel
example : BoxIn [2, 2] [(1, 2), (0, 2)] := .cons ⟨by decide, by decide, by decide⟩ (.cons ⟨by decide, by decide, by decide⟩ .nil)

end MC
