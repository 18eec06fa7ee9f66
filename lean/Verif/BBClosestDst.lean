import Verif.BBClosestDist

/-!
# The tree of distances `BBTreeDst` (C78)
-/

namespace MC
section
variable {K : Type} [CommRing K] [LinearOrder K] [IsStrictOrderedRing K]

theorem distInternal_nonneg {x lo hi : K} : 0 ≤ (distInternal x lo hi).1 := by
  unfold distInternal
  split_ifs
  · exact mul_self_nonneg _
  · exact mul_self_nonneg _
  · exact le_refl _

/-- the distance along one axis is not above the whole distance -/
theorem axis_le_minD {dim : Nat} {bbs pt : List K} {d e : Nat} (hp : pt.length = dim) (hd : d < dim) :
    (distInternal (pt.getD d 0) (boxLo dim bbs d e) (boxHi dim bbs d e)).1 ≤ minD pt (boxOf dim bbs e) := by
  unfold minD
  apply List.single_le_sum
  · intro x hx
    obtain ⟨k, hk, rfl⟩ := List.mem_iff_getElem.mp hx
    rw [List.getElem_zipWith]
    exact distInternal_nonneg
  · have h1 : d < (List.zipWith (fun x (b : K × K) => (distInternal x b.1 b.2).1) pt (boxOf dim bbs e)).length := by
      rw [List.length_zipWith, boxOf_length, hp, Nat.min_self]; exact hd
    refine List.mem_iff_getElem.mpr ⟨d, h1, ?_⟩
    rw [List.getElem_zipWith]
    simp [boxOf, List.getElem?_eq_getElem (show d < pt.length by omega)]

/-- the pruning of the searches is safe -/
theorem dst_prune {dim : Nat} {bbs pt : List K} {sqrtF : K → K} (hs : ∀ x, 0 ≤ x → 0 ≤ sqrtF x ∧ sqrtF x * sqrtF x = x) {thr : K} (ht : 0 ≤ thr)
    {d e : Nat} (hp : pt.length = dim) (hd : d < dim) (hlh : boxLo dim bbs d e ≤ boxHi dim bbs d e)
    (h : sqrtF thr < boxLo dim bbs d e - pt.getD d 0 ∨ sqrtF thr < pt.getD d 0 - boxHi dim bbs d e) : thr < minD pt (boxOf dim bbs e) := by
  obtain ⟨s0, s1⟩ := hs thr ht
  refine lt_of_lt_of_le ?_ (axis_le_minD hp hd)
  unfold distInternal
  rcases h with h | h
  · have : pt.getD d 0 < boxLo dim bbs d e := by linarith
    rw [if_pos this]
    simp only
    nlinarith
  · have h1 : ¬ pt.getD d 0 < boxLo dim bbs d e := by rw [not_lt]; linarith
    have h2 : pt.getD d 0 > boxHi dim bbs d e := by show _ < _; linarith
    rw [if_neg h1, if_pos h2]
    simp only
    nlinarith

omit [IsStrictOrderedRing K] in
theorem boxOf_valid {dim : Nat} {bbs : List K} {e : Nat} (h : ∀ d, d < dim → boxLo dim bbs d e ≤ boxHi dim bbs d e) : ValidBox (boxOf dim bbs e) := by
  intro b hb
  obtain ⟨d, hd, rfl⟩ := List.mem_map.mp hb
  exact h d (List.mem_range.mp hd)

/-- what `getMinDistanceOfMax` must leave in its argument: the smallest of the largest distances, or the value on entry -/
def IsMinOfMax (dim : Nat) (bbs pt : List K) (es : List Nat) (cur r : K) : Prop :=
  r ≤ cur ∧ (∀ e ∈ es, r ≤ maxD pt (boxOf dim bbs e)) ∧ (r = cur ∨ ∃ e ∈ es, r = maxD pt (boxOf dim bbs e))

theorem minOfMax_spec {dim : Nat} {bbs pt : List K} {sqrtF : K → K} (hs : ∀ x, 0 ≤ x → 0 ≤ sqrtF x ∧ sqrtF x * sqrtF x = x) {big : K} (hd : 0 < dim)
    (hp : pt.length = dim) : ∀ (t : BT K), t.Inv (fun level => boxLo dim bbs (level % dim)) (fun level => boxHi dim bbs (level % dim)) 0 →
    (∀ e ∈ t.elems, (e + 1) * dim * 2 ≤ bbs.length ∧ ∀ d, d < dim → boxLo dim bbs d e ≤ boxHi dim bbs d e) → ∀ cur, 0 ≤ cur →
    ∃ r, dstMinOfMax dim bbs sqrtF big pt t cur = .ok r ∧ IsMinOfMax dim bbs pt t.elems cur r
  | .leaf es, _, hv, cur, hc => by
    have hve : ∀ e ∈ es, (e + 1) * dim * 2 ≤ bbs.length ∧ ∀ d, d < dim → boxLo dim bbs d e ≤ boxHi dim bbs d e := hv
    obtain ⟨b, b1, b2, b3⟩ := boxOfElems_ok (big := big) fun e he => (hve e he).1
    unfold dstMinOfMax
    rw [b1, ok_bind]
    split_ifs with c
    · refine ⟨cur, rfl, le_refl _, fun e he => ?_, Or.inl rfl⟩
      have he : e ∈ es := he
      have v1 := boxOf_valid (hve e he).2
      have v2 := inside_valid (b3 e he) v1
      rw [dstMin_eq v2] at c
      have l1 : pt.length = (boxOf dim bbs e).length := by rw [hp, boxOf_length]
      exact le_trans c.le (le_trans (minD_inside (b3 e he) v1 l1).1 (minD_le_maxD v1 l1))
    · have : ∀ (es pre : List Nat) (cur' : K), (∀ e ∈ es, (e + 1) * dim * 2 ≤ bbs.length ∧ ∀ d, d < dim → boxLo dim bbs d e ≤ boxHi dim bbs d e) →
          IsMinOfMax dim bbs pt pre cur cur' → ∃ r, es.foldlM (fun cur e => do
            let b ← rdBox dim bbs e
            (.ok (min cur (dstMax big pt b)) : M K)) cur' = .ok r ∧ IsMinOfMax dim bbs pt (pre ++ es) cur r := by
        intro es
        induction es with
        | nil => intro pre cur' _ h; exact ⟨cur', rfl, by simpa using h⟩
        | cons e es ih =>
          intro pre cur' hv h
          have he := hv e List.mem_cons_self
          rw [List.foldlM_cons, rdBox_ok he.1, ok_bind, ok_bind, dstMax_eq (boxOf_valid he.2)]
          obtain ⟨r, r1, r2⟩ := ih (pre ++ [e]) (min cur' (maxD pt (boxOf dim bbs e))) (fun e he => hv e (List.mem_cons_of_mem _ he)) (by
            obtain ⟨h1, h2, h3⟩ := h
            refine ⟨le_trans (min_le_left _ _) h1, ?_, ?_⟩
            · intro f hf
              rcases List.mem_append.mp hf with hf | hf
              · exact le_trans (min_le_left _ _) (h2 f hf)
              · rw [List.mem_singleton.mp hf]; exact min_le_right _ _
            · rcases min_choice cur' (maxD pt (boxOf dim bbs e)) with m | m
              · rw [m]
                rcases h3 with h3 | ⟨f, hf, h3⟩
                · exact Or.inl h3
                · exact Or.inr ⟨f, List.mem_append_left _ hf, h3⟩
              · rw [m]
                exact Or.inr ⟨e, by simp, rfl⟩)
          exact ⟨r, r1, by simpa using r2⟩
      obtain ⟨r, r1, r2⟩ := this es [] cur hve ⟨le_refl _, by simp, Or.inl rfl⟩
      rw [List.nil_append] at r2
      exact ⟨r, r1, r2⟩
  | .node level maxLeft minRight l r, hI, hv, cur, hc => by
    have hm : level % dim < dim := Nat.mod_lt _ hd
    obtain ⟨i3, i4, i1, i2⟩ := hI
    have hvl : ∀ e ∈ l.elems, (e + 1) * dim * 2 ≤ bbs.length ∧ ∀ d, d < dim → boxLo dim bbs d e ≤ boxHi dim bbs d e :=
      fun e he => hv e (List.mem_append_left _ he)
    have hvr : ∀ e ∈ r.elems, (e + 1) * dim * 2 ≤ bbs.length ∧ ∀ d, d < dim → boxLo dim bbs d e ≤ boxHi dim bbs d e :=
      fun e he => hv e (List.mem_append_right _ he)
    have far : ∀ e, (∀ d, d < dim → boxLo dim bbs d e ≤ boxHi dim bbs d e) → (sqrtF cur < boxLo dim bbs (level % dim) e - pt.getD (level % dim) 0 ∨
        sqrtF cur < pt.getD (level % dim) 0 - boxHi dim bbs (level % dim) e) → cur < maxD pt (boxOf dim bbs e) := fun e he h =>
      lt_of_lt_of_le (dst_prune hs hc hp hm (he _ hm) h) (minD_le_maxD (boxOf_valid he) (by rw [hp, boxOf_length]))
    have hx : rd pt ((level % dim : Nat) : Int) = .ok (pt.getD (level % dim) 0) := rd_getD (by omega)
    unfold dstMinOfMax dstOnlyLeft dstOnlyRight
    rw [hx, ok_bind, ok_bind]
    split_ifs with a
    · have a := of_decide_eq_true a
      obtain ⟨v, v1, v2, v3, v4⟩ := minOfMax_spec hs hd hp (big := big) l i1 hvl cur hc
      refine ⟨v, v1, v2, ?_, ?_⟩
      · intro e he
        rcases List.mem_append.mp he with he | he
        · exact v3 e he
        · have h5 : minRight ≤ boxLo dim bbs (level % dim) e - 0 := i4 e he
          exact le_trans v2 (far e (hvr e he).2 (Or.inl (by linarith))).le
      · rcases v4 with v4 | ⟨f, hf, v4⟩
        · exact Or.inl v4
        · exact Or.inr ⟨f, List.mem_append_left _ hf, v4⟩
    · rw [ok_bind, ok_bind]
      split_ifs with b
      · have b := of_decide_eq_true b
        obtain ⟨v, v1, v2, v3, v4⟩ := minOfMax_spec hs hd hp (big := big) r i2 hvr cur hc
        refine ⟨v, v1, v2, ?_, ?_⟩
        · intro e he
          rcases List.mem_append.mp he with he | he
          · have h5 : boxHi dim bbs (level % dim) e + 0 ≤ maxLeft := i3 e he
            exact le_trans v2 (far e (hvl e he).2 (Or.inr (by linarith))).le
          · exact v3 e he
        · rcases v4 with v4 | ⟨f, hf, v4⟩
          · exact Or.inl v4
          · exact Or.inr ⟨f, List.mem_append_right _ hf, v4⟩
      · obtain ⟨v, v1, v2, v3, v4⟩ := minOfMax_spec hs hd hp (big := big) l i1 hvl cur hc
        have hv0 : 0 ≤ v := by
          rcases v4 with v4 | ⟨f, hf, v4⟩
          · rw [v4]; exact hc
          · rw [v4]
            have v5 := boxOf_valid (hvl f hf).2
            have l1 : pt.length = (boxOf dim bbs f).length := by rw [hp, boxOf_length]
            exact le_trans (le_trans distInternal_nonneg (axis_le_minD hp hd)) (minD_le_maxD v5 l1)
        obtain ⟨w, w1, w2, w3, w4⟩ := minOfMax_spec hs hd hp (big := big) r i2 hvr v hv0
        rw [v1, ok_bind]
        refine ⟨w, w1, le_trans w2 v2, ?_, ?_⟩
        · intro e he
          rcases List.mem_append.mp he with he | he
          · exact le_trans w2 (v3 e he)
          · exact w3 e he
        · rcases w4 with w4 | ⟨f, hf, w4⟩
          · rw [w4]
            rcases v4 with v4 | ⟨f, hf, v4⟩
            · exact Or.inl v4
            · exact Or.inr ⟨f, List.mem_append_left _ hf, v4⟩
          · exact Or.inr ⟨f, List.mem_append_right _ hf, w4⟩

/-- C78: the tree of distances is built without error and holds each element once.  For a point, the first search lowers the given value to
the smallest, over the boxes, of the distance from the point to the farthest point of the box.  The second search returns exactly the boxes
which have a point closer than the given value. -/
theorem C78_dst {dim : Nat} (hd : 0 < dim) {bbs : List K} (elems : Option (List Nat)) (nb : Nat) (big : K)
    (hv : ∀ e ∈ btElems elems nb, (e + 1) * dim * 2 ≤ bbs.length ∧ ValidBox (boxOf dim bbs e)) {sqrtF : K → K}
    (hs : ∀ x, 0 ≤ x → 0 ≤ sqrtF x ∧ sqrtF x * sqrtF x = x) :
    ∃ t, bbTreeDst dim bbs elems nb big = .ok t ∧ t.size = (btElems elems nb).length ∧ ∀ pt : List K, pt.length = dim →
      (∀ cur, 0 ≤ cur → ∃ r, dstMinOfMax dim bbs sqrtF big pt t cur = .ok r ∧ r ≤ cur ∧
        (∀ e ∈ btElems elems nb, ∃ q, PtIn q (boxOf dim bbs e) ∧ r ≤ sqDist pt q) ∧
        (r = cur ∨ ∃ e ∈ btElems elems nb, (∀ q, PtIn q (boxOf dim bbs e) → sqDist pt q ≤ r) ∧ ∃ q, PtIn q (boxOf dim bbs e) ∧ sqDist pt q = r)) ∧
      ∀ thr, 0 ≤ thr → ∃ found : List Nat, (∀ out, dstElems dim bbs sqrtF big t pt thr out = .ok (out ++ found)) ∧
        (found.Perm ((btElems elems nb).filter fun e => decide (minD pt (boxOf dim bbs e) < thr))) ∧
        ∀ e, e ∈ found ↔ e ∈ btElems elems nb ∧ ∃ q, PtIn q (boxOf dim bbs e) ∧ sqDist pt q < thr := by
  have hv' : ∀ e ∈ btElems elems nb, (e + 1) * dim * 2 ≤ bbs.length ∧ ∀ d, d < dim → boxLo dim bbs d e ≤ boxHi dim bbs d e := fun e he =>
    ⟨(hv e he).1, fun d hd => (hv e he).2 _ (List.mem_map.mpr ⟨d, List.mem_range.mpr hd, rfl⟩)⟩
  have hm : ∀ lev, lev % dim < dim := fun lev => Nat.mod_lt _ hd
  obtain ⟨t, e1, e2, e3⟩ := btBuild_spec (lo := fun level => bbLo dim bbs (level % dim)) (hi := fun level => bbHi dim bbs (level % dim))
    (lo' := fun level => boxLo dim bbs (level % dim)) (hi' := fun level => boxHi dim bbs (level % dim)) (right := fun v m => decide (v > m))
    (pad := 0) (big := big) 22 0 (btElems elems nb) (by omega) (fun lev e he => bbLo_ok (hm lev) (hv e he).1) (by omega)
  have hvt : ∀ e ∈ t.elems, (e + 1) * dim * 2 ≤ bbs.length ∧ ∀ d, d < dim → boxLo dim bbs d e ≤ boxHi dim bbs d e := fun e he => hv' e (e2.mem_iff.mp he)
  refine ⟨t, e1, by rw [BT.size_elems, e2.length_eq], fun pt hp => ⟨fun cur hc => ?_, fun thr ht => ?_⟩⟩
  · obtain ⟨r, r1, r2, r3, r4⟩ := minOfMax_spec hs hd hp (big := big) t e3 hvt cur hc
    refine ⟨r, r1, r2, fun e he => ?_, ?_⟩
    · obtain ⟨q, q1, q2⟩ := maxD_attained (pt := pt) (by rw [hp, boxOf_length]) (hv e he).2
      exact ⟨q, q1, q2 ▸ r3 e (e2.mem_iff.mpr he)⟩
    · rcases r4 with r4 | ⟨e, he, r4⟩
      · exact Or.inl r4
      · have he := e2.mem_iff.mp he
        have l1 : pt.length = (boxOf dim bbs e).length := by rw [hp, boxOf_length]
        refine Or.inr ⟨e, he, fun q hq => r4 ▸ (minD_le_maxD_bounds l1 hq).2, ?_⟩
        rw [r4]
        exact maxD_attained l1 (hv e he).2
  · have := btCollect_spec (lo := fun level => boxLo dim bbs (level % dim)) (hi := fun level => boxHi dim bbs (level % dim)) (pad := 0)
      (onlyLeft := dstOnlyLeft dim pt sqrtF thr) (onlyRight := dstOnlyRight dim pt sqrtF thr) (test := fun e => do
        let b ← rdBox dim bbs e
        .ok (decide (dstMin big pt b < thr)))
      (P := fun e => decide (minD pt (boxOf dim bbs e) < thr))
      (V := fun e => (e + 1) * dim * 2 ≤ bbs.length ∧ ∀ d, d < dim → boxLo dim bbs d e ≤ boxHi dim bbs d e) (by
        intro lev m
        have h1 : lev % dim < pt.length := by have := hm lev; omega
        unfold dstOnlyLeft
        rw [rd_getD h1, ok_bind]
        refine ⟨_, rfl, fun hb e he hle => decide_eq_false fun hM => ?_⟩
        have hb := of_decide_eq_true hb
        exact lt_asymm hM (dst_prune hs ht hp (hm lev) (he.2 _ (hm lev)) (Or.inl (by linarith)))) (by
        intro lev m
        have h1 : lev % dim < pt.length := by have := hm lev; omega
        unfold dstOnlyRight
        rw [rd_getD h1, ok_bind]
        refine ⟨_, rfl, fun hb e he hle => decide_eq_false fun hM => ?_⟩
        have hb := of_decide_eq_true hb
        exact lt_asymm hM (dst_prune hs ht hp (hm lev) (he.2 _ (hm lev)) (Or.inr (by linarith)))) (fun e he => by
        rw [rdBox_ok he.1, ok_bind, dstMin_eq (boxOf_valid he.2)]) t e3 hvt
    refine ⟨_, fun out => (this out).1, e2.filter _, fun e => ?_⟩
    rw [List.mem_filter, e2.mem_iff, decide_eq_true_iff]
    refine and_congr_right fun he => ?_
    have l1 : pt.length = (boxOf dim bbs e).length := by rw [hp, boxOf_length]
    constructor
    · intro h
      obtain ⟨q, q1, q2⟩ := minD_attained l1 (hv e he).2
      exact ⟨q, q1, q2 ▸ h⟩
    · rintro ⟨q, q1, q2⟩
      exact lt_of_le_of_lt (minD_le_maxD_bounds l1 q1).1 q2

/-- C78: when each cell lies in its box and no box is a single point, the two searches one after the other keep a cell which is the closest
to the point.  `o e` is the point of cell `e` which is the closest to `pt`. -/
theorem C78_dst_closest {dim : Nat} {bbs pt : List K} {es : List Nat} {x : K} (hp : pt.length = dim)
    (hv : ∀ e ∈ es, ValidBox (boxOf dim bbs e) ∧ ∃ b ∈ boxOf dim bbs e, b.1 < b.2) (o : Nat → List K) (ho : ∀ e ∈ es, PtIn (o e) (boxOf dim bbs e))
    (h2 : ∃ e ∈ es, (∀ q, PtIn q (boxOf dim bbs e) → sqDist pt q ≤ x) ∧ ∃ q, PtIn q (boxOf dim bbs e) ∧ sqDist pt q = x) :
    ∃ e ∈ es, (∃ q, PtIn q (boxOf dim bbs e) ∧ sqDist pt q < x) ∧ ∀ e' ∈ es, sqDist pt (o e) ≤ sqDist pt (o e') := by
  obtain ⟨e0, m1, m2, q, q1, q2⟩ := h2
  have hne : es ≠ [] := List.ne_nil_of_mem m1
  obtain ⟨e1, n1, n2⟩ : ∃ e ∈ es, ∀ e' ∈ es, sqDist pt (o e) ≤ sqDist pt (o e') := by
    clear m2 hv ho q1 q2 m1
    induction es with
    | nil => exact absurd rfl hne
    | cons e es ih =>
      by_cases hes : es = []
      · subst hes; exact ⟨e, by simp, by simp⟩
      · obtain ⟨f, f1, f2⟩ := ih hes
        rcases le_total (sqDist pt (o e)) (sqDist pt (o f)) with c | c
        · refine ⟨e, List.mem_cons_self, fun e' he' => ?_⟩
          rcases List.mem_cons.mp he' with rfl | he'
          · exact le_refl _
          · exact le_trans c (f2 e' he')
        · refine ⟨f, List.mem_cons_of_mem _ f1, fun e' he' => ?_⟩
          rcases List.mem_cons.mp he' with rfl | he'
          · exact c
          · exact f2 e' he'
  rcases lt_or_ge (sqDist pt (o e1)) x with c | c
  · exact ⟨e1, n1, ⟨o e1, ho e1 n1, c⟩, n2⟩
  · -- the box `e0` is as close as the closest cell and has a point which is closer
    refine ⟨e0, m1, ?_, fun e' he' => le_trans (m2 _ (ho e0 m1)) (le_trans c (n2 e' he'))⟩
    have l1 : pt.length = (boxOf dim bbs e0).length := by rw [hp, boxOf_length]
    obtain ⟨q', r1, r2⟩ := minD_attained l1 (hv e0 m1).1
    refine ⟨q', r1, ?_⟩
    rw [r2]
    have hx : x ≤ maxD pt (boxOf dim bbs e0) := q2 ▸ (minD_le_maxD_bounds l1 q1).2
    refine lt_of_lt_of_le ?_ (show maxD pt (boxOf dim bbs e0) ≤ x from ?_)
    · have : ∀ (pt : List K) (box : List (K × K)), pt.length = box.length → ValidBox box → (∃ b ∈ box, b.1 < b.2) → minD pt box < maxD pt box := by
        intro pt
        induction pt with
        | nil => intro box h _ hb; rw [List.length_eq_zero_iff.mp h.symm] at hb; simp at hb
        | cons y pt ih =>
          intro box h hvb hb
          cases box with
          | nil => simp at h
          | cons b box =>
            have hvb' : ValidBox box := fun b hb => hvb b (List.mem_cons_of_mem _ hb)
            have h0 := hvb b List.mem_cons_self
            have hl : pt.length = box.length := by simpa using h
            have h3 : (distInternal y b.1 b.2).1 ≤ (distInternal y b.1 b.2).2 := by
              obtain ⟨z, z1, z2, z3⟩ := distInternal_min (x := y) h0
              exact z3 ▸ (distInternal_bounds z1 z2).2
            have hs1 : ∀ f : K → K × K → K, (List.zipWith f (y :: pt) (b :: box)).sum = f y b + (List.zipWith f pt box).sum := fun f => by
              rw [List.zipWith_cons_cons, List.sum_cons]
            unfold minD maxD
            rw [hs1, hs1]
            obtain ⟨c, hc, hlt⟩ := hb
            rcases List.mem_cons.mp hc with rfl | hc
            · refine add_lt_add_of_lt_of_le ?_ (minD_le_maxD hvb' hl)
              unfold distInternal
              split_ifs with u v
              · simp only; nlinarith
              · simp only; nlinarith
              · simp only
                have : 0 < max (c.2 - y) (y - c.1) := by
                  rw [lt_max_iff]
                  by_contra hcon
                  push Not at hcon
                  linarith [hcon.1, hcon.2]
                nlinarith
            · exact add_lt_add_of_le_of_lt h3 (ih box hl hvb' ⟨c, hc, hlt⟩)
      exact this _ _ l1 (hv e0 m1).1 (hv e0 m1).2
    · obtain ⟨q'', s1, s2⟩ := maxD_attained l1 (hv e0 m1).1
      exact s2 ▸ m2 q'' s1

/-- the hypotheses of `C78_dst` and `C78_dst_closest` hold on two boxes of the plane, with the real square root -/
example : (∀ e ∈ btElems (none : Option (List Nat)) 2, (e + 1) * 2 * 2 ≤ [(0 : ℝ), 1, 2, 2, 5, 5, 3, 6].length ∧
      ValidBox (boxOf 2 [(0 : ℝ), 1, 2, 2, 5, 5, 3, 6] e) ∧ ∃ b ∈ boxOf 2 [(0 : ℝ), 1, 2, 2, 5, 5, 3, 6] e, b.1 < b.2) ∧
    ∀ x : ℝ, 0 ≤ x → 0 ≤ Real.sqrt x ∧ Real.sqrt x * Real.sqrt x = x := by
  refine ⟨fun e he => ?_, fun x hx => ⟨Real.sqrt_nonneg x, Real.mul_self_sqrt hx⟩⟩
  have he : e = 0 ∨ e = 1 := by
    have : e < 2 := by simpa [btElems] using he
    omega
  rcases he with rfl | rfl <;> norm_num [boxOf, List.range_succ, boxLo, boxHi, ValidBox]

/-- Finding: with boxes which are single points the second search keeps no cell at all, since it asks for a distance strictly under the
value found by the first one. -/
theorem C78_dst_points_lost : ∃ t, bbTreeDst 2 [(1 : ℝ), 1, 2, 2] none 1 1000 = .ok t ∧
    dstMinOfMax 2 [(1 : ℝ), 1, 2, 2] Real.sqrt 1000 [0, 0] t 1000 = .ok 5 ∧ dstElems 2 [(1 : ℝ), 1, 2, 2] Real.sqrt 1000 t [0, 0] 5 [] = .ok [] := by
  have hb : rdBox 2 [(1 : ℝ), 1, 2, 2] 0 = .ok [(1, 1), (2, 2)] := by
    rw [rdBox_ok (by simp)]
    simp [boxOf, List.range_succ, boxLo, boxHi]
  have v1 : ValidBox [((1 : ℝ), (1 : ℝ)), (2, 2)] := by
    intro b hb
    rcases List.mem_cons.mp hb with rfl | hb
    · exact le_refl _
    · rw [List.mem_singleton.mp hb]
  refine ⟨.leaf [0], rfl, ?_, ?_⟩
  · unfold dstMinOfMax boxOfElems
    simp only [List.foldlM_cons, List.foldlM_nil, hb, ok_bind, bind_pure]
    have : boxAdd (List.replicate 2 ((1000 : ℝ), (-1000 : ℝ))) [(1, 1), (2, 2)] = [(1, 1), (2, 2)] := by
      norm_num [boxAdd, List.replicate_succ]
    rw [this, dstMin_eq v1, dstMax_eq v1]
    norm_num [minD, maxD, distInternal]
  · unfold dstElems btCollect
    simp only [List.foldlM_cons, List.foldlM_nil, hb, ok_bind, bind_pure]
    rw [dstMin_eq v1]
    norm_num [minD, distInternal]

end
end MC
