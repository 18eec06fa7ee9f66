import Verif.BBClosestDist

/-!
# The candidates of `candidatesClosestTo` and of the tree of closest boxes (C78)
-/

namespace MC
section
variable {K : Type} [CommRing K] [LinearOrder K] [IsStrictOrderedRing K]

/-- Specification: box `e` may hold the object closest to `p`: it has a point which is not farther than the farthest point of any box. -/
def IsCandidate (dim : Nat) (bbs : List K) (n : Nat) (p : List K) (e : Nat) : Prop :=
  ∃ q, PtIn q (boxOf dim bbs e) ∧ ∀ e', e' < n → ∃ q', PtIn q' (boxOf dim bbs e') ∧ sqDist p q ≤ sqDist p q'

/-! ## Trees -/

/-- the elements of a tree, from left to right -/
def CT.elems {K : Type} : CT K → List Nat
  | .leaf _ es _ _ => es
  | .node _ _ l r => l.elems ++ r.elems

/-- the leaves are not empty and their boxes hold the boxes of their elements -/
def CT.Inv (dim : Nat) (bbs : List K) : CT K → Prop
  | .leaf b es _ _ => b.length = dim ∧ es ≠ [] ∧ ∀ e ∈ es, Inside (boxOf dim bbs e) b
  | .node b _ l r => l.Inv dim bbs ∧ r.Inv dim bbs ∧ b.length = dim ∧ ∀ e ∈ l.elems ++ r.elems, Inside (boxOf dim bbs e) b

/-- no leaf holds candidates of a previous search -/
def CT.NoCands {K : Type} : CT K → Prop
  | .leaf _ _ _ c => c = []
  | .node _ _ l r => l.NoCands ∧ r.NoCands

/-- `_min` is not above the distance to any element below -/
def CT.Fresh (dim : Nat) (bbs pt : List K) : CT K → Prop
  | .leaf _ es mn _ => ∀ e ∈ es, mn ≤ minD pt (boxOf dim bbs e)
  | .node _ mn l r => (∀ e ∈ l.elems ++ r.elems, mn ≤ minD pt (boxOf dim bbs e)) ∧ l.Fresh dim bbs pt ∧ r.Fresh dim bbs pt

omit [IsStrictOrderedRing K] in
theorem CT.fresh_mn {dim : Nat} {bbs pt : List K} : ∀ {t : CT K}, t.Fresh dim bbs pt → ∀ e ∈ t.elems, t.mn ≤ minD pt (boxOf dim bbs e)
  | .leaf _ _ _ _, h => h
  | .node _ _ _ _, h => h.1

omit [IsStrictOrderedRing K] in
theorem CT.inv_box {dim : Nat} {bbs : List K} : ∀ {t : CT K}, t.Inv dim bbs → t.box.length = dim ∧ ∀ e ∈ t.elems, Inside (boxOf dim bbs e) t.box
  | .leaf _ _ _ _, h => ⟨h.1, h.2.2⟩
  | .node _ _ _ _, h => h.2.2

omit [IsStrictOrderedRing K] in
theorem CT.inv_ne {dim : Nat} {bbs : List K} : ∀ {t : CT K}, t.Inv dim bbs → t.elems ≠ []
  | .leaf _ _ _ _, h => h.2.1
  | .node _ _ l _, h => by
    have := CT.inv_ne h.1
    intro hc
    exact this (List.append_eq_nil_iff.mp hc).1

/-! ## Construction -/

/-- `std::nth_element` permutes the positions -/
def IsArrange (arrange : List K → List Nat) : Prop := ∀ keys, (arrange keys).Perm (List.range keys.length)

omit [LinearOrder K] [IsStrictOrderedRing K] in
theorem splitClosest_ok {dim : Nat} {bbs : List K} {arrange : List K → List Nat} (ha : IsArrange arrange) {level : Nat} {elems : List Nat} (hd : 0 < dim)
    (hv : ∀ e ∈ elems, (e + 1) * dim * 2 ≤ bbs.length) : ∃ l r, splitClosest dim bbs arrange level elems = .ok (l, r) ∧ (l ++ r).Perm elems ∧
      l.length = elems.length / 2 := by
  have hm : level % dim < dim := Nat.mod_lt _ hd
  unfold splitClosest
  rw [bt_mapM_ok (f' := fun e => boxLo dim bbs (level % dim) e + boxHi dim bbs (level % dim) e) elems (by
    intro e he
    obtain ⟨h1, h2⟩ := bbLo_ok hm (hv e he)
    rw [h1, ok_bind, h2, ok_bind]), ok_bind]
  have hp := ha (elems.map fun e => boxLo dim bbs (level % dim) e + boxHi dim bbs (level % dim) e)
  rw [List.length_map] at hp
  generalize arrange (elems.map fun e => boxLo dim bbs (level % dim) e + boxHi dim bbs (level % dim) e) = idx at hp
  have hm : idx.mapM (fun i => rd elems ((i : Nat) : Int)) = .ok (idx.map fun i => elems.getD i 0) := by
    have : ∀ l : List Nat, (∀ i ∈ l, i < elems.length) → l.mapM (fun i => rd elems ((i : Nat) : Int)) = .ok (l.map fun i => elems.getD i 0) := by
      intro l
      induction l with
      | nil => intro _; rfl
      | cons i l ih =>
        intro h
        rw [List.mapM_cons, rd_natCast (h i List.mem_cons_self), ok_bind, ih fun i hi => h i (List.mem_cons_of_mem _ hi), ok_bind, List.map_cons,
          List.getD_eq_getElem?_getD, List.getElem?_eq_getElem (h i List.mem_cons_self)]
        rfl
    exact this idx fun i hi => List.mem_range.mp (hp.mem_iff.mp hi)
  rw [hm, ok_bind]
  have he : (List.range elems.length).map (fun i => elems.getD i 0) = elems := by
    apply List.ext_getElem (by simp)
    intro i h1 h2
    simp [List.getElem?_eq_getElem h2]
  have hperm : (idx.map fun i => elems.getD i 0).Perm elems := by
    have := hp.map fun i => elems.getD i 0
    rwa [he] at this
  refine ⟨_, _, rfl, by rw [List.take_append_drop]; exact hperm, ?_⟩
  rw [List.length_take, hperm.length_eq]
  omega

omit [IsStrictOrderedRing K] in
theorem ctBuild_ok {dim : Nat} {bbs : List K} {arrange : List K → List Nat} (ha : IsArrange arrange) {big : K} (hd : 0 < dim) :
    ∀ (fuel level : Nat) (elems : List Nat), 14 ≤ fuel + level → 0 < fuel → elems ≠ [] → (∀ e ∈ elems, (e + 1) * dim * 2 ≤ bbs.length) →
    ∃ t, ctBuild dim bbs arrange big fuel level elems = .ok t ∧ t.elems.Perm elems ∧ t.Inv dim bbs ∧ t.NoCands
  | 0, _, _, _, h, _, _ => by omega
  | fuel + 1, level, elems, hf, _, hne, hv => by
    unfold ctBuild
    by_cases c : elems.length < 15 ∨ level > 12
    · rw [if_pos c]
      obtain ⟨b, b1, b2, b3⟩ := boxOfElems_ok (big := big) hv
      rw [b1, ok_bind]
      exact ⟨_, rfl, List.Perm.refl _, ⟨b2, hne, b3⟩, rfl⟩
    · rw [if_neg c]
      push Not at c
      obtain ⟨l, r, e1, e2, e3⟩ := splitClosest_ok ha (level := level) hd hv
      have hlen := e2.length_eq
      rw [List.length_append] at hlen
      have hl : l ≠ [] := by
        intro h; rw [h, List.length_nil] at e3; omega
      have hr : r ≠ [] := by
        intro h; rw [h, List.length_nil] at hlen; omega
      obtain ⟨tl, l1, l2, l3, l4⟩ := ctBuild_ok ha (big := big) hd fuel (level + 1) l (by omega) (by omega) hl
        (fun e he => hv e (e2.mem_iff.mp (List.mem_append_left _ he)))
      obtain ⟨tr, r1, r2, r3, r4⟩ := ctBuild_ok ha (big := big) hd fuel (level + 1) r (by omega) (by omega) hr
        (fun e he => hv e (e2.mem_iff.mp (List.mem_append_right _ he)))
      rw [e1, ok_bind, l1, ok_bind, r1, ok_bind]
      obtain ⟨bl1, bl2⟩ := CT.inv_box l3
      obtain ⟨br1, br2⟩ := CT.inv_box r3
      obtain ⟨a1, a2, a3⟩ := inside_add (b := tl.box) (c := tr.box) (by rw [bl1, br1])
      refine ⟨_, rfl, (l2.append r2).trans e2, ⟨l3, r3, a3.trans bl1, fun e he => ?_⟩, l4, r4⟩
      rcases List.mem_append.mp he with he | he
      · exact inside_trans (bl2 e he) a1
      · exact inside_trans (br2 e he) a2

/-! ## Searches -/

/-- the elements are in the array and their boxes are valid -/
def CT.Good (dim : Nat) (bbs : List K) (t : CT K) : Prop := ∀ e ∈ t.elems, (e + 1) * dim * 2 ≤ bbs.length ∧ ValidBox (boxOf dim bbs e)

theorem getMinOfMaxes_ok {dim : Nat} (hd : 0 < dim) {bbs pt : List K} (hp : pt.length = dim) : ∀ {t : CT K}, t.Inv dim bbs → t.Good dim bbs →
    ∃ d t', getMinOfMaxes pt t = .ok (d, t') ∧ t'.elems = t.elems ∧ t'.Inv dim bbs ∧ t'.Fresh dim bbs pt ∧ (t.NoCands → t'.NoCands) ∧
      ∃ e ∈ t.elems, maxD pt (boxOf dim bbs e) ≤ d
  | .leaf b es mn c, hI, hg => by
    obtain ⟨i1, i2, i3⟩ := hI
    have hb : b ≠ [] := by intro h; rw [h, List.length_nil] at i1; omega
    unfold getMinOfMaxes
    rw [highLevelDist_ok (hp.trans i1.symm) hb, ok_bind]
    have hi : ∀ e ∈ es, minD pt b ≤ minD pt (boxOf dim bbs e) ∧ maxD pt (boxOf dim bbs e) ≤ maxD pt b := fun e he =>
      minD_inside (i3 e he) (hg e he).2 (by rw [hp, boxOf_length])
    refine ⟨_, _, rfl, rfl, ⟨i1, i2, i3⟩, fun e he => (hi e he).1, fun h => h, ?_⟩
    obtain ⟨e, he⟩ := List.exists_mem_of_ne_nil _ i2
    exact ⟨e, he, (hi e he).2⟩
  | .node b mn l r, hI, hg => by
    obtain ⟨i1, i2, i3⟩ := hI
    obtain ⟨dl, tl, l1, l2, l3, l4, l5, el, l6, l7⟩ := getMinOfMaxes_ok hd hp (t := l) i1 fun e he => hg e (List.mem_append_left _ he)
    obtain ⟨dr, tr, r1, r2, r3, r4, r5, er, r6, r7⟩ := getMinOfMaxes_ok hd hp (t := r) i2 fun e he => hg e (List.mem_append_right _ he)
    unfold getMinOfMaxes
    rw [l1, ok_bind, r1, ok_bind]
    refine ⟨_, _, rfl, ?_, ⟨l3, r3, i3.1, ?_⟩, ⟨?_, l4, r4⟩, fun h => ⟨l5 h.1, r5 h.2⟩, ?_⟩
    · show tl.elems ++ tr.elems = l.elems ++ r.elems
      rw [l2, r2]
    · show ∀ e ∈ tl.elems ++ tr.elems, _
      rw [l2, r2]; exact i3.2
    · intro e he
      rcases List.mem_append.mp he with he | he
      · exact le_trans (min_le_left _ _) (CT.fresh_mn l4 e he)
      · exact le_trans (min_le_right _ _) (CT.fresh_mn r4 e he)
    · rcases le_total dl dr with h | h
      · exact ⟨el, List.mem_append_left _ l6, by simpa [min_eq_left h] using l7⟩
      · exact ⟨er, List.mem_append_right _ r6, by simpa [min_eq_right h] using r7⟩

omit [IsStrictOrderedRing K] in
theorem refine_fold {dim : Nat} (hd : 0 < dim) {bbs pt : List K} (hp : pt.length = dim) {dist : K} : ∀ (es : List Nat) (s : K × K × List (Nat × K)),
    (∀ e ∈ es, (e + 1) * dim * 2 ≤ bbs.length ∧ ValidBox (boxOf dim bbs e)) →
    ∃ a r, es.foldlM (refineStep dim bbs pt dist) s =
        .ok (a, r, s.2.2 ++ (es.filter fun e => decide (minD pt (boxOf dim bbs e) ≤ dist)).map fun e => (e, minD pt (boxOf dim bbs e))) ∧
      a ≤ s.1 ∧ (∀ e ∈ es, a ≤ minD pt (boxOf dim bbs e)) ∧ r ≤ s.2.1 ∧ (∀ e ∈ es, minD pt (boxOf dim bbs e) ≤ dist → r ≤ maxD pt (boxOf dim bbs e)) ∧
      ∀ m, m ≤ s.2.1 → (∀ e ∈ es, m ≤ maxD pt (boxOf dim bbs e)) → m ≤ r
  | [], s, _ => ⟨s.1, s.2.1, by simp; rfl, le_refl _, by simp, le_refl _, by simp, fun m h _ => h⟩
  | e :: es, s, hv => by
    have he := hv e List.mem_cons_self
    have hb : boxOf dim bbs e ≠ [] := by
      intro h
      have := boxOf_length dim bbs e
      rw [h, List.length_nil] at this; omega
    rw [List.foldlM_cons]
    unfold refineStep
    rw [rdBox_ok he.1, ok_bind, highLevelDist_ok (by rw [hp, boxOf_length]) hb, ok_bind, ok_bind]
    simp only
    by_cases c : minD pt (boxOf dim bbs e) ≤ dist
    · rw [if_pos c]
      obtain ⟨a, r, h1, h2, h3, h4, h5, h6⟩ := refine_fold hd hp (dist := dist) es
        (min s.1 (minD pt (boxOf dim bbs e)), min s.2.1 (maxD pt (boxOf dim bbs e)), s.2.2 ++ [(e, minD pt (boxOf dim bbs e))])
        (fun e he => hv e (List.mem_cons_of_mem _ he))
      refine ⟨a, r, ?_, le_trans h2 (min_le_left _ _), ?_, le_trans h4 (min_le_left _ _), ?_, ?_⟩
      · unfold refineStep at h1
        rw [h1, List.filter_cons_of_pos (by simpa using c)]
        simp
      · intro f hf
        rcases List.mem_cons.mp hf with rfl | hf
        · exact le_trans h2 (min_le_right _ _)
        · exact h3 f hf
      · intro f hf hle
        rcases List.mem_cons.mp hf with rfl | hf
        · exact le_trans h4 (min_le_right _ _)
        · exact h5 f hf hle
      · intro m hm hall
        exact h6 m (le_min hm (hall e List.mem_cons_self)) fun f hf => hall f (List.mem_cons_of_mem _ hf)
    · rw [if_neg c]
      obtain ⟨a, r, h1, h2, h3, h4, h5, h6⟩ := refine_fold hd hp (dist := dist) es (min s.1 (minD pt (boxOf dim bbs e)), s.2)
        (fun e he => hv e (List.mem_cons_of_mem _ he))
      refine ⟨a, r, ?_, le_trans h2 (min_le_left _ _), ?_, h4, ?_, ?_⟩
      · unfold refineStep at h1
        rw [h1, List.filter_cons_of_neg (by simpa using c)]
      · intro f hf
        rcases List.mem_cons.mp hf with rfl | hf
        · exact le_trans h2 (min_le_right _ _)
        · exact h3 f hf
      · intro f hf hle
        rcases List.mem_cons.mp hf with rfl | hf
        · exact absurd hle c
        · exact h5 f hf hle
      · intro m hm hall
        exact h6 m hm fun f hf => hall f (List.mem_cons_of_mem _ hf)

/-- the elements to return: the ones which are not farther than `m` -/
def within (dim : Nat) (bbs pt : List K) (m : K) (es : List Nat) : List Nat := es.filter fun e => decide (minD pt (boxOf dim bbs e) ≤ m)

omit [IsStrictOrderedRing K] in
theorem within_nil {dim : Nat} {bbs pt : List K} {m a : K} {es : List Nat} (h : ∀ e ∈ es, a ≤ minD pt (boxOf dim bbs e)) (ha : m < a) :
    within dim bbs pt m es = [] := by
  unfold within
  rw [List.filter_eq_nil_iff]
  intro e he
  simpa using lt_of_lt_of_le ha (h e he)

theorem refineMax_ok {dim : Nat} (hd : 0 < dim) {bbs pt : List K} (hp : pt.length = dim) {big m : K} (hmb : m ≤ big) : ∀ {t : CT K} {d : K}, t.Inv dim bbs →
    t.Good dim bbs → t.Fresh dim bbs pt → m ≤ d → (∀ e ∈ t.elems, m ≤ maxD pt (boxOf dim bbs e)) →
    ∃ v t', refineMax dim bbs pt big t d = .ok (v, t') ∧ m ≤ v ∧ ((∃ e ∈ t.elems, maxD pt (boxOf dim bbs e) = m) → v ≤ m) ∧ t'.elems = t.elems ∧
      t'.Inv dim bbs ∧ (∀ e ∈ t.elems, t'.mn ≤ minD pt (boxOf dim bbs e)) ∧ (within dim bbs pt m t.elems).Sublist (ctFilter t' m).1 ∧
      (t.NoCands → (ctFilter t' m).1 = within dim bbs pt m t.elems)
  | .leaf b es mn c, d, hI, hg, hf, hmd, hm => by
    unfold refineMax
    have hle : ∀ e ∈ es, minD pt (boxOf dim bbs e) ≤ maxD pt (boxOf dim bbs e) := fun e he => minD_le_maxD (hg e he).2 (by rw [hp, boxOf_length])
    by_cases cc : mn > d
    · rw [if_pos cc]
      have hnil : within dim bbs pt m es = [] := within_nil hf (lt_of_le_of_lt hmd cc)
      have hfil : (ctFilter (CT.leaf b es mn c) m).1 = [] := by
        unfold ctFilter
        rw [if_pos (lt_of_le_of_lt hmd cc)]
      refine ⟨_, _, rfl, hmd, ?_, rfl, hI, hf, ?_, ?_⟩
      · rintro ⟨e, he, h⟩
        exact absurd (lt_of_lt_of_le cc (hf e he)) (not_lt.mpr (le_trans (hle e he) (h ▸ hmd)))
      · rw [hfil]; show (within dim bbs pt m es).Sublist _; rw [hnil]
      · intro _; rw [hfil]; exact hnil.symm
    · rw [if_neg cc]
      obtain ⟨a, r, h1, h2, h3, h4, h5, h6⟩ := refine_fold hd hp (dist := d) es (big, big, c) hg
      rw [h1, ok_bind]
      have hnew : ((((es.filter fun e => decide (minD pt (boxOf dim bbs e) ≤ d)).map fun e => (e, minD pt (boxOf dim bbs e))).filter
          fun c => decide (c.2 ≤ m)).map (·.1)) = within dim bbs pt m es := by
        rw [List.filter_map, List.map_map, List.filter_filter]
        unfold within
        have : (es.filter fun a => (((fun c => decide (c.2 ≤ m)) ∘ fun e => (e, minD pt (boxOf dim bbs e))) a && decide (minD pt (boxOf dim bbs a) ≤ d))) =
            es.filter fun e => decide (minD pt (boxOf dim bbs e) ≤ m) := by
          apply List.filter_congr
          intro e _
          simp only [Function.comp]
          by_cases x : minD pt (boxOf dim bbs e) ≤ m
          · simp [x, le_trans x hmd]
          · simp [x]
        rw [this]
        simp [Function.comp_def]
      have hfil : (ctFilter (CT.leaf b es a (c ++ (es.filter fun e => decide (minD pt (boxOf dim bbs e) ≤ d)).map fun e => (e, minD pt (boxOf dim bbs e)))) m).1 =
          if a > m then [] else (c.filter fun c => decide (c.2 ≤ m)).map (·.1) ++ within dim bbs pt m es := by
        unfold ctFilter
        split_ifs
        · rfl
        · rw [List.filter_append, List.map_append, hnew]
      refine ⟨_, _, rfl, h6 m hmb hm, ?_, rfl, hI, h3, ?_, ?_⟩
      · rintro ⟨e, he, h⟩
        exact h ▸ h5 e he (le_trans (hle e he) (h ▸ hmd))
      · rw [hfil]
        show (within dim bbs pt m es).Sublist _
        split_ifs with x
        · rw [within_nil h3 x]
        · exact List.sublist_append_right _ _
      · intro hc
        have hc : c = [] := hc
        rw [hfil, hc]
        show _ = within dim bbs pt m es
        split_ifs with x
        · rw [within_nil h3 x]
        · rfl
  | .node b mn l r, d, hI, hg, hf, hmd, hm => by
    unfold refineMax
    have hle : ∀ e ∈ l.elems ++ r.elems, minD pt (boxOf dim bbs e) ≤ maxD pt (boxOf dim bbs e) := fun e he =>
      minD_le_maxD (hg e he).2 (by rw [hp, boxOf_length])
    by_cases cc : mn > d
    · rw [if_pos cc]
      have hnil : within dim bbs pt m (l.elems ++ r.elems) = [] := within_nil hf.1 (lt_of_le_of_lt hmd cc)
      have hfil : (ctFilter (CT.node b mn l r) m).1 = [] := by
        unfold ctFilter
        rw [if_pos (lt_of_le_of_lt hmd cc)]
      refine ⟨_, _, rfl, hmd, ?_, rfl, hI, hf.1, ?_, ?_⟩
      · rintro ⟨e, he, h⟩
        exact absurd (lt_of_lt_of_le cc (hf.1 e he)) (not_lt.mpr (le_trans (hle e he) (h ▸ hmd)))
      · rw [hfil]; show (within dim bbs pt m (l.elems ++ r.elems)).Sublist _; rw [hnil]
      · intro _; rw [hfil]; exact hnil.symm
    · rw [if_neg cc]
      obtain ⟨i1, i2, i3⟩ := hI
      obtain ⟨f1, f2, f3⟩ := hf
      obtain ⟨vl, tl, l1, l2, l3, l4, l5, l6, l7, l8⟩ := refineMax_ok hd hp hmb (t := l) (d := d) i1 (fun e he => hg e (List.mem_append_left _ he)) f2 hmd
        (fun e he => hm e (List.mem_append_left _ he))
      obtain ⟨vr, tr, r1, r2, r3, r4, r5, r6, r7, r8⟩ := refineMax_ok hd hp hmb (t := r) (d := min d vl) i2 (fun e he => hg e (List.mem_append_right _ he)) f3
        (le_min hmd l2) (fun e he => hm e (List.mem_append_right _ he))
      rw [l1, ok_bind, r1, ok_bind]
      have hmn : ∀ e ∈ l.elems ++ r.elems, min tl.mn tr.mn ≤ minD pt (boxOf dim bbs e) := by
        intro e he
        rcases List.mem_append.mp he with he | he
        · exact le_trans (min_le_left _ _) (l6 e he)
        · exact le_trans (min_le_right _ _) (r6 e he)
      have hw : within dim bbs pt m (l.elems ++ r.elems) = within dim bbs pt m l.elems ++ within dim bbs pt m r.elems := List.filter_append ..
      have hfil : (ctFilter (CT.node b (min tl.mn tr.mn) tl tr) m).1 = if min tl.mn tr.mn > m then [] else (ctFilter tl m).1 ++ (ctFilter tr m).1 := by
        conv_lhs => unfold ctFilter
        split_ifs <;> rfl
      refine ⟨_, _, rfl, le_min l2 r2, ?_, ?_, ⟨l5, r5, i3.1, ?_⟩, hmn, ?_, ?_⟩
      · rintro ⟨e, he, h⟩
        rcases List.mem_append.mp he with he | he
        · exact le_trans (min_le_left _ _) (l3 ⟨e, he, h⟩)
        · exact le_trans (min_le_right _ _) (r3 ⟨e, he, h⟩)
      · show tl.elems ++ tr.elems = l.elems ++ r.elems
        rw [l4, r4]
      · show ∀ e ∈ tl.elems ++ tr.elems, _
        rw [l4, r4]; exact i3.2
      · rw [hfil]
        show (within dim bbs pt m (l.elems ++ r.elems)).Sublist _
        split_ifs with x
        · rw [within_nil hmn x]
        · rw [hw]; exact l7.append r7
      · intro hc
        rw [hfil]
        show _ = within dim bbs pt m (l.elems ++ r.elems)
        split_ifs with x
        · rw [within_nil hmn x]
        · rw [hw, l8 hc.1, r8 hc.2]

omit [IsStrictOrderedRing K] in
theorem ctFilter_keeps {dim : Nat} {bbs : List K} : ∀ {t : CT K} {m : K}, t.Inv dim bbs → (ctFilter t m).2.elems = t.elems ∧ (ctFilter t m).2.Inv dim bbs
  | .leaf b es mn c, m, h => by
    unfold ctFilter
    split_ifs <;> exact ⟨rfl, h⟩
  | .node b mn l r, m, h => by
    unfold ctFilter
    split_ifs
    · exact ⟨rfl, h⟩
    · obtain ⟨l1, l2⟩ := ctFilter_keeps (m := m) h.1
      obtain ⟨r1, r2⟩ := ctFilter_keeps (m := m) h.2.1
      refine ⟨?_, l2, r2, h.2.2.1, ?_⟩
      · show (ctFilter l m).2.elems ++ (ctFilter r m).2.elems = _
        rw [l1, r1]; rfl
      · rw [l1, r1]; exact h.2.2.2

omit [CommRing K] [IsStrictOrderedRing K] in
theorem exists_min {f : Nat → K} : ∀ {es : List Nat}, es ≠ [] → ∃ e ∈ es, ∀ e' ∈ es, f e ≤ f e'
  | [], h => absurd rfl h
  | [e], _ => ⟨e, by simp, by simp⟩
  | e :: e1 :: es, _ => by
    obtain ⟨g, g1, g2⟩ := exists_min (f := f) (es := e1 :: es) (by simp)
    rcases le_total (f e) (f g) with c | c
    · refine ⟨e, List.mem_cons_self, fun e' he' => ?_⟩
      rcases List.mem_cons.mp he' with rfl | he'
      · exact le_refl _
      · exact le_trans c (g2 e' he')
    · refine ⟨g, List.mem_cons_of_mem _ g1, fun e' he' => ?_⟩
      rcases List.mem_cons.mp he' with rfl | he'
      · exact c
      · exact g2 e' he'

/-- one search: the candidates are returned, and only them when no candidate of a previous search remains -/
theorem closest_ok {dim : Nat} (hd : 0 < dim) {bbs pt : List K} (hp : pt.length = dim) {big : K} {t : CT K} (hI : t.Inv dim bbs) (hg : t.Good dim bbs)
    (hbig : ∃ e ∈ t.elems, maxD pt (boxOf dim bbs e) ≤ big) :
    ∃ m found t', getClosestCandidates dim bbs big t pt = .ok (found, t') ∧ t'.elems = t.elems ∧ t'.Inv dim bbs ∧
      (∃ e ∈ t.elems, maxD pt (boxOf dim bbs e) = m) ∧ (∀ e ∈ t.elems, m ≤ maxD pt (boxOf dim bbs e)) ∧
      (within dim bbs pt m t.elems).Sublist found ∧ (t.NoCands → found = within dim bbs pt m t.elems) := by
  obtain ⟨e0, h1, h2⟩ := exists_min (f := fun e => maxD pt (boxOf dim bbs e)) (CT.inv_ne hI)
  obtain ⟨d, t1, g1, g2, g3, g4, g5, eg, g6, g7⟩ := getMinOfMaxes_ok hd hp hI hg
  have hg1 : t1.Good dim bbs := by intro e he; rw [g2] at he; exact hg e he
  have hmb : maxD pt (boxOf dim bbs e0) ≤ big := by
    obtain ⟨e, he, hb⟩ := hbig
    exact le_trans (h2 e he) hb
  obtain ⟨v, t2, r1, r2, r3, r4, r5, r6, r7, r8⟩ := refineMax_ok hd hp hmb (t := t1) (d := d) g3 hg1 g4 (le_trans (h2 eg g6) g7)
    (fun e he => h2 e (g2 ▸ he))
  have hv : v = maxD pt (boxOf dim bbs e0) := le_antisymm (r3 ⟨e0, g2 ▸ h1, rfl⟩) r2
  unfold getClosestCandidates
  rw [g1, ok_bind, r1, ok_bind]
  rw [hv]
  obtain ⟨k1, k2⟩ := ctFilter_keeps (m := maxD pt (boxOf dim bbs e0)) r5
  rw [g2] at r7 r8
  exact ⟨maxD pt (boxOf dim bbs e0), _, _, rfl, by rw [k1, r4, g2], k2, ⟨e0, h1, rfl⟩, h2, r7, fun h => r8 (g5 h)⟩

/-- the elements within the smallest of the largest distances are the candidates -/
theorem within_iff {dim : Nat} {bbs pt : List K} (hp : pt.length = dim) {n : Nat} (hv : ∀ e, e < n → ValidBox (boxOf dim bbs e)) {m : K}
    (h1 : ∃ e, e < n ∧ maxD pt (boxOf dim bbs e) = m) (h2 : ∀ e, e < n → m ≤ maxD pt (boxOf dim bbs e)) {e : Nat} (he : e < n) :
    minD pt (boxOf dim bbs e) ≤ m ↔ IsCandidate dim bbs n pt e := by
  have hl : ∀ e, pt.length = (boxOf dim bbs e).length := fun e => by rw [hp, boxOf_length]
  constructor
  · intro h
    obtain ⟨q, q1, q2⟩ := minD_attained (hl e) (hv e he)
    refine ⟨q, q1, fun e' he' => ?_⟩
    obtain ⟨q', r1, r2⟩ := maxD_attained (hl e') (hv e' he')
    exact ⟨q', r1, by rw [q2, r2]; exact le_trans h (h2 e' he')⟩
  · rintro ⟨q, q1, q2⟩
    obtain ⟨e0, he0, h3⟩ := h1
    obtain ⟨q', r1, r2⟩ := q2 e0 he0
    exact le_trans (minD_le_maxD_bounds (hl e) q1).1 (le_trans r2 (h3 ▸ (minD_le_maxD_bounds (hl e0) r1).2))

/-- the point `i` of the array -/
def pointOf (dim : Nat) (pts : List K) (i : Nat) : List K := (List.range dim).map fun d => pts.getD (i * dim + d) 0

omit [LinearOrder K] [IsStrictOrderedRing K] in
theorem rdPoint_ok {dim : Nat} {pts : List K} {i : Nat} (h : (i + 1) * dim ≤ pts.length) : rdPoint dim pts i = .ok (pointOf dim pts i) := by
  unfold rdPoint pointOf
  apply bt_mapM_ok
  intro d hd
  have hd := List.mem_range.mp hd
  exact rd_getD (by rw [Nat.add_mul] at h; omega)

/-- a tree reduced to one leaf -/
def CT.isLeaf {K : Type} : CT K → Prop
  | .leaf _ _ _ _ => True
  | .node _ _ _ _ => False

omit [IsStrictOrderedRing K] in
/-- a search in a tree reduced to one leaf leaves no candidate -/
theorem candidates_one_leaf {dim : Nat} {bbs pt : List K} {big : K} {t t' : CT K} {found : List Nat} (hl : t.isLeaf)
    (h : getClosestCandidates dim bbs big t pt = .ok (found, t')) : t'.isLeaf ∧ t'.NoCands := by
  cases t with
  | node _ _ _ _ => exact absurd hl (by simp [CT.isLeaf])
  | leaf b es mn c =>
    have fin : ∀ (b : List (K × K)) (es : List Nat) (mn : K) (c : List (Nat × K)) (v : K), (.ok (ctFilter (.leaf b es mn c) v) : M (List Nat × CT K)) = .ok (found, t') →
        t'.isLeaf ∧ t'.NoCands := by
      intro b es mn c v hv
      rw [ctFilter] at hv
      split at hv
      · simp only [Except.ok.injEq, Prod.mk.injEq] at hv
        rw [← hv.2]; exact ⟨trivial, rfl⟩
      · simp only [Except.ok.injEq, Prod.mk.injEq] at hv
        rw [← hv.2]; exact ⟨trivial, rfl⟩
    rw [getClosestCandidates, getMinOfMaxes] at h
    cases hh : highLevelDist pt b with
    | error e => rw [hh] at h; cases h
    | ok r =>
      rw [hh, ok_bind, ok_bind, refineMax] at h
      split at h
      · exact fin _ _ _ _ _ h
      · cases hf : es.foldlM (refineStep dim bbs pt r.2) (big, big, c) with
        | error e => rw [hf] at h; cases h
        | ok q => rw [hf, ok_bind, ok_bind] at h; exact fin _ _ _ _ _ h

/-- C78: `candidatesClosestTo` ends without error.  For each point it returns each box which may hold the object closest to the point; for the
first point, and for all the points when there are fewer than 15 boxes, it returns no other box, and each box once.  The index delimits the parts
of the points. -/
theorem C78_candidates {dim : Nat} (hd : dim = 1 ∨ dim = 2 ∨ dim = 3) {pts bbs : List K} {nbPts n : Nat} {arrange : List K → List Nat}
    (ha : IsArrange arrange) {big : K} (hn : 0 < n) (hpts : nbPts * dim ≤ pts.length) (hbbs : n * dim * 2 ≤ bbs.length)
    (hv : ∀ e, e < n → ValidBox (boxOf dim bbs e))
    (hbig : ∀ i, i < nbPts → ∃ e, e < n ∧ ∀ q, PtIn q (boxOf dim bbs e) → sqDist (pointOf dim pts i) q ≤ big) :
    ∃ parts : List (List Nat), parts.length = nbPts ∧
      candidatesClosestTo dim pts nbPts bbs n arrange big = .ok (parts.flatten, (List.range (nbPts + 1)).map fun i => ((parts.take i).flatten).length) ∧
      (∀ i, i < nbPts → ∀ e, e < n → IsCandidate dim bbs n (pointOf dim pts i) e → e ∈ parts.getD i []) ∧
      (∀ i, i < nbPts → i = 0 ∨ n < 15 → (parts.getD i []).Nodup ∧ ∀ e, e ∈ parts.getD i [] ↔ e < n ∧ IsCandidate dim bbs n (pointOf dim pts i) e) := by
  have hd0 : 0 < dim := by omega
  have hel : ∀ e, e < n → (e + 1) * dim * 2 ≤ bbs.length := fun e he => le_trans (Nat.mul_le_mul_right _ (Nat.mul_le_mul_right _ he)) hbbs
  obtain ⟨t, b1, b2, b3, b4⟩ := ctBuild_ok (bbs := bbs) ha (big := big) hd0 14 0 (List.range n) (by omega) (by omega)
    (by rw [ne_eq, List.range_eq_nil]; omega) (fun e he => hel e (List.mem_range.mp he))
  have hleaf : n < 15 → t.isLeaf := by
    intro h
    rw [ctBuild, if_pos (Or.inl (by simpa using h))] at b1
    cases hb : boxOfElems dim bbs big (List.range n) with
    | error e => rw [hb] at b1; cases b1
    | ok b =>
      rw [hb, ok_bind] at b1
      simp only [Except.ok.injEq] at b1
      rw [← b1]; trivial
  unfold candidatesClosestTo
  rw [if_neg (by omega), b1, ok_bind]
  have hmem : ∀ e, e ∈ t.elems ↔ e < n := fun e => by rw [b2.mem_iff, List.mem_range]
  have key : ∀ k, k ≤ nbPts → ∃ (parts : List (List Nat)) (t' : CT K), parts.length = k ∧ loop k ((([] : List Nat), [0]), t) (fun i s => do
      let p ← rdPoint dim pts i
      let q ← getClosestCandidates dim bbs big s.2 p
      (.ok ((s.1.1 ++ q.1, s.1.2 ++ [(s.1.1 ++ q.1).length]), q.2) : M ((List Nat × List Nat) × CT K))) =
        .ok ((parts.flatten, (List.range (k + 1)).map fun i => ((parts.take i).flatten).length), t') ∧ t'.elems = t.elems ∧ t'.Inv dim bbs ∧
      (k = 0 ∨ n < 15 → t'.NoCands) ∧ (n < 15 → t'.isLeaf) ∧ (∀ i, i < k → ∀ e, e < n → IsCandidate dim bbs n (pointOf dim pts i) e → e ∈ parts.getD i []) ∧
      (∀ i, i < k → i = 0 ∨ n < 15 → (parts.getD i []).Nodup ∧ ∀ e, e ∈ parts.getD i [] ↔ e < n ∧ IsCandidate dim bbs n (pointOf dim pts i) e) := by
    intro k
    induction k with
    | zero => intro _; exact ⟨[], t, rfl, rfl, rfl, b3, fun _ => b4, hleaf, by simp, by simp⟩
    | succ k ih =>
      intro hk
      obtain ⟨parts, t', a1, a2, a3, a4, a5, a5', a6, a7⟩ := ih (by omega)
      have hpl : (pointOf dim pts k).length = dim := by simp [pointOf]
      have hpk : (k + 1) * dim ≤ pts.length := le_trans (Nat.mul_le_mul_right _ hk) hpts
      obtain ⟨eb, hb1, hb2⟩ := hbig k (by omega)
      obtain ⟨m, found, t2, c1, c2, c3, ⟨em, c4, c4'⟩, c5, c6, c7⟩ := closest_ok hd0 (bbs := bbs) hpl (big := big) a4
        (fun e he => by rw [a3] at he; exact ⟨hel e ((hmem e).mp he), hv e ((hmem e).mp he)⟩)
        ⟨eb, by rw [a3]; exact (hmem eb).mpr hb1, by
          obtain ⟨q, q1, q2⟩ := maxD_attained (pt := pointOf dim pts k) (by rw [hpl, boxOf_length]) (hv eb hb1)
          exact q2 ▸ hb2 q q1⟩
      rw [a3] at c4 c5
      have hw : ∀ e, e < n → (minD (pointOf dim pts k) (boxOf dim bbs e) ≤ m ↔ IsCandidate dim bbs n (pointOf dim pts k) e) := fun e he =>
        within_iff hpl hv ⟨em, (hmem em).mp c4, c4'⟩ (fun e he => c5 e ((hmem e).mpr he)) he
      have hget : ∀ i, i < k → (parts ++ [found]).getD i [] = parts.getD i [] := fun i hi => by
        simp [List.getD, List.getElem?_append_left (show i < parts.length by omega)]
      have hgetk : (parts ++ [found]).getD k [] = found := by
        rw [← a1]; simp [List.getD]
      refine ⟨parts ++ [found], t2, by simp [a1], ?_, by rw [c2, a3], c3, fun h => (candidates_one_leaf (a5' (by omega)) c1).2, fun h => (candidates_one_leaf (a5' h) c1).1, ?_, ?_⟩
      · rw [loop_succ, a2, ok_bind, rdPoint_ok hpk, ok_bind, c1, ok_bind]
        congr 2
        rw [List.flatten_append, List.flatten_singleton, List.range_succ (n := k + 1), List.map_append]
        congr 2
        · apply List.map_congr_left
          intro i hi
          have hi : i ≤ parts.length := by rw [a1]; have := List.mem_range.mp hi; omega
          rw [List.take_append_of_le_length hi]
        · rw [List.map_singleton, List.take_of_length_le (show (parts ++ [found]).length ≤ k + 1 by simp [a1]), List.flatten_append, List.flatten_singleton]
      · intro i hi e he hc
        rcases Nat.lt_or_ge i k with h | h
        · rw [hget i h]; exact a6 i h e he hc
        · have : i = k := by omega
          subst this
          rw [hgetk]
          apply c6.subset
          unfold within
          rw [List.mem_filter, a3]
          exact ⟨(hmem e).mpr he, by rw [decide_eq_true_iff]; exact (hw e he).mpr hc⟩
      · intro i hi h15
        rcases Nat.lt_or_ge i k with h | h
        · rw [hget i h]; exact a7 i h h15
        · have : i = k := by omega
          subst this
          rw [hgetk, c7 (a5 h15)]
          refine ⟨List.Nodup.filter _ (by rw [a3]; exact b2.nodup_iff.mpr List.nodup_range), fun e => ?_⟩
          unfold within
          rw [List.mem_filter, decide_eq_true_iff, a3, hmem]
          exact and_congr_right fun he => hw e he
  obtain ⟨parts, t', a1, a2, a3, a4, a5, a5', a6, a7⟩ := key nbPts (le_refl _)
  rw [a2, ok_bind]
  exact ⟨parts, a1, rfl, a6, a7⟩

omit [IsStrictOrderedRing K] in
/-- C78: a box holding the object closest to the point is a candidate: `o e` is the point of object `e` closest to `p`. -/
theorem C78_closest_kept {dim : Nat} {bbs p : List K} {n : Nat} (o : Nat → List K) (ho : ∀ e, e < n → PtIn (o e) (boxOf dim bbs e)) {e : Nat} (he : e < n)
    (hmin : ∀ e', e' < n → sqDist p (o e) ≤ sqDist p (o e')) : IsCandidate dim bbs n p e :=
  ⟨o e, ho e he, fun e' he' => ⟨o e', ho e' he', hmin e' he'⟩⟩

end
end MC
