import Verif.AmrPatch
import Verif.StructMinProps
import Verif.RangeProps

/-!
# Creation of patches from a criterion – boxes of marked cells

What `zipToFitOnCriterion` and `extractPart` do to a patch.
-/

namespace MC

/-- A position relatively to the beginning of a part. -/
def locPos (part : List (Int × Int)) (q : List Int) : List Int := List.zipWith (fun x (r : Int × Int) => x - r.1) q part

theorem locPos_inGrid {part : List (Int × Int)} {q : List Int} (h : InBox part q) : InGrid (boxDims part) (locPos part q) := by
  induction h with
  | nil => exact .nil
  | cons h hs ih => exact .cons (by simp only; omega) ih

theorem shift_locPos {part : List (Int × Int)} {q : List Int} (h : InBox part q) :
    List.zipWith (fun (r : Int × Int) k => r.1 + k) part (locPos part q) = q := by
  induction h with
  | nil => rfl
  | cons h hs ih =>
    simp only [locPos, List.zipWith_cons_cons] at ih ⊢
    rw [ih]
    congr 1; omega

theorem locPos_shift {part : List (Int × Int)} {p : List Int} (h : InGrid (boxDims part) p) :
    locPos part (List.zipWith (fun (r : Int × Int) k => r.1 + k) part p) = p := by
  induction part generalizing p with
  | nil => cases h; rfl
  | cons r part ih =>
    cases h with
    | cons h hs =>
      simp only [locPos, List.zipWith_cons_cons] at ih ⊢
      rw [ih hs]
      congr 1; omega

theorem gather_get {α : Type} {st : List Int} {part : List (Int × Int)} {ids : List Int} {v r : List α} (hb : BoxIn st part) (hi : IsBoxList st part ids)
    (hf : List.Forall₂ (fun id x => v[id.toNat]? = some x) ids r) :
    (r.length : Int) = (boxDims part).prod ∧ ∀ q, InBox part q → r[(lin (boxDims part) (locPos part q)).toNat]? = v[(lin st q).toNat]? := by
  have e : ids = boxIds st part := hi.unique (boxIds_isBoxList hb)
  subst e
  have hp : 0 ≤ (boxDims part).prod := prod_nonneg_int hb.dims_nonneg
  refine ⟨by rw [← hf.length_eq, length_boxIds hb]; omega, fun q hq => ?_⟩
  have hg := locPos_inGrid hq
  obtain ⟨b0, b1⟩ := lin_bounds hg
  have hk : (lin (boxDims part) (locPos part q)).toNat < (boxIds st part).length := by rw [length_boxIds hb]; omega
  have hk' : (lin (boxDims part) (locPos part q)).toNat < r.length := by rw [← hf.length_eq]; exact hk
  have := (List.forall₂_iff_get.mp hf).2 _ hk hk'
  simp only [List.get_eq_getElem] at this
  rw [List.getElem?_eq_getElem hk', ← this]
  congr 2
  have e2 : (boxIds st part)[(lin (boxDims part) (locPos part q)).toNat]? = some (lin st q) := by
    rw [boxIds, List.getElem?_map, boxPos_get hg, Option.map_some, partOffset_eq, shift_locPos hq]
  rw [List.getElem?_eq_getElem hk] at e2
  injection e2

/-- A part given relatively to `big`. -/
def globPart (big loc : List (Int × Int)) : List (Int × Int) := List.zipWith (fun (b l : Int × Int) => (l.1 + b.1, l.2 + b.1)) big loc

theorem toGlobal_ok {big loc : List (Int × Int)} (hb : BoxIn (boxDims big) loc) (hl : ∀ r ∈ loc, 1 ≤ r.2 - r.1) :
    changeReferenceToGlobal big loc true = .ok (globPart big loc) := by
  have hlen : big.length = loc.length := by have := hb.length_eq; simpa [boxDims] using this.symm
  unfold changeReferenceToGlobal
  rw [if_neg (by simp [hlen])]
  induction big generalizing loc with
  | nil => cases hb; rfl
  | cons b big ih =>
    cases hb with
    | cons h hs =>
      rename_i l loc
      rw [List.zip_cons_cons, List.mapM_cons, ih hs (fun r hr => hl r (by simp [hr])) (by simpa using hlen)]
      have := hl l (by simp)
      simp only at h ⊢
      rw [if_neg (by omega), if_neg (by omega), if_neg (by omega)]
      rfl

theorem fromGlobal_ok {big part : List (Int × Int)} (h : PartInside big part) :
    ∃ loc, changeReferenceFromGlobal big part true = .ok loc ∧ BoxIn (boxDims big) loc ∧ globPart big loc = part := by
  obtain ⟨r, hr, -⟩ := (C42_fromGlobal big part).1 h
  refine ⟨r, hr, ?_⟩
  unfold changeReferenceFromGlobal at hr
  rw [if_neg (by simp [h.length_eq])] at hr
  induction h generalizing r with
  | nil =>
    cases hr
    exact ⟨.nil, rfl⟩
  | cons h hs ih =>
    rename_i b p big part
    rw [List.zip_cons_cons] at hr
    obtain ⟨x, t, e1, e2, rfl⟩ := mapM_cons_ok hr
    simp only at e1
    rw [if_neg (by omega), if_neg (by omega), if_neg (by omega)] at e1
    obtain ⟨w1, w2⟩ := ih t e2
    injection e1 with e1
    subst e1
    refine ⟨.cons (by simp only; omega) w1, ?_⟩
    simp only [globPart, List.zipWith_cons_cons] at w2 ⊢
    rw [w2]
    congr 1
    obtain ⟨p1, p2⟩ := p
    simp

theorem globPart_spec {big loc : List (Int × Int)} (hb : BoxIn (boxDims big) loc) :
    boxDims (globPart big loc) = boxDims loc ∧
    (∀ q, InBox (globPart big loc) q ↔ InBox big q ∧ InBox loc (locPos big q)) ∧
    (∀ q, InBox (globPart big loc) q → locPos (globPart big loc) q = locPos loc (locPos big q)) := by
  induction big generalizing loc with
  | nil =>
    cases hb
    refine ⟨rfl, fun q => ⟨fun h => ?_, fun h => h.1⟩, fun q h => ?_⟩
    · cases h; exact ⟨.nil, .nil⟩
    · cases h; rfl
  | cons b big ih =>
    cases hb with
    | cons h hs =>
      rename_i l loc
      obtain ⟨i1, i2, i3⟩ := ih hs
      simp only [globPart, List.zipWith_cons_cons, boxDims, List.map_cons] at i1 i2 i3 ⊢
      refine ⟨by rw [i1]; congr 1; omega, fun q => ⟨fun hq => ?_, fun hq => ?_⟩, fun q hq => ?_⟩
      · cases hq with
        | cons hx hq =>
          have := (i2 _).mp hq
          exact ⟨.cons (by simp only at hx h; omega) this.1, .cons (by simp only at hx h ⊢; omega) this.2⟩
      · obtain ⟨h1, h2⟩ := hq
        cases h1 with
        | cons hx h1 =>
          cases h2 with
          | cons hy h2 =>
            exact .cons (by simp only at hy h ⊢; omega) ((i2 _).mpr ⟨h1, h2⟩)
      · cases hq with
        | cons hx hq =>
          have := i3 _ hq
          simp only [locPos, List.zipWith_cons_cons] at this ⊢
          rw [this]
          congr 1; omega

/-- What a patch holds: a box of the grid, one value per cell of the box, `true` at the marked cells, and the number of these. -/
structure PatchRaw (st : List Int) (Mk : List Int → Prop) (p : IPatch) : Prop where
  box : BoxIn st p.part
  len : (p.crit.length : Int) = (boxDims p.part).prod
  cells : ∀ q, InBox p.part q → (p.crit[(lin (boxDims p.part) (locPos p.part q)).toNat]? = some true ↔ Mk q)
  nb : p.nbTrue = p.crit.count true

theorem count_filter_range {crit : List Bool} : crit.count true = ((List.range crit.length).filter fun i => decide (crit[i]? = some true)).length := by
  induction crit using List.reverseRecOn with
  | nil => rfl
  | append_singleton l b ih =>
    rw [List.count_append, ih, List.length_append, List.length_singleton, List.range_succ, List.filter_append, List.length_append]
    congr 1
    · congr 1
      apply List.filter_congr
      intro i hi
      rw [List.getElem?_append_left (List.mem_range.mp hi)]
    · cases b <;> simp

/-- The number of marked cells of the patch is the number of marked cells of the box. -/
theorem PatchRaw.marked {st : List Int} {Mk : List Int → Prop} {p : IPatch} (h : PatchRaw st Mk p) :
    ∃ l : List (List Int), l.Nodup ∧ (∀ q, q ∈ l ↔ InBox p.part q ∧ Mk q) ∧ p.crit.count true = l.length := by
  have hd := h.box.dims_nonneg
  have hs := boxPos_sorted hd
  have hp : 0 ≤ (boxDims p.part).prod := prod_nonneg_int hd
  have hnd : (boxPos (boxDims p.part)).Nodup := by
    have : ((boxPos (boxDims p.part)).map (lin (boxDims p.part))).Nodup := by
      rw [hs]
      exact List.Nodup.map (fun a b e => by exact_mod_cast e) List.nodup_range
    exact List.Nodup.of_map _ this
  refine ⟨((boxPos (boxDims p.part)).filter fun x => decide (p.crit[(lin (boxDims p.part) x).toNat]? = some true)).map
    fun x => List.zipWith (fun (r : Int × Int) k => r.1 + k) p.part x, ?_, ?_, ?_⟩
  · refine List.Nodup.map_on (fun x hx y hy e => ?_) (hnd.filter _)
    rw [← locPos_shift (mem_boxPos.mp (List.mem_of_mem_filter hx)), e, locPos_shift (mem_boxPos.mp (List.mem_of_mem_filter hy))]
  · intro q
    simp only [List.mem_map, List.mem_filter, mem_boxPos, decide_eq_true_eq]
    constructor
    · rintro ⟨x, ⟨hx, hc⟩, rfl⟩
      have hb := inBox_shift.mpr ⟨x, hx, rfl⟩
      refine ⟨hb, (h.cells _ hb).mp ?_⟩
      rw [locPos_shift hx]; exact hc
    · rintro ⟨hq, hm⟩
      exact ⟨locPos p.part q, ⟨locPos_inGrid hq, (h.cells q hq).mpr hm⟩, shift_locPos hq⟩
  · rw [count_filter_range, List.length_map]
    have e : List.range p.crit.length = (boxPos (boxDims p.part)).map fun x => (lin (boxDims p.part) x).toNat := by
      have := congrArg (List.map Int.toNat) hs
      simp only [List.map_map, Function.comp_def, Int.toNat_natCast, List.map_id'] at this
      rw [this]
      congr 1
      have := h.len
      omega
    rw [e, List.filter_map, List.length_map]
    rfl

theorem raw_count_eq {st : List Int} {Mk : List Int → Prop} {p p' : IPatch} (h : PatchRaw st Mk p)
    (h' : BoxIn st p'.part ∧ (p'.crit.length : Int) = (boxDims p'.part).prod ∧
      ∀ q, InBox p'.part q → (p'.crit[(lin (boxDims p'.part) (locPos p'.part q)).toNat]? = some true ↔ Mk q))
    (he : ∀ q, Mk q → (InBox p.part q ↔ InBox p'.part q)) : p'.crit.count true = p.crit.count true := by
  obtain ⟨l, n1, m1, c1⟩ := h.marked
  obtain ⟨l', n2, m2, c2⟩ := PatchRaw.marked (p := { p' with nbTrue := (p'.crit.count true : Int) }) ⟨h'.1, h'.2.1, h'.2.2, rfl⟩
  rw [c1]
  refine Eq.trans c2 ?_
  refine List.Perm.length_eq ((List.perm_ext_iff_of_nodup n2 n1).mpr fun q => ?_)
  rw [m2, m1]
  constructor
  · rintro ⟨a, b⟩; exact ⟨(he q b).mpr a, b⟩
  · rintro ⟨a, b⟩; exact ⟨(he q b).mp a, b⟩

theorem boxIn_trans {st : List Int} {big loc : List (Int × Int)} (h : BoxIn st big) (hb : BoxIn (boxDims big) loc) : BoxIn st (globPart big loc) := by
  induction h generalizing loc with
  | nil => cases hb; exact .nil
  | cons h hs ih =>
    cases hb with
    | cons hx hb => exact .cons (by simp only at hx ⊢; omega) (ih hb)

/-- The marked cells of a patch are enclosed as tightly as the smallest length allows. -/
def TightBox (minLen : Int) (Mk : List Int → Prop) (part : List (Int × Int)) : Prop :=
  ∀ a < part.length, minLen < (part.getD a (0, 0)).2 - (part.getD a (0, 0)).1 →
    (∃ q, InBox part q ∧ Mk q ∧ q.getD a 0 = (part.getD a (0, 0)).1) ∧ (∃ q, InBox part q ∧ Mk q ∧ q.getD a 0 = (part.getD a (0, 0)).2 - 1)

/-- A patch of the loops of `createPatchesFromCriterion`. -/
structure PatchOk (minLen : Int) (st : List Int) (Mk : List Int → Prop) (p : IPatch) : Prop extends PatchRaw st Mk p where
  lens : ∀ r ∈ p.part, minLen ≤ r.2 - r.1
  tight : TightBox minLen Mk p.part
  marked1 : ∃ q, InBox p.part q ∧ Mk q

theorem getD_part_mem {part : List (Int × Int)} {a : Nat} (ha : a < part.length) : part.getD a (0, 0) ∈ part := by
  rw [List.getD_eq_getElem?_getD, List.getElem?_eq_getElem ha]
  exact List.getElem_mem ha

theorem inBox_set {part : List (Int × Int)} {a : Nat} {x : Int × Int} (ha : a < part.length) {q : List Int} (hq : InBox part q)
    (hx : x.1 ≤ q.getD a 0 ∧ q.getD a 0 < x.2) : InBox (part.set a x) q := by
  rw [inBox_iff] at hq ⊢
  refine ⟨by simp [hq.1], fun b hb => ?_⟩
  rw [List.length_set] at hb
  rw [List.getD_eq_getElem?_getD, List.getElem?_set]
  split_ifs with h
  · subst h
    simpa using hx
  · rw [← List.getD_eq_getElem?_getD]
    exact hq.2 b hb

/-- minimality makes the box tight -/
theorem tight_of_min {minLen : Int} {st : List Int} {part : List (Int × Int)} {Mk : List Int → Prop} (hm : 1 ≤ minLen) (hb : BoxIn st part)
    (hl : ∀ r ∈ part, minLen ≤ r.2 - r.1) (hin : ∀ q, Mk q → InBox part q)
    (hmin : ∀ B : List (Int × Int), B.length = st.length → (∀ r ∈ B, minLen ≤ r.2 - r.1) → (∀ q, Mk q → InBox B q) →
      List.Forall₂ (fun r s => r.2 - r.1 ≤ s.2 - s.1) part B) : TightBox minLen Mk part := by
  have key : ∀ a < part.length, ∀ x : Int × Int, minLen ≤ x.2 - x.1 → x.2 - x.1 < (part.getD a (0, 0)).2 - (part.getD a (0, 0)).1 →
      ∃ q, InBox part q ∧ Mk q ∧ ¬ (x.1 ≤ q.getD a 0 ∧ q.getD a 0 < x.2) := by
    intro a ha x hx hlt
    by_contra hc
    push Not at hc
    have := hmin (part.set a x) (by rw [List.length_set, hb.length_eq]) (fun r hr => by
      rcases List.mem_or_eq_of_mem_set hr with hr | rfl
      · exact hl r hr
      · exact hx) (fun q hq => by
        have h1 := hin q hq
        exact inBox_set ha h1 ⟨(hc q h1 hq).1, (hc q h1 hq).2⟩)
    have h2 := (List.forall₂_iff_get.mp this).2 a ha (by rw [List.length_set]; exact ha)
    simp only [List.get_eq_getElem, List.getElem_set_self] at h2
    rw [List.getD_eq_getElem?_getD, List.getElem?_eq_getElem ha, Option.getD_some] at hlt
    omega
  intro a ha hlt
  constructor
  · obtain ⟨q, h1, h2, h3⟩ := key a ha ((part.getD a (0, 0)).1 + 1, (part.getD a (0, 0)).2) (by simp only; omega) (by simp only; omega)
    refine ⟨q, h1, h2, ?_⟩
    have := (inBox_iff.mp h1).2 a ha
    simp only at h3
    omega
  · obtain ⟨q, h1, h2, h3⟩ := key a ha ((part.getD a (0, 0)).1, (part.getD a (0, 0)).2 - 1) (by simp only; omega) (by simp only; omega)
    refine ⟨q, h1, h2, ?_⟩
    have := (inBox_iff.mp h1).2 a ha
    simp only at h3
    omega

/-- `zipToFitOnCriterion` keeps the marked cells and makes the patch tight. -/
theorem zip_ok {minLen : Int} {st : List Int} {Mk : List Int → Prop} {p : IPatch} (hm : 1 ≤ minLen) (h1 : 1 ≤ st.length) (h3 : st.length ≤ 3)
    (hmax : ∀ n ∈ st, n ≤ idMax) (h : PatchRaw st Mk p) (hl : ∀ r ∈ p.part, minLen ≤ r.2 - r.1) (hne : ∃ q, InBox p.part q ∧ Mk q) :
    ∃ p', p.zip minLen = .ok p' ∧ PatchOk minLen st Mk p' ∧ (∀ q, InBox p'.part q → InBox p.part q) ∧
      (∀ q, InBox p.part q → Mk q → InBox p'.part q) ∧ List.Forall₂ (fun r s : Int × Int => r.2 - r.1 ≤ s.2 - s.1) p'.part p.part := by
  have hdl : (boxDims p.part).length = st.length := by simp [boxDims, h.box.length_eq]
  have hd : ∀ n ∈ boxDims p.part, minLen ≤ n ∧ n ≤ idMax := by
    intro n hn
    obtain ⟨r, hr, rfl⟩ := List.mem_map.mp hn
    refine ⟨hl r hr, ?_⟩
    obtain ⟨a, ha, rfl⟩ := List.mem_iff_getElem.mp hr
    have hs : a < st.length := by rw [← h.box.length_eq]; exact ha
    have := (List.forall₂_iff_get.mp h.box).2 a ha hs
    have hm := hmax _ (List.getElem_mem hs)
    simp only [List.get_eq_getElem] at this
    omega
  obtain ⟨loc, ids, red, hf, hb, hll, hin, hmin, hids, hF⟩ := C43_findMinimalPart (minLen := minLen) (crit := p.crit) (by omega) (by omega) (by omega) hd h.len
  obtain ⟨hrl, hrg⟩ := gather_get hb hids hF
  obtain ⟨g1, g2, g3⟩ := globPart_spec hb
  have hmk : ∀ q, InBox p.part q → (MarkedCell (boxDims p.part) p.crit (locPos p.part q) ↔ Mk q) := by
    intro q hq
    rw [← h.cells q hq]
    exact ⟨fun x => x.2, fun x => ⟨locPos_inGrid hq, x⟩⟩
  have hB : BoxIn st (globPart p.part loc) := boxIn_trans h.box hb
  have hC : ∀ q, InBox (globPart p.part loc) q → (red[(lin (boxDims (globPart p.part loc)) (locPos (globPart p.part loc) q)).toNat]? = some true ↔ Mk q) := by
    intro q hq
    obtain ⟨q1, q2⟩ := (g2 q).mp hq
    rw [g1, g3 q hq, hrg _ q2]
    exact h.cells q q1
  have hsub : ∀ q, InBox (globPart p.part loc) q → InBox p.part q := fun q hq => ((g2 q).mp hq).1
  have hkeep : ∀ q, InBox p.part q → Mk q → InBox (globPart p.part loc) q := fun q hq hk => (g2 q).mpr ⟨hq, hin _ ((hmk q hq).mpr hk)⟩
  have hcnt : red.count true = p.crit.count true :=
    raw_count_eq (p' := ⟨0, red, globPart p.part loc⟩) h ⟨hB, by rw [hrl, g1], hC⟩ (fun q hk => ⟨fun hq => hkeep q hq hk, fun hq => hsub q hq⟩)
  refine ⟨⟨p.nbTrue, red, globPart p.part loc⟩, ?_, ⟨⟨hB, by rw [hrl, g1], hC, by rw [h.nb, ← hcnt]⟩, ?_, ?_, ?_⟩, hsub, hkeep, ?_⟩
  · unfold IPatch.zip
    rw [dimensions_ok h.box, ok_bind, hf, ok_bind]
    simp only
    rw [toGlobal_ok hb (fun r hr => by have := hll r hr; omega), ok_bind, if_neg (by rw [h.nb]; simp)]
    simp only [List.map_map, Function.comp_def, Option.getD_some, List.map_id']
    rfl
  · intro r hr
    have hr' : r.2 - r.1 ∈ boxDims (globPart p.part loc) := List.mem_map.mpr ⟨r, hr, rfl⟩
    rw [g1] at hr'
    obtain ⟨s, hs, e⟩ := List.mem_map.mp hr'
    rw [← e]
    exact hll s hs
  · -- tightness in the local numbering, then in the grid
    have ht := tight_of_min (Mk := MarkedCell (boxDims p.part) p.crit) hm hb hll hin hmin
    have hgl : (globPart p.part loc).length = loc.length := by
      have := congrArg List.length g1
      simpa [boxDims] using this
    have hlp : p.part.length = loc.length := by rw [hb.length_eq]; simp [boxDims]
    have hga : ∀ a < loc.length, (globPart p.part loc).getD a (0, 0) = ((loc.getD a (0, 0)).1 + (p.part.getD a (0, 0)).1, (loc.getD a (0, 0)).2 + (p.part.getD a (0, 0)).1) := by
      intro a ha
      simp [globPart, List.getD_eq_getElem?_getD, ha, hlp]
    have back : ∀ x, InBox loc x → MarkedCell (boxDims p.part) p.crit x → ∀ a < loc.length,
        ∃ q, InBox (globPart p.part loc) q ∧ Mk q ∧ q.getD a 0 = x.getD a 0 + (p.part.getD a (0, 0)).1 := by
      intro x hx hk a ha
      have hxg := hb.grid hx
      have hq : InBox p.part (List.zipWith (fun (r : Int × Int) k => r.1 + k) p.part x) := inBox_shift.mpr ⟨x, hxg, rfl⟩
      have e := locPos_shift hxg
      refine ⟨_, (g2 _).mpr ⟨hq, by rw [e]; exact hx⟩, (hmk _ hq).mp (by rw [e]; exact hk), ?_⟩
      have hxl : x.length = loc.length := hx.length_eq
      simp [List.getD_eq_getElem?_getD, ha, hlp, hxl]
      omega
    intro a ha hlt
    rw [hgl] at ha
    rw [hga a ha] at hlt ⊢
    simp only at hlt ⊢
    obtain ⟨⟨x, x1, x2, x3⟩, ⟨y, y1, y2, y3⟩⟩ := ht a ha (by omega)
    obtain ⟨q, q1, q2, q3⟩ := back x x1 x2 a ha
    obtain ⟨s, s1, s2, s3⟩ := back y y1 y2 a ha
    exact ⟨⟨q, q1, q2, by rw [q3, x3]⟩, ⟨s, s1, s2, by rw [s3, y3]; omega⟩⟩
  · obtain ⟨q, hq, hk⟩ := hne
    exact ⟨q, hkeep q hq hk, hk⟩
  · have : List.Forall₂ (fun (r : Int × Int) (n : Int) => r.2 - r.1 ≤ n) (globPart p.part loc) (boxDims p.part) := by
      have hb' := hb
      clear * - hb'
      generalize hD : boxDims p.part = D at hb'
      have hD' : D = p.part.map fun r => r.2 - r.1 := hD.symm
      clear hD
      generalize p.part = P at *
      induction hb' generalizing P with
      | nil =>
        cases P with
        | nil => exact .nil
        | cons => simp at hD'
      | cons h hs ih =>
        cases P with
        | nil => simp at hD'
        | cons r P =>
          simp only [List.map_cons, List.cons.injEq] at hD'
          exact .cons (by simp only; omega) (ih P hD'.2)
    rw [boxDims, List.forall₂_map_right_iff] at this
    exact this

/-- `extractPart` gives the marked cells of a part of the box. -/
theorem extract_ok {st : List Int} {Mk : List Int → Prop} {p : IPatch} {part : List (Int × Int)} (h1 : 1 ≤ st.length) (h3 : st.length ≤ 3)
    (h : PatchRaw st Mk p) (hp : PartInside p.part part) : ∃ p', p.extract part = .ok p' ∧ PatchRaw st Mk p' ∧ p'.part = part := by
  have hdl : (boxDims p.part).length = st.length := by simp [boxDims, h.box.length_eq]
  obtain ⟨loc, hf, hb, hg⟩ := fromGlobal_ok hp
  obtain ⟨ids, red, hr, hids, hF⟩ := C41_extractBool hb (by omega) (by omega) h.len
  obtain ⟨hrl, hrg⟩ := gather_get hb hids hF
  obtain ⟨g1, g2, g3⟩ := globPart_spec hb
  rw [hg] at g1 g2 g3
  refine ⟨⟨red.count true, red, part⟩, ?_, ⟨by rw [← hg]; exact boxIn_trans h.box hb, by rw [hrl, g1], ?_, rfl⟩, rfl⟩
  · unfold IPatch.extract
    rw [dimensions_ok h.box, ok_bind, hf, ok_bind, hr, ok_bind]
    simp only [List.map_map, Function.comp_def, Option.getD_some, List.map_id']
    rfl
  · intro q hq
    simp only at hq ⊢
    obtain ⟨q1, q2⟩ := (g2 q).mp hq
    rw [g1, g3 q hq, hrg _ q2]
    exact h.cells q q1

end MC
