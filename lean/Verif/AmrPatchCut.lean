import Verif.AmrPatchProps
import Verif.StructDecThm
import Mathlib.Algebra.Order.Field.Basic

/-!
# Creation of patches from a criterion – the cuts

Every cut which is decided leaves parts which are long enough.
-/

namespace MC
variable {K : Type} [Field K] [LinearOrder K]

/-- A cut after the layer `c` of the axis `a` which leaves `minLen` layers on both sides. -/
def ValidCut (minLen : Int) (part : List (Int × Int)) (a : Nat) (c : Int) : Prop :=
  a < part.length ∧ (part.getD a (0, 0)).1 + minLen ≤ c + 1 ∧ c + 1 + minLen ≤ (part.getD a (0, 0)).2

theorem rd_part {part : List (Int × Int)} {a : Nat} (ha : a < part.length) : rd part (a : Int) = .ok (part.getD a (0, 0)) := by
  rw [rd_natCast ha, List.getD_eq_getElem?_getD, List.getElem?_eq_getElem ha, Option.getD_some]

theorem prod_set_lin : ∀ {l : List Int} {a : Nat}, a < l.length → ∃ c, ∀ x, (l.set a x).prod = c * x
  | n :: l, 0, _ => ⟨l.prod, fun x => by simp [Int.mul_comm]⟩
  | n :: l, a + 1, h => by
    obtain ⟨c, hc⟩ := prod_set_lin (l := l) (a := a) (by simpa using h)
    exact ⟨n * c, fun x => by simp [hc, Int.mul_assoc]⟩

theorem prod_mono : ∀ {l l' : List Int}, List.Forall₂ (fun x y => 0 ≤ x ∧ x ≤ y) l l' → 0 ≤ l.prod ∧ l.prod ≤ l'.prod
  | _, _, .nil => by simp
  | _, _, .cons h hs => by
    obtain ⟨i1, i2⟩ := prod_mono hs
    simp only [List.prod_cons]
    exact ⟨Int.mul_nonneg h.1 i1, Int.mul_le_mul h.2 i2 i1 (by omega)⟩

theorem boxDims_set {part : List (Int × Int)} {a : Nat} {x : Int × Int} : boxDims (part.set a x) = (boxDims part).set a (x.2 - x.1) := by
  simp [boxDims, List.map_set]

theorem boxDims_set_self {part : List (Int × Int)} {a : Nat} (ha : a < part.length) :
    (boxDims part).set a ((part.getD a (0, 0)).2 - (part.getD a (0, 0)).1) = boxDims part := by
  rw [← boxDims_set (x := part.getD a (0, 0)), List.getD_eq_getElem?_getD, List.getElem?_eq_getElem ha, Option.getD_some, List.set_getElem_self]

theorem partInside_set {mn : Int} {part : List (Int × Int)} {a : Nat} {x : Int × Int} (hm : 1 ≤ mn) (hl : ∀ r ∈ part, mn ≤ r.2 - r.1)
    (hx : (part.getD a (0, 0)).1 ≤ x.1 ∧ x.1 < (part.getD a (0, 0)).2 ∧ x.1 ≤ x.2 ∧ x.2 ≤ (part.getD a (0, 0)).2) : PartInside part (part.set a x) := by
  unfold PartInside
  rw [List.forall₂_iff_get]
  refine ⟨by simp, fun b h1 h2 => ?_⟩
  simp only [List.get_eq_getElem, List.getElem_set]
  have := hl _ (List.getElem_mem h1)
  split_ifs with h
  · subst h
    rw [List.getD_eq_getElem?_getD, List.getElem?_eq_getElem h1, Option.getD_some] at hx
    exact hx
  · omega

theorem inBox_set_iff {part : List (Int × Int)} {a : Nat} {x : Int × Int} (ha : a < part.length) (hx : (part.getD a (0, 0)).1 ≤ x.1 ∧ x.2 ≤ (part.getD a (0, 0)).2)
    {q : List Int} : InBox (part.set a x) q ↔ InBox part q ∧ x.1 ≤ q.getD a 0 ∧ q.getD a 0 < x.2 := by
  constructor
  · intro h
    rw [inBox_iff] at h
    have h1 := h.2 a (by simpa using ha)
    rw [List.getD_eq_getElem?_getD (l := part.set a x), List.getElem?_set_self (by simpa using ha), Option.getD_some] at h1
    refine ⟨?_, h1⟩
    rw [inBox_iff]
    refine ⟨by simpa using h.1, fun b hb => ?_⟩
    by_cases e : a = b
    · subst e
      omega
    · have h2 := h.2 b (by simpa using hb)
      rw [List.getD_eq_getElem?_getD (l := part.set a x), List.getElem?_set_ne e, ← List.getD_eq_getElem?_getD] at h2
      exact h2
  · rintro ⟨h, h'⟩
    exact inBox_set ha h h'

/-- The grid and the smallest length are admissible. -/
structure AmrGrid (mn : Int) (st : List Int) : Prop where
  mn1 : 1 ≤ mn
  d2 : 2 ≤ st.length
  d3 : st.length ≤ 3
  le : ∀ n ∈ st, mn ≤ n ∧ n ≤ idMax

/-- The two patches of a cut: long enough, with marked cells, disjoint, and they hold the marked cells of the patch. -/
structure GoodCut (mn : Int) (st : List Int) (Mk : List Int → Prop) (p l r : IPatch) : Prop where
  left : PatchOk mn st Mk l
  right : PatchOk mn st Mk r
  subL : ∀ q, InBox l.part q → InBox p.part q
  subR : ∀ q, InBox r.part q → InBox p.part q
  disj : ∀ q, ¬ (InBox l.part q ∧ InBox r.part q)
  cover : ∀ q, InBox p.part q → Mk q → InBox l.part q ∨ InBox r.part q
  size : l.crit.length + r.crit.length ≤ p.crit.length
  posL : 1 ≤ l.crit.length
  posR : 1 ≤ r.crit.length

theorem PatchOk.crit_pos {mn : Int} {st : List Int} {Mk : List Int → Prop} {p : IPatch} (hm : 1 ≤ mn) (h : PatchOk mn st Mk p) : 1 ≤ p.crit.length := by
  have := h.len
  have := prod_pos_int (l := boxDims p.part) fun x hx => by
    obtain ⟨r, hr, rfl⟩ := List.mem_map.mp hx
    have := h.lens r hr
    omega
  omega

theorem dealWithCut_ok {mn : Int} {st : List Int} {Mk : List Int → Prop} {p : IPatch} {a : Nat} {c : Int} (G : AmrGrid mn st) (h : PatchOk mn st Mk p)
    (hc : ValidCut mn p.part a c) : ∃ l r, dealWithCut mn p a c = .ok [l, r] ∧ GoodCut mn st Mk p l r := by
  obtain ⟨ha, c1, c2⟩ := hc
  have hm := G.mn1
  have h1 : 1 ≤ st.length := by have := G.d2; omega
  have hwr : ∀ x, wr p.part (a : Int) x = .ok (p.part.set a x) := fun x => wr_natCast ha
  obtain ⟨⟨ql, ql1, ql2, ql3⟩, ⟨qr, qr1, qr2, qr3⟩⟩ := h.tight a ha (by omega)
  obtain ⟨l0, el, Rl, hl⟩ := extract_ok h1 G.d3 h.toPatchRaw (partInside_set (a := a) (x := ((p.part.getD a (0, 0)).1, c + 1)) hm h.lens (by simp only; omega))
  obtain ⟨r0, er, Rr, hr⟩ := extract_ok h1 G.d3 h.toPatchRaw (partInside_set (a := a) (x := (c + 1, (p.part.getD a (0, 0)).2)) hm h.lens (by simp only; omega))
  have iffL : ∀ q, InBox l0.part q ↔ InBox p.part q ∧ (p.part.getD a (0, 0)).1 ≤ q.getD a 0 ∧ q.getD a 0 < c + 1 := fun q => by
    rw [hl]; exact inBox_set_iff ha (by simp only; omega)
  have iffR : ∀ q, InBox r0.part q ↔ InBox p.part q ∧ c + 1 ≤ q.getD a 0 ∧ q.getD a 0 < (p.part.getD a (0, 0)).2 := fun q => by
    rw [hr]; exact inBox_set_iff ha (by simp only; omega)
  have hmax : ∀ n ∈ st, n ≤ idMax := fun n hn => (G.le n hn).2
  obtain ⟨l, zl, okl, subl, keepl, lenl⟩ := zip_ok hm h1 G.d3 hmax Rl (by
    intro r hr
    rw [hl] at hr
    rcases List.mem_or_eq_of_mem_set hr with hr | rfl
    · exact h.lens r hr
    · simp only; omega) ⟨ql, (iffL ql).mpr ⟨ql1, by omega, by omega⟩, ql2⟩
  obtain ⟨r, zr, okr, subr, keepr, lenr⟩ := zip_ok hm h1 G.d3 hmax Rr (by
    intro r' hr'
    rw [hr] at hr'
    rcases List.mem_or_eq_of_mem_set hr' with hr' | rfl
    · exact h.lens r' hr'
    · simp only; omega) ⟨qr, (iffR qr).mpr ⟨qr1, by omega, by omega⟩, qr2⟩
  refine ⟨l, r, ?_, okl, okr, fun q hq => ((iffL q).mp (subl q hq)).1, fun q hq => ((iffR q).mp (subr q hq)).1, ?_, ?_, ?_, okl.crit_pos hm, okr.crit_pos hm⟩
  · unfold dealWithCut
    rw [rd_part ha, ok_bind, hwr, ok_bind, hwr, ok_bind, el, ok_bind, er, ok_bind, zl, ok_bind, zr, ok_bind]
    rfl
  · rintro q ⟨x, y⟩
    have := (iffL q).mp (subl q x)
    have := (iffR q).mp (subr q y)
    omega
  · intro q hq hk
    have := (inBox_iff.mp hq).2 a ha
    by_cases hlt : q.getD a 0 < c + 1
    · exact .inl (keepl q ((iffL q).mpr ⟨hq, by omega, hlt⟩) hk)
    · exact .inr (keepr q ((iffR q).mpr ⟨hq, by omega, by omega⟩) hk)
  · have mono : ∀ {x y : List (Int × Int)}, (∀ r ∈ x, mn ≤ r.2 - r.1) → List.Forall₂ (fun r s : Int × Int => r.2 - r.1 ≤ s.2 - s.1) x y →
        (boxDims x).prod ≤ (boxDims y).prod := by
      intro x y hx hxy
      refine (prod_mono ?_).2
      rw [boxDims, boxDims, List.forall₂_map_left_iff, List.forall₂_map_right_iff]
      rw [List.forall₂_iff_get] at hxy ⊢
      refine ⟨hxy.1, fun i i1 i2 => ⟨?_, hxy.2 i i1 i2⟩⟩
      have := hx _ (List.getElem_mem i1)
      simp only [List.get_eq_getElem]
      omega
    have ml := mono okl.lens lenl
    have mr := mono okr.lens lenr
    have el := okl.len
    have er := okr.len
    have ep := h.len
    obtain ⟨k, hk⟩ := prod_set_lin (l := boxDims p.part) (a := a) (by simpa [boxDims] using ha)
    rw [hl, boxDims_set, hk] at ml
    rw [hr, boxDims_set, hk] at mr
    rw [← boxDims_set_self ha, hk] at ep
    simp only at ml mr
    have e : k * ((p.part.getD a (0, 0)).2 - (p.part.getD a (0, 0)).1) =
      k * (c + 1 - (p.part.getD a (0, 0)).1) + k * ((p.part.getD a (0, 0)).2 - (c + 1)) := by ring
    omega

/-! ## The widest axis -/

theorem widestFold : ∀ (l : List (Int × Int)) (k : Nat) (s : Int × Option (Int × Int)), (∀ r ∈ l, 0 ≤ r.2 - r.1) →
    ∃ s', (l.zipIdx k).foldlM (fun (st : Int × Option (Int × Int)) x => do
      let d := x.1.2 - x.1.1
      if d < 0 then throwX
      else if d > st.1 then return (d, some ((x.2 : Int), d))
      else return st) s = .ok s' ∧ s.1 ≤ s'.1 ∧ (∀ r ∈ l, r.2 - r.1 ≤ s'.1) ∧
      (s' = s ∨ ∃ (a : Nat) (r : Int × Int), l[a]? = some r ∧ r.2 - r.1 = s'.1 ∧ s'.2 = some (((k + a : Nat) : Int), s'.1))
  | [], k, s, _ => ⟨s, rfl, le_refl _, by simp, .inl rfl⟩
  | x :: l, k, s, h => by
    have hx := h x (by simp)
    rw [List.zipIdx_cons, List.foldlM_cons]
    simp only
    rw [if_neg (by omega)]
    by_cases hd : x.2 - x.1 > s.1
    · obtain ⟨s', e, w1, w2, w3⟩ := widestFold l (k + 1) (x.2 - x.1, some ((k : Int), x.2 - x.1)) fun r hr => h r (by simp [hr])
      rw [if_pos hd]
      refine ⟨s', e, by simp only at w1; omega, ?_, .inr ?_⟩
      · intro r hr
        rcases List.mem_cons.mp hr with rfl | hr
        · exact w1
        · exact w2 r hr
      · rcases w3 with rfl | ⟨a, r, r1, r2, r3⟩
        · exact ⟨0, x, rfl, rfl, rfl⟩
        · exact ⟨a + 1, r, by simpa using r1, r2, by rw [r3]; congr 2; push_cast; omega⟩
    · obtain ⟨s', e, w1, w2, w3⟩ := widestFold l (k + 1) s fun r hr => h r (by simp [hr])
      rw [if_neg hd]
      refine ⟨s', e, w1, ?_, ?_⟩
      · intro r hr
        rcases List.mem_cons.mp hr with rfl | hr
        · omega
        · exact w2 r hr
      · rcases w3 with rfl | ⟨a, r, r1, r2, r3⟩
        · exact .inl rfl
        · exact .inr ⟨a + 1, r, by simpa using r1, r2, by rw [r3]; congr 2; push_cast; omega⟩

theorem widestAxis_ok {part : List (Int × Int)} (hne : part ≠ []) (h : ∀ r ∈ part, 0 ≤ r.2 - r.1) :
    ∃ (a : Nat) (L : Int), widestAxis part = .ok ((a : Int), L) ∧ a < part.length ∧ (part.getD a (0, 0)).2 - (part.getD a (0, 0)).1 = L ∧ ∀ r ∈ part, r.2 - r.1 ≤ L := by
  obtain ⟨s', e, w1, w2, w3⟩ := widestFold part 0 ((-1 : Int), none) h
  rcases w3 with rfl | ⟨a, r, r1, r2, r3⟩
  · obtain ⟨x, l, rfl⟩ := List.exists_cons_of_ne_nil hne
    have := h x (by simp)
    have := w2 x (by simp)
    simp only at this
    omega
  · refine ⟨a, s'.1, ?_, ?_, ?_, w2⟩
    · unfold widestAxis
      erw [e]
      rw [ok_bind, r3, Nat.zero_add]
      rfl
    · exact (List.getElem?_eq_some_iff.mp r1).1
    · rw [List.getD_eq_getElem?_getD, r1]; exact r2

/-! ## Dissection -/

theorem mem_forVals {a b i : Int} : i ∈ forVals a b ↔ a ≤ i ∧ i < b := by
  simp only [forVals, List.mem_map, List.mem_range]
  constructor
  · rintro ⟨k, hk, rfl⟩; omega
  · rintro ⟨h1, h2⟩; exact ⟨(i - a).toNat, by omega, by omega⟩

theorem forVals_nil {a b : Int} : forVals a b = [] ↔ b ≤ a := by
  simp only [forVals, List.map_eq_nil_iff, List.range_eq_nil]
  omega

theorem dissectFold {o : BoxOpts K} {st : List Int} {Mk : List Int → Prop} {p : IPatch} {a : Nat} (G : AmrGrid o.minLen st) (h : PatchOk o.minLen st Mk p)
    (ha : a < p.part.length) : ∀ (l : List Int) (s : List (Option K) × Option K × Int), (∀ i ∈ l, 0 ≤ i ∧ i.toNat < s.1.length) →
    ∃ s', l.foldlM (dissectStep o p (a : Int)) s = .ok s' ∧ (s'.2.2 = s.2.2 ∧ (l = [] ∨ s.2.1 ≠ none) ∨ s'.2.2 ∈ l)
  | [], s, _ => ⟨s, rfl, .inl ⟨rfl, .inl rfl⟩⟩
  | i :: l, s, hi => by
    have h1 : 1 ≤ st.length := by have := G.d2; omega
    obtain ⟨p', z, ok', _⟩ := zip_ok G.mn1 h1 G.d3 (fun n hn => (G.le n hn).2) h.toPatchRaw h.lens h.marked1
    have ha' : a < p'.part.length := by rw [ok'.box.length_eq, ← h.box.length_eq]; exact ha
    have heff : p'.efficiencyPerAxis K (a : Int) = .ok ((p'.nbTrue : K) / (((p'.part.getD a (0, 0)).2 - (p'.part.getD a (0, 0)).1 : Int) : K)) := by
      unfold IPatch.efficiencyPerAxis
      rw [rd_part ha', ok_bind]
      rfl
    obtain ⟨i0, i1⟩ := hi i (by simp)
    have step : ∃ s1, dissectStep o p (a : Int) s i = .ok s1 ∧ s1.1.length = s.1.length ∧ ((s1.2.2 = i ∧ s1.2.1 ≠ none) ∨ (s1.2 = s.2 ∧ s.2.1 ≠ none)) := by
      unfold dissectStep
      rw [z, ok_bind, heff, ok_bind, ok_bind, heff, ok_bind]
      generalize hr : (max _ _ / min _ _ : K) = r
      simp only
      rw [wr_ok i0 i1, ok_bind]
      cases hs : s.2.1 with
      | none => exact ⟨_, rfl, by simp, .inl ⟨rfl, by simp⟩⟩
      | some b =>
        simp only
        by_cases hb : r < b
        · rw [if_pos hb]
          exact ⟨_, rfl, by simp, .inl ⟨rfl, by simp⟩⟩
        · rw [if_neg hb]
          exact ⟨_, rfl, by simp, .inr ⟨rfl, by simp⟩⟩
    obtain ⟨s1, e1, l1, w1⟩ := step
    obtain ⟨s', e, w⟩ := dissectFold G h ha l s1 fun j hj => by rw [l1]; exact hi j (by simp [hj])
    refine ⟨s', by rw [List.foldlM_cons, e1, ok_bind, e], ?_⟩
    rcases w with ⟨w, _⟩ | w
    · rcases w1 with ⟨w1, _⟩ | ⟨w1, w2⟩
      · right; rw [w, w1]; simp
      · left; exact ⟨by rw [w, w1], .inr w2⟩
    · right; simp [w]

theorem dissect_ok {o : BoxOpts K} {st : List Int} {Mk : List Int → Prop} {p : IPatch} {a : Nat} {L : Int} (G : AmrGrid o.minLen st)
    (h : PatchOk o.minLen st Mk p) (ha : a < p.part.length) (hL : (p.part.getD a (0, 0)).2 - (p.part.getD a (0, 0)).1 = L) :
    (L < 2 * o.minLen → dissectBigPatch o p a L = throwX) ∧
    (2 * o.minLen ≤ L → ∃ c, dissectBigPatch o p a L = .ok c ∧ ValidCut o.minLen p.part a c) := by
  have hm := G.mn1
  obtain ⟨s', e, w⟩ := dissectFold (K := K) G h ha (forVals (o.minLen - 1) (L - o.minLen)) (List.replicate (L - o.minLen).toNat none, none, -1) (by
    intro i hi
    rw [mem_forVals] at hi
    simp
    omega)
  simp only at w
  constructor
  · intro hlt
    unfold dissectBigPatch
    by_cases h0 : L - o.minLen < 0
    · rw [if_pos h0]
    · rw [if_neg h0, e, ok_bind, if_pos]
      rcases w with ⟨w, _⟩ | w
      · exact w
      · rw [mem_forVals] at w; omega
  · intro hge
    have w' : s'.2.2 ∈ forVals (o.minLen - 1) (L - o.minLen) := by
      rcases w with ⟨w, w2 | w2⟩ | w
      · rw [forVals_nil] at w2; omega
      · simp at w2
      · exact w
    rw [mem_forVals] at w'
    refine ⟨s'.2.2 + (p.part.getD a (0, 0)).1, ?_, ha, by omega, by omega⟩
    unfold dissectBigPatch
    rw [if_neg (by omega), e, ok_bind, if_neg (by omega), rd_part ha, ok_bind]
    rfl

/-! ## Holes -/

theorem closest_mem (d : Int → Int) : ∀ (l : List Int) (s : Int × Int), s.1 ∈ l ∨ True → (l.foldl (fun (st : Int × Int) h => if d h < st.2 then (h, d h) else st) s).1 = s.1 ∨
    (l.foldl (fun (st : Int × Int) h => if d h < st.2 then (h, d h) else st) s).1 ∈ l
  | [], s, _ => .inl rfl
  | x :: l, s, _ => by
    rw [List.foldl_cons]
    split_ifs with h
    · rcases closest_mem d l (x, d x) (.inr trivial) with e | e
      · exact .inr (by rw [e]; simp)
      · exact .inr (by simp [e])
    · rcases closest_mem d l s (.inr trivial) with e | e
      · exact .inl e
      · exact .inr (by simp [e])

theorem closestHole_ok {mn : Int} {sig : List Int} (hm : 1 ≤ mn) :
    ∃ r, closestHole mn sig = .ok r ∧ ∀ x, r = some x → mn - 1 ≤ x ∧ x < sig.length - mn ∧ sig[x.toNat]? = some 0 := by
  unfold closestHole
  simp only
  rw [dec_mapM_ok (g := fun i => (i, sig.getD i.toNat 0)) (by
    intro i hi
    rw [mem_forVals] at hi
    have h0 : i.toNat < sig.length := by omega
    rw [rd_ok (by omega) h0, ok_bind, List.getD_eq_getElem?_getD, List.getElem?_eq_getElem h0]
    rfl), ok_bind]
  generalize hH : List.map (fun x : Int × Int => x.1) (List.filter _ _) = hole
  have hmem : ∀ x ∈ hole, mn - 1 ≤ x ∧ x < sig.length - mn ∧ sig[x.toNat]? = some 0 := by
    intro x hx
    rw [← hH] at hx
    simp only [List.mem_map, List.mem_filter, decide_eq_true_eq] at hx
    obtain ⟨⟨i, v⟩, ⟨⟨j, hj, e⟩, hv⟩, rfl⟩ := hx
    rw [mem_forVals] at hj
    injection e with e1 e2
    subst e1
    simp only at hv ⊢
    refine ⟨hj.1, hj.2, ?_⟩
    have h0 : j.toNat < sig.length := by omega
    rw [List.getD_eq_getElem?_getD, List.getElem?_eq_getElem h0, Option.getD_some] at e2
    rw [List.getElem?_eq_getElem h0, e2, hv]
  cases hole with
  | nil => exact ⟨none, rfl, by simp⟩
  | cons h0 l =>
    refine ⟨_, rfl, fun x hx => ?_⟩
    injection hx with hx
    have := closest_mem (fun h => |h - (sig.length : Int).tdiv 2|) (h0 :: l) (h0, |h0 - (sig.length : Int).tdiv 2|) (.inr trivial)
    rw [hx] at this
    rcases this with e | e
    · exact hmem x (by rw [e]; simp)
    · exact hmem x e

theorem holeLoop_ok {mn first : Int} (hm : 1 ≤ mn) : ∀ (sigs : List (List Int)),
    ∃ r, holeLoop mn first sigs = .ok r ∧ ∀ c, r = some c → ∃ sig ∈ sigs, mn - 1 ≤ c - first ∧ c - first < sig.length - mn ∧ sig[(c - first).toNat]? = some 0
  | [] => ⟨none, rfl, by simp⟩
  | sig :: l => by
    obtain ⟨r, hr, hx⟩ := closestHole_ok (sig := sig) hm
    unfold holeLoop
    rw [hr, ok_bind]
    cases r with
    | none =>
      obtain ⟨r, hr, hx⟩ := holeLoop_ok (first := first) hm l
      refine ⟨r, hr, fun c hc => ?_⟩
      obtain ⟨s, hs, w⟩ := hx c hc
      exact ⟨s, by simp [hs], w⟩
    | some x =>
      refine ⟨some (x + first), rfl, fun c hc => ?_⟩
      injection hc with hc
      subst hc
      have := hx x rfl
      refine ⟨sig, by simp, ?_⟩
      rw [show x + first - first = x by omega]
      exact this

theorem signature_ok {mn : Int} {st : List Int} {Mk : List Int → Prop} {p : IPatch} (G : AmrGrid mn st) (h : PatchOk mn st Mk p) :
    ∃ r, p.signature = .ok r ∧ r.length = p.part.length ∧ ∀ (a : Nat) s, r[a]? = some s → (s.length : Int) = (p.part.getD a (0, 0)).2 - (p.part.getD a (0, 0)).1 := by
  have hl : (boxDims p.part).length = st.length := by simp [boxDims, h.box.length_eq]
  obtain ⟨r, hr, hrl, w⟩ := C46_signature (st := boxDims p.part) (crit := p.crit) (by have := G.d2; omega) (by have := G.d3; omega) (h.box.dims_nonneg) h.len
  refine ⟨r, ?_, by rw [hrl]; simp [boxDims], fun a s ha => ?_⟩
  · unfold IPatch.signature
    rw [dimensions_ok h.box, ok_bind, hr]
  · have ha' : a < p.part.length := by
      have := (List.getElem?_eq_some_iff.mp ha).1
      rw [hrl] at this
      simpa [boxDims] using this
    refine (w a s ((p.part.getD a (0, 0)).2 - (p.part.getD a (0, 0)).1) ha ?_).1
    simp [boxDims, List.getD_eq_getElem?_getD, ha']

theorem findHole_ok {o : BoxOpts K} {st : List Int} {Mk : List Int → Prop} {p : IPatch} {a : Nat} {L : Int} (G : AmrGrid o.minLen st)
    (h : PatchOk o.minLen st Mk p) (ha : a < p.part.length) (hL : (p.part.getD a (0, 0)).2 - (p.part.getD a (0, 0)).1 = L)
    (hmax : ∀ r ∈ p.part, r.2 - r.1 ≤ L) : ∃ r, findHole o p a = .ok r ∧ ∀ c, r = some c → ValidCut o.minLen p.part a c := by
  obtain ⟨sigs, hs, hsl, hsw⟩ := signature_ok G h
  obtain ⟨r, hr, hx⟩ := holeLoop_ok (mn := o.minLen) (first := (p.part.getD a (0, 0)).1) G.mn1 sigs
  refine ⟨r, ?_, fun c hc => ?_⟩
  · unfold findHole
    rw [hs, ok_bind, rd_part ha, ok_bind, hr]
  · obtain ⟨s, hm, w1, w2, _⟩ := hx c hc
    obtain ⟨b, hb, rfl⟩ := List.mem_iff_getElem.mp hm
    have := hsw b _ (List.getElem?_eq_getElem hb)
    have := hmax _ (getD_part_mem (a := b) (by omega))
    exact ⟨ha, by omega, by omega⟩

/-! ## Inflections -/

theorem forVals_length {a b : Int} : (forVals a b).length = (b - a).toNat := by simp [forVals]

theorem usub_of_le {a b : Int} (h : 0 ≤ a - b) (h2 : a - b < 2 ^ 64) : usub a b = a - b := Int.emod_eq_of_lt h h2

theorem zeroCross_ok {mn : Int} {sig : List Int} (hm : 1 ≤ mn) (hn : mn ≤ sig.length) (hx : (sig.length : Int) ≤ idMax) :
    ∃ zc, zeroCross mn sig = .ok zc ∧ ∀ e ∈ zc, 1 ≤ e.1 ∧ mn ≤ e.1 + 2 ∧ e.1 + 2 + mn ≤ sig.length ∧ 0 ≤ e.2 := by
  unfold zeroCross
  simp only
  rw [if_neg (by omega)]
  obtain ⟨d2, hd2, hF2⟩ := mapM_spec (l := forVals 1 (sig.length - 1)) (P := fun (_ _ : Int) => True) (f := fun i => do
      let a ← rd sig (i - 1)
      let b ← rd sig i
      let c ← rd sig (i + 1)
      return a - 2 * b + c) (by
    intro i hi
    rw [mem_forVals] at hi
    refine ⟨sig[(i - 1).toNat]'(by omega) - 2 * sig[i.toNat]'(by omega) + sig[(i + 1).toNat]'(by omega), ?_, trivial⟩
    rw [rd_ok (i := i - 1) (by omega) (by omega), ok_bind, rd_ok (i := i) (by omega) (by omega), ok_bind, rd_ok (i := i + 1) (by omega) (by omega), ok_bind]
    rfl)
  have hdl : d2.length = ((sig.length : Int) - 1 - 1).toNat := by rw [← hF2.length_eq, forVals_length]
  rw [hd2, ok_bind]
  obtain ⟨grad, hg, hFg⟩ := mapM_spec (l := forVals 1 d2.length) (P := fun (_ x : Int) => 0 ≤ x) (f := fun i => do
      let a ← rd d2 i
      let b ← rd d2 (i - 1)
      return |a - b|) (by
    intro i hi
    rw [mem_forVals] at hi
    refine ⟨|d2[i.toNat]'(by omega) - d2[(i - 1).toNat]'(by omega)|, ?_, ?_⟩
    · rw [rd_ok (i := i) (by omega) (by omega), ok_bind, rd_ok (i := i - 1) (by omega) (by omega), ok_bind]
      rfl
    · exact abs_nonneg _)
  have hgl : grad.length = ((d2.length : Int) - 1).toNat := by rw [← hFg.length_eq, forVals_length]
  rw [hg, ok_bind]
  by_cases he : d2 = []
  · rw [if_pos he]
    exact ⟨[], rfl, by simp⟩
  rw [if_neg he]
  have hd0 : 0 < d2.length := List.length_pos_iff.mpr he
  obtain ⟨l, hl, hFl⟩ := mapM_spec (l := forVals 1 (d2.length - 1)) (P := fun _ zs => ∀ e ∈ zs, 1 ≤ e.1 ∧ mn ≤ e.1 + 2 ∧ e.1 + 2 + mn ≤ sig.length ∧ (0 : Int) ≤ e.2)
    (f := fun i => do
      let a ← rd d2 i
      let b ← rd d2 (i + 1)
      if a * b ≤ 0 then
        if i ≥ usub mn 2 ∧ i ≤ usub (usub sig.length mn) 2 then do
          let g ← rd grad i
          return [(i, g)]
        else return []
      else return []) (by
    intro i hi
    rw [mem_forVals] at hi
    rw [rd_ok (i := i) (by omega) (by omega), ok_bind, rd_ok (i := i + 1) (by omega) (by omega), ok_bind]
    split_ifs with h1 h2
    · rw [rd_ok (i := i) (by omega) (by omega), ok_bind]
      refine ⟨_, rfl, fun e he => ?_⟩
      rw [List.mem_singleton] at he
      subst he
      obtain ⟨u1, u2⟩ := h2
      have hmn : 2 ≤ mn := by
        by_contra hc
        have : mn = 1 := by omega
        subst this
        unfold usub at u1
        simp only [idMax] at hx
        omega
      rw [usub_of_le (by omega) (by simp only [idMax] at hx; omega)] at u1
      have hmx : mn ≤ sig.length := hn
      rw [usub_of_le (a := sig.length) (by omega) (by simp only [idMax] at hx; omega)] at u2
      rw [usub_of_le (by omega) (by simp only [idMax] at hx; omega)] at u2
      have hgi : i.toNat < grad.length := by omega
      refine ⟨hi.1, by simp only; omega, by simp only; omega, ?_⟩
      exact (List.forall₂_iff_get.mp hFg).2 i.toNat (by rw [hFg.length_eq]; exact hgi) hgi
    · exact ⟨[], rfl, by simp⟩
    · exact ⟨[], rfl, by simp⟩)
  rw [hl, ok_bind]
  refine ⟨l.flatten, rfl, fun e he => ?_⟩
  obtain ⟨zs, hz, hez⟩ := List.mem_flatten.mp he
  obtain ⟨k, hk, rfl⟩ := List.mem_iff_getElem.mp hz
  exact (List.forall₂_iff_get.mp hFl).2 k (by rw [hFl.length_eq]; exact hk) hk e hez

theorem bestCross_ok {n first : Int} {zc : List (Int × Int)} {c v : Int} (h : bestCross n first zc = some (c, v)) :
    0 ≤ v ∧ ∃ e ∈ zc, c = e.1 + 1 + first := by
  unfold bestCross at h
  cases zc with
  | nil => cases h
  | cons z l =>
    simp only at h
    generalize hP : List.map (fun e : Int × Int => e.1 + 1) (List.filter _ _) = places at h
    cases places with
    | nil => cases h
    | cons x t =>
      simp only at h
      split at h
      · cases h
      · rename_i y hy
        split_ifs at h with hm
        simp only [Option.some.injEq, Prod.mk.injEq] at h
        obtain ⟨rfl, rfl⟩ := h
        refine ⟨hm, ?_⟩
        have hmem := List.mem_of_find?_eq_some hy
        rw [← hP] at hmem
        obtain ⟨e, he, rfl⟩ := List.mem_map.mp hmem
        exact ⟨e, List.mem_of_mem_filter he, rfl⟩

theorem foldl_max_mem : ∀ (l : List Int) (v : Int), l.foldl max v = v ∨ l.foldl max v ∈ l
  | [], v => .inl rfl
  | x :: l, v => by
    rw [List.foldl_cons]
    rcases foldl_max_mem l (max v x) with e | e
    · rw [e]
      rcases le_total v x with h | h
      · right; rw [max_eq_right h]; simp
      · left; exact max_eq_left h
    · right; simp [e]

theorem foldl_max_ge : ∀ (l : List Int) (v : Int), v ≤ l.foldl max v ∧ ∀ x ∈ l, x ≤ l.foldl max v
  | [], v => ⟨le_refl _, by simp⟩
  | x :: l, v => by
    rw [List.foldl_cons]
    obtain ⟨i1, i2⟩ := foldl_max_ge l (max v x)
    have := le_max_left v x
    have := le_max_right v x
    refine ⟨by omega, fun y hy => ?_⟩
    rcases List.mem_cons.mp hy with rfl | hy
    · omega
    · exact i2 y hy

theorem findInflection_ok {o : BoxOpts K} {st : List Int} {Mk : List Int → Prop} {p : IPatch} (G : AmrGrid o.minLen st) (h : PatchOk o.minLen st Mk p) :
    ∃ r, findInflection o p = .ok r ∧ ∀ c x, r = some (c, x) → ∃ a : Nat, x = (a : Int) ∧ ValidCut o.minLen p.part a c := by
  obtain ⟨sigs, hs, hsl, hsw⟩ := signature_ok G h
  have hpl : p.part.length = st.length := h.box.length_eq
  have hd2 := G.d2
  have h0 := (boxIn_iff.mp h.box).2
  obtain ⟨zs, hz, hzF⟩ := mapM_spec (l := sigs.zipIdx) (P := fun x z => ∀ c v, z = some (c, v) → 0 ≤ v ∧ c ≠ -1 ∧ ValidCut o.minLen p.part x.2 c)
    (f := fun x : List Int × Nat => do
      let zc ← zeroCross o.minLen x.1
      let r ← rd p.part (x.2 : Int)
      return bestCross x.1.length r.1 zc) (by
    rintro ⟨s, a⟩ hx
    have hget : sigs[a]? = some s := by
      obtain ⟨_, h2, h3⟩ := List.mem_zipIdx hx
      rw [h3]
      simp only [Nat.sub_zero]
      exact List.getElem?_eq_getElem _
    have ha : a < p.part.length := by rw [← hsl]; exact (List.getElem?_eq_some_iff.mp hget).1
    have hlen := hsw a s hget
    have hml := h.lens _ (getD_part_mem ha)
    have hmx := h0 a (by omega)
    have hst := (G.le (st.getD a 0) (by rw [List.getD_eq_getElem?_getD, List.getElem?_eq_getElem (by omega)]; exact List.getElem_mem _)).2
    obtain ⟨zc, hzc, hw⟩ := zeroCross_ok (mn := o.minLen) (sig := s) G.mn1 (by omega) (by omega)
    simp only
    rw [hzc, ok_bind, rd_part ha, ok_bind]
    refine ⟨_, rfl, fun c v hb => ?_⟩
    obtain ⟨hv, e, he, rfl⟩ := bestCross_ok hb
    have := hw e he
    exact ⟨hv, by omega, ha, by omega, by omega⟩)
  have hzl : zs.length = p.part.length := by rw [← hzF.length_eq]; simp [hsl]
  have hzw : ∀ (a : Nat) c v, zs[a]? = some (some (c, v)) → 0 ≤ v ∧ c ≠ -1 ∧ ValidCut o.minLen p.part a c := by
    intro a c v ha
    obtain ⟨hlt, e⟩ := List.getElem?_eq_some_iff.mp ha
    have := (List.forall₂_iff_get.mp hzF).2 a (by rw [hzF.length_eq]; exact hlt) hlt c v (by simpa using e)
    simpa using this
  unfold findInflection
  rw [hs, ok_bind]
  erw [hz]
  rw [ok_bind]
  simp only
  generalize hD : List.map (fun z : Option (Int × Int) => match z with | none => (-1 : Int) | some x => x.1) zs = dims
  generalize hV : List.map (fun z : Option (Int × Int) => match z with | none => (-1 : Int) | some x => x.2) zs = vals
  have hDl : dims.length = zs.length := by rw [← hD]; simp
  have hVl : vals.length = zs.length := by rw [← hV]; simp
  -- an axis is without crossing exactly when the two values are -1
  have key : ∀ (a : Nat), a < zs.length → (dims[a]? = some (-1) ∧ vals[a]? = some (-1)) ∨
      ∃ c v, dims[a]? = some c ∧ vals[a]? = some v ∧ 0 ≤ v ∧ c ≠ -1 ∧ ValidCut o.minLen p.part a c := by
    intro a ha
    rw [← hD, ← hV, List.getElem?_map, List.getElem?_map, List.getElem?_eq_getElem ha]
    cases hza : zs[a] with
    | none => left; simp
    | some x =>
      obtain ⟨c, v⟩ := x
      right
      refine ⟨c, v, by simp, by simp, hzw a c v ?_⟩
      rw [List.getElem?_eq_getElem ha, hza]
  have fin : ∀ (a : Nat) (m : Int), 0 ≤ m → vals[a]? = some m → ∃ c, dims[a]? = some c ∧ ValidCut o.minLen p.part a c := by
    intro a m hm ha
    have hlt : a < zs.length := by rw [← hVl]; exact (List.getElem?_eq_some_iff.mp ha).1
    rcases key a hlt with ⟨_, e⟩ | ⟨c, v, e1, _, _, _, e5⟩
    · rw [e] at ha; injection ha; omega
    · exact ⟨c, e1, e5⟩
  have rdg : ∀ {l : List Int} {a : Nat} {x : Int}, l[a]? = some x → rd l (a : Int) = .ok x := by
    intro l a x hx
    exact rd_of_getElem? (by omega) (by simpa using hx)
  obtain ⟨d0, hd0⟩ : ∃ x, dims[0]? = some x := ⟨_, List.getElem?_eq_getElem (by omega)⟩
  obtain ⟨d1, hd1⟩ : ∃ x, dims[1]? = some x := ⟨_, List.getElem?_eq_getElem (by omega)⟩
  obtain ⟨v0, hv0⟩ : ∃ x, vals[0]? = some x := ⟨_, List.getElem?_eq_getElem (by omega)⟩
  obtain ⟨v1, hv1⟩ : ∃ x, vals[1]? = some x := ⟨_, List.getElem?_eq_getElem (by omega)⟩
  have r0 : rd dims 0 = .ok d0 := rdg (a := 0) hd0
  have r1 : rd dims 1 = .ok d1 := rdg (a := 1) hd1
  have s0 : rd vals 0 = .ok v0 := rdg (a := 0) hv0
  have s1 : rd vals 1 = .ok v1 := rdg (a := 1) hv1
  have p0 : rd p.part 0 = .ok (p.part.getD 0 (0, 0)) := rd_part (a := 0) (by omega)
  have p1 : rd p.part 1 = .ok (p.part.getD 1 (0, 0)) := rd_part (a := 1) (by omega)
  have hsome : anyCross dims = .ok (decide (d0 ≠ -1 ∨ d1 ≠ -1)) := by
    unfold anyCross
    rw [r0, ok_bind]
    by_cases e : d0 ≠ -1
    · rw [if_pos e]; simp [e]; rfl
    · rw [if_neg e, r1, ok_bind]; simp only [not_not] at e; simp [e]; rfl
  rw [hsome, ok_bind]
  by_cases hany : d0 ≠ -1 ∨ d1 ≠ -1
  swap
  · rw [if_neg (by simpa using hany)]
    exact ⟨none, rfl, by simp⟩
  rw [if_pos (by simpa using hany)]
  unfold crossAxis
  rw [s0, ok_bind]
  simp only
  obtain ⟨g1, g2⟩ := foldl_max_ge vals v0
  have hmm := foldl_max_mem vals v0
  have hm0 : 0 ≤ vals.foldl max v0 := by
    rcases hany with e | e
    · rcases key 0 (by omega) with ⟨w, _⟩ | ⟨c, v, w1, w2, w3, _⟩
      · rw [hd0] at w; injection w with w; exact absurd w e
      · have := g2 v (List.mem_of_getElem? w2); omega
    · rcases key 1 (by omega) with ⟨w, _⟩ | ⟨c, v, w1, w2, w3, _⟩
      · rw [hd1] at w; injection w with w; exact absurd w e
      · have := g2 v (List.mem_of_getElem? w2); omega
  have hmem : vals.foldl max v0 ∈ vals := by
    rcases hmm with e | e
    · rw [e]; exact List.mem_of_getElem? hv0
    · exact e
  generalize vals.foldl max v0 = m at *
  have hboth : bothMax vals v0 m = .ok (decide (v0 = m ∧ v1 = m)) := by
    unfold bothMax
    by_cases e : v0 = m
    · rw [if_pos e, s1, ok_bind]; simp [e]; rfl
    · rw [if_neg e]; simp [e]; rfl
  rw [hboth, ok_bind]
  have last : ∀ a : Nat, vals[a]? = some m → ∃ r, (do
      let cut ← rd dims (a : Int)
      return some (cut, (a : Int)) : M (Option (Int × Int))) = .ok r ∧ ∀ c x, r = some (c, x) → ∃ a : Nat, x = (a : Int) ∧ ValidCut o.minLen p.part a c := by
    intro a ha
    obtain ⟨c, hc, hv⟩ := fin a m hm0 ha
    rw [rdg hc, ok_bind]
    refine ⟨some (c, (a : Int)), rfl, fun c' x e => ?_⟩
    injection e with e
    injection e with e1 e2
    subst e1 e2
    exact ⟨a, rfl, hv⟩
  by_cases hb : v0 = m ∧ v1 = m
  · rw [if_pos (by simpa using hb), p0, ok_bind, p1, ok_bind]
    simp only [pure_bind]
    split_ifs
    · exact last 0 (by rw [hv0, hb.1])
    · exact last 1 (by rw [hv1, hb.2])
  · rw [if_neg (by simpa using hb)]
    simp only [pure_bind]
    refine last (vals.idxOf m) ?_
    have := List.idxOf_lt_length_of_mem hmem
    rw [List.getElem?_eq_getElem this, List.getElem_idxOf]

/-! ## The decision -/

/-- When a patch is kept. -/
structure FinalPatch (o : BoxOpts K) (p : IPatch) : Prop where
  poor : p.efficiency K ≤ o.goal → ∀ r ∈ p.part, r.2 - r.1 < 2 * o.minLen
  good : o.goal < p.efficiency K → (p.crit.length : Int) ≤ o.maxCells ∧ ∀ r ∈ p.part, r.2 - r.1 ≤ o.maxLen

theorem cutPatch_ok {o : BoxOpts K} {st : List Int} {Mk : List Int → Prop} {p : IPatch} (G : AmrGrid o.minLen st) (h : PatchOk o.minLen st Mk p) :
    (cutPatch o p = throwX ∧ (∀ r ∈ p.part, r.2 - r.1 < 2 * o.minLen) ∧ (o.maxCells < p.crit.length ∨ ∃ r ∈ p.part, o.maxLen < r.2 - r.1)) ∨
    (cutPatch o p = .ok none ∧ FinalPatch o p) ∨
    ∃ l r, cutPatch o p = .ok (some [l, r]) ∧ GoodCut o.minLen st Mk p l r := by
  have hm := G.mn1
  have hd2 := G.d2
  have hpl : p.part.length = st.length := h.box.length_eq
  obtain ⟨a, L, hw, ha, hL, hmax⟩ := widestAxis_ok (part := p.part) (by rintro e; rw [e] at hpl; simp at hpl; omega) (fun r hr => by have := h.lens r hr; omega)
  have hLm : p.part.getD a (0, 0) ∈ p.part := getD_part_mem ha
  obtain ⟨D1, D2⟩ := dissect_ok (K := K) G h ha hL
  unfold cutPatch
  rw [hw, ok_bind]
  simp only
  have ddone : ((p.crit.length : Int) > o.maxCells ∨ L > o.maxLen) → ((do
      let cut ← dissectBigPatch o p a L
      return some (← dealWithCut o.minLen p a cut) : M (Option (List IPatch))) = throwX ∧ (∀ r ∈ p.part, r.2 - r.1 < 2 * o.minLen) ∧
        (o.maxCells < p.crit.length ∨ ∃ r ∈ p.part, o.maxLen < r.2 - r.1)) ∨
      ∃ l r, (do
        let cut ← dissectBigPatch o p a L
        return some (← dealWithCut o.minLen p a cut) : M (Option (List IPatch))) = .ok (some [l, r]) ∧ GoodCut o.minLen st Mk p l r := by
    intro hbig
    by_cases hlt : L < 2 * o.minLen
    · left
      rw [D1 hlt]
      refine ⟨rfl, fun r hr => by have := hmax r hr; omega, ?_⟩
      rcases hbig with e | e
      · exact .inl e
      · exact .inr ⟨_, hLm, by omega⟩
    · right
      obtain ⟨c, e, hc⟩ := D2 (by omega)
      obtain ⟨l, r, e2, hg⟩ := dealWithCut_ok G h hc
      refine ⟨l, r, ?_, hg⟩
      rw [e, ok_bind, e2, ok_bind]
      rfl
  by_cases hth : p.efficiency K ≥ o.threshold ∧ ((p.crit.length : Int) > o.maxCells ∨ L > o.maxLen)
  · rw [if_pos hth]
    rcases ddone hth.2 with w | w
    · exact .inl w
    · exact .inr (.inr w)
  rw [if_neg hth]
  obtain ⟨r1, e1, w1⟩ := findHole_ok G h ha hL hmax
  rw [e1, ok_bind]
  cases r1 with
  | some c =>
    obtain ⟨l, r, e2, hg⟩ := dealWithCut_ok G h (w1 c rfl)
    refine .inr (.inr ⟨l, r, ?_, hg⟩)
    simp only
    rw [e2, ok_bind]
    rfl
  | none =>
    simp only
    obtain ⟨r2, e2, w2⟩ := findInflection_ok G h
    rw [e2, ok_bind]
    cases r2 with
    | some x =>
      obtain ⟨c, x⟩ := x
      obtain ⟨b, rfl, hc⟩ := w2 c x rfl
      obtain ⟨l, r, e3, hg⟩ := dealWithCut_ok G h hc
      refine .inr (.inr ⟨l, r, ?_, hg⟩)
      simp only
      rw [e3, ok_bind]
      rfl
    | none =>
      simp only
      unfold tryAction4
      by_cases hgoal : p.efficiency K ≤ o.goal
      · rw [if_pos hgoal]
        by_cases hr : L ≥ 2 * o.minLen
        · rw [if_pos hr, rd_part ha, ok_bind]
          have ht : L.tdiv 2 = L / 2 := Int.tdiv_eq_ediv_of_nonneg (by omega)
          have hc : ValidCut o.minLen p.part a (L.tdiv 2 + (p.part.getD a (0, 0)).1 - 1) := ⟨ha, by omega, by omega⟩
          obtain ⟨l, r, e3, hg⟩ := dealWithCut_ok G h hc
          refine .inr (.inr ⟨l, r, ?_, hg⟩)
          simp only [pure_bind]
          rw [e3, ok_bind]
          rfl
        · rw [if_neg hr]
          exact .inr (.inl ⟨rfl, fun _ r hr' => by have := hmax r hr'; omega, fun hc => absurd hgoal (not_le.mpr hc)⟩)
      · rw [if_neg hgoal]
        by_cases hbig : (p.crit.length : Int) > o.maxCells ∨ L > o.maxLen
        · rw [if_pos hbig]
          rcases ddone hbig with ⟨w, w'⟩ | ⟨l, r, w, hg⟩
          · refine .inl ⟨?_, w'⟩
            rw [← w]
            by_cases hlt : L < 2 * o.minLen
            · rw [D1 hlt]; rfl
            · obtain ⟨c, e, _⟩ := D2 (by omega)
              rw [e]; rfl
          · refine .inr (.inr ⟨l, r, ?_, hg⟩)
            rw [← w]
            by_cases hlt : L < 2 * o.minLen
            · rw [D1 hlt]; rfl
            · obtain ⟨c, e, _⟩ := D2 (by omega)
              rw [e]; rfl
        · rw [if_neg hbig]
          exact .inr (.inl ⟨rfl, fun hc => absurd hc hgoal, fun _ => ⟨by omega, fun r hr' => by have := hmax r hr'; omega⟩⟩)

end MC
