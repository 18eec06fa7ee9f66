import Verif.AmrPatchCut
import Mathlib.Algebra.Field.Rat
import Mathlib.Algebra.Order.Ring.Unbundled.Rat
import Mathlib.Tactic.NormNum

/-!
# Creation of patches from a criterion – C90

The loops of `createPatchesFromCriterion` end; the patches are disjoint, hold every marked cell and respect the limits.
-/

namespace MC
variable {K : Type} [Field K] [LinearOrder K]

open Classical in
/-- The number of patches of the list which hold the position. -/
noncomputable def patchCount (q : List Int) (l : List IPatch) : Nat := l.countP fun p => decide (InBox p.part q)

theorem patchCount_append (q : List Int) (l l' : List IPatch) : patchCount q (l ++ l') = patchCount q l + patchCount q l' := by
  simp [patchCount]

theorem patchCount_cons (q : List Int) (p : IPatch) (l : List IPatch) : patchCount q (p :: l) = patchCount q [p] + patchCount q l :=
  patchCount_append q [p] l

theorem patchCount_one {q : List Int} {p : IPatch} : (InBox p.part q → patchCount q [p] = 1) ∧ (¬ InBox p.part q → patchCount q [p] = 0) := by
  constructor <;> intro h <;> simp [patchCount, h]

theorem GoodCut.count {mn : Int} {st : List Int} {Mk : List Int → Prop} {p l r : IPatch} (h : GoodCut mn st Mk p l r) (q : List Int) :
    patchCount q [l, r] ≤ patchCount q [p] ∧ (Mk q → patchCount q [l, r] = patchCount q [p]) := by
  rw [patchCount_cons]
  by_cases hl : InBox l.part q <;> by_cases hr : InBox r.part q <;> by_cases hp : InBox p.part q
  · exact absurd ⟨hl, hr⟩ (h.disj q)
  · exact absurd ⟨hl, hr⟩ (h.disj q)
  · rw [patchCount_one.1 hl, patchCount_one.2 hr, patchCount_one.1 hp]; simp
  · exact absurd (h.subL q hl) hp
  · rw [patchCount_one.2 hl, patchCount_one.1 hr, patchCount_one.1 hp]; simp
  · exact absurd (h.subR q hr) hp
  · rw [patchCount_one.2 hl, patchCount_one.2 hr, patchCount_one.1 hp]
    refine ⟨by omega, fun hk => ?_⟩
    rcases h.cover q hp hk with e | e
    · exact absurd e hl
    · exact absurd e hr
  · rw [patchCount_one.2 hl, patchCount_one.2 hr, patchCount_one.2 hp]; simp

/-- The work which is left. -/
def patchWork (l : List IPatch) : Nat := (l.map fun p => 2 * p.crit.length - 1).sum

/-- What a turn of the `while` does to a list of patches. -/
structure RoundOk (o : BoxOpts K) (st : List Int) (Mk : List Int → Prop) (l : List IPatch) (s : List IPatch × List IPatch) : Prop where
  todo : ∀ p ∈ s.1, PatchOk o.minLen st Mk p
  kept : ∀ p ∈ s.2, PatchOk o.minLen st Mk p ∧ FinalPatch o p
  count : ∀ q, patchCount q s.1 + patchCount q s.2 ≤ patchCount q l ∧ (Mk q → patchCount q s.1 + patchCount q s.2 = patchCount q l)
  work : patchWork s.1 + l.length ≤ patchWork l

/-- A patch which can be neither kept nor cut. -/
def StuckPatch (o : BoxOpts K) (p : IPatch) : Prop :=
  (∀ r ∈ p.part, r.2 - r.1 < 2 * o.minLen) ∧ (o.maxCells < p.crit.length ∨ ∃ r ∈ p.part, o.maxLen < r.2 - r.1)

theorem patchFold_ok {o : BoxOpts K} {st : List Int} {Mk : List Int → Prop} (G : AmrGrid o.minLen st) : ∀ (l d : List IPatch) (s : List IPatch × List IPatch),
    (∀ p ∈ l, PatchOk o.minLen st Mk p) → RoundOk o st Mk d s →
    (l.foldlM (fun st p => do
      match ← cutPatch o p with
      | some q => return (st.1 ++ q, st.2)
      | none => return (st.1, st.2 ++ [p])) s = (throwX : M (List IPatch × List IPatch)) ∧ ∃ p, PatchOk o.minLen st Mk p ∧ StuckPatch o p) ∨
    ∃ s', l.foldlM (fun st p => do
      match ← cutPatch o p with
      | some q => return (st.1 ++ q, st.2)
      | none => return (st.1, st.2 ++ [p])) s = (.ok s' : M (List IPatch × List IPatch)) ∧ RoundOk o st Mk (d ++ l) s'
  | [], d, s, _, hs => .inr ⟨s, rfl, by simpa using hs⟩
  | p :: l, d, s, hl, hs => by
    have hp := hl p (by simp)
    have hpos := hp.crit_pos G.mn1
    have hwp : patchWork [p] = 2 * p.crit.length - 1 := by simp [patchWork]
    have hwa : ∀ x y : List IPatch, patchWork (x ++ y) = patchWork x + patchWork y := by intro x y; simp [patchWork]
    rw [List.foldlM_cons]
    rcases cutPatch_ok G hp with ⟨e, w⟩ | ⟨e, w⟩ | ⟨x, y, e, w⟩
    · left
      rw [e]
      exact ⟨rfl, p, hp, w⟩
    · have hs' : RoundOk o st Mk (d ++ [p]) (s.1, s.2 ++ [p]) := by
        refine ⟨hs.todo, ?_, fun q => ?_, ?_⟩
        · intro p' hp'
          rcases List.mem_append.mp hp' with hp' | hp'
          · exact hs.kept p' hp'
          · rw [List.mem_singleton] at hp'; subst hp'; exact ⟨hp, w⟩
        · have := hs.count q
          simp only [patchCount_append]
          refine ⟨by omega, fun hk => ?_⟩
          have := this.2 hk
          omega
        · have := hs.work
          simp only [hwa, hwp, List.length_append, List.length_singleton]
          omega
      have ih := patchFold_ok G l (d ++ [p]) _ (fun p' h' => hl p' (by simp [h'])) hs'
      rw [List.append_assoc] at ih
      rw [e, ok_bind]
      exact ih
    · have hs' : RoundOk o st Mk (d ++ [p]) (s.1 ++ [x, y], s.2) := by
        refine ⟨?_, hs.kept, fun q => ?_, ?_⟩
        · intro p' hp'
          rcases List.mem_append.mp hp' with hp' | hp'
          · exact hs.todo p' hp'
          · simp only [List.mem_cons, List.not_mem_nil, or_false] at hp'
            rcases hp' with rfl | rfl
            · exact w.left
            · exact w.right
        · have := hs.count q
          have h2 := w.count q
          simp only [patchCount_append]
          refine ⟨by omega, fun hk => ?_⟩
          have := this.2 hk
          have := h2.2 hk
          omega
        · have := hs.work
          have := w.size
          have := w.posL
          have := w.posR
          have hxy : patchWork [x, y] = (2 * x.crit.length - 1) + (2 * y.crit.length - 1) := by simp [patchWork]
          simp only [hwa, hwp, hxy, List.length_append, List.length_singleton]
          omega
      have ih := patchFold_ok G l (d ++ [p]) _ (fun p' h' => hl p' (by simp [h'])) hs'
      rw [List.append_assoc] at ih
      rw [e, ok_bind]
      exact ih

theorem patchRound_ok {o : BoxOpts K} {st : List Int} {Mk : List Int → Prop} (G : AmrGrid o.minLen st) {l : List IPatch} (hl : ∀ p ∈ l, PatchOk o.minLen st Mk p) :
    (patchRound o l = throwX ∧ ∃ p, PatchOk o.minLen st Mk p ∧ StuckPatch o p) ∨ ∃ s, patchRound o l = .ok s ∧ RoundOk o st Mk l s := by
  have := patchFold_ok (o := o) (Mk := Mk) G l [] ([], []) hl ⟨by simp, by simp, by simp [patchCount], by simp [patchWork]⟩
  rw [List.nil_append] at this
  exact this

/-- The patches which are kept, for the marked cells of `l` and `kept`. -/
structure LoopOk (o : BoxOpts K) (st : List Int) (Mk : List Int → Prop) (l res : List IPatch) : Prop where
  kept : ∀ p ∈ res, PatchOk o.minLen st Mk p ∧ FinalPatch o p
  count : ∀ q, patchCount q res ≤ patchCount q l ∧ (Mk q → patchCount q res = patchCount q l)

theorem patchLoop_ok {o : BoxOpts K} {st : List Int} {Mk : List Int → Prop} (G : AmrGrid o.minLen st) : ∀ (n : Nat) (l kept : List IPatch),
    patchWork l ≤ n → (∀ p ∈ l, PatchOk o.minLen st Mk p) → (∀ p ∈ kept, PatchOk o.minLen st Mk p ∧ FinalPatch o p) →
    ((∀ fuel, n ≤ fuel → patchLoop o fuel l kept = throwX) ∧ ∃ p, PatchOk o.minLen st Mk p ∧ StuckPatch o p) ∨
    ∃ res, (∀ fuel, n ≤ fuel → patchLoop o fuel l kept = .ok (some res)) ∧ LoopOk o st Mk (l ++ kept) res
  | n, [], kept, _, _, hk => by
    right
    refine ⟨kept, fun fuel _ => ?_, hk, fun q => by simp⟩
    cases fuel <;> rfl
  | n, p :: l, kept, hn, hl, hk => by
    have hpos := (hl p (by simp)).crit_pos G.mn1
    have hw : patchWork (p :: l) = (2 * p.crit.length - 1) + patchWork l := by simp [patchWork]
    obtain ⟨n, rfl⟩ : ∃ m, n = m + 1 := ⟨n - 1, by omega⟩
    have unf : ∀ fuel, n + 1 ≤ fuel → ∃ f, n ≤ f ∧ patchLoop o fuel (p :: l) kept = (do
        let r ← patchRound o (p :: l)
        patchLoop o f r.1 (kept ++ r.2)) := by
      intro fuel hf
      obtain ⟨f, rfl⟩ : ∃ f, fuel = f + 1 := ⟨fuel - 1, by omega⟩
      exact ⟨f, by omega, rfl⟩
    rcases patchRound_ok (o := o) G hl with ⟨e, w⟩ | ⟨s, e, w⟩
    · left
      refine ⟨fun fuel hf => ?_, w⟩
      obtain ⟨f, _, ef⟩ := unf fuel hf
      rw [ef, e]; rfl
    · have hwork := w.work
      simp only [List.length_cons] at hwork
      rcases patchLoop_ok G n s.1 (kept ++ s.2) (by omega) w.todo (by
        intro p' hp'
        rcases List.mem_append.mp hp' with hp' | hp'
        · exact hk p' hp'
        · exact w.kept p' hp') with ⟨i1, i2⟩ | ⟨res, i1, i2⟩
      · left
        refine ⟨fun fuel hf => ?_, i2⟩
        obtain ⟨f, hf', ef⟩ := unf fuel hf
        rw [ef, e, ok_bind, i1 f hf']
      · right
        refine ⟨res, fun fuel hf => ?_, i2.kept, fun q => ?_⟩
        · obtain ⟨f, hf', ef⟩ := unf fuel hf
          rw [ef, e, ok_bind, i1 f hf']
        · have h1 := i2.count q
          have h2 := w.count q
          simp only [patchCount_append] at h1 ⊢
          refine ⟨by omega, fun hm => ?_⟩
          have := h1.2 hm
          have := h2.2 hm
          omega

theorem pairwise_of_count : ∀ {l : List IPatch}, (∀ q, patchCount q l ≤ 1) → l.Pairwise fun p p' => ∀ q, ¬ (InBox p.part q ∧ InBox p'.part q)
  | [], _ => .nil
  | p :: l, h => by
    refine .cons (fun p' hp' q hq => ?_) (pairwise_of_count fun q => by have := h q; rw [patchCount_cons] at this; omega)
    have h1 := h q
    rw [patchCount_cons, patchCount_one.1 hq.1] at h1
    have : 0 < patchCount q l := by
      unfold patchCount
      rw [List.countP_pos_iff]
      exact ⟨p', hp', by simpa using hq.2⟩
    omega

/-- The boxes which `createPatchesFromCriterion` gives to `addPatch`, in terms of the grid and of the marked cells. -/
structure PatchesOf (o : BoxOpts K) (st : List Int) (Mk : List Int → Prop) (parts : List (List (Int × Int))) : Prop where
  box : ∀ part ∈ parts, BoxIn st part
  minLen : ∀ part ∈ parts, ∀ r ∈ part, o.minLen ≤ r.2 - r.1
  useful : ∀ part ∈ parts, ∃ q, InBox part q ∧ Mk q
  disj : parts.Pairwise fun a b => ∀ q, ¬ (InBox a q ∧ InBox b q)
  cover : ∀ q, Mk q → ∃ part ∈ parts, InBox part q
  /-- with the marked cells `l` of the patch: a patch of poor efficiency cannot be cut any more, another one respects the limits -/
  limits : ∀ part ∈ parts, ∀ l : List (List Int), l.Nodup → (∀ q, q ∈ l ↔ InBox part q ∧ Mk q) →
    (((l.length : Int) : K) / (((boxDims part).prod : Int) : K) ≤ o.goal ∧ ∀ r ∈ part, r.2 - r.1 < 2 * o.minLen) ∨
    (o.goal < ((l.length : Int) : K) / (((boxDims part).prod : Int) : K) ∧ (boxDims part).prod ≤ o.maxCells ∧ ∀ r ∈ part, r.2 - r.1 ≤ o.maxLen)

theorem createPatches_cases {o : BoxOpts K} {st : List Int} {crit : List Bool} (hm : 1 ≤ o.minLen) (h2 : 2 ≤ st.length) (h3 : st.length ≤ 3)
    (hst : ∀ n ∈ st, o.minLen ≤ n ∧ n ≤ idMax) (hlen : (crit.length : Int) = st.prod) :
    ((∀ fuel, 2 * crit.length ≤ fuel → createPatches o fuel st crit = throwX) ∧
      ∃ part, BoxIn st part ∧ (∀ r ∈ part, r.2 - r.1 < 2 * o.minLen) ∧ (o.maxCells < (boxDims part).prod ∨ ∃ r ∈ part, o.maxLen < r.2 - r.1)) ∨
    ∃ parts, (∀ fuel, 2 * crit.length ≤ fuel → createPatches o fuel st crit = .ok (some parts)) ∧ PatchesOf o st (MarkedCell st crit) parts := by
  have G : AmrGrid o.minLen st := ⟨hm, h2, h3, hst⟩
  obtain ⟨part, ids, red, hf, hb, hll, hin, hmin, hids, hF⟩ := C43_findMinimalPart (minLen := o.minLen) (crit := crit) (by omega) (by omega) h3 hst hlen
  obtain ⟨hrl, hrg⟩ := gather_get hb hids hF
  have hC : ∀ q, InBox part q → (red[(lin (boxDims part) (locPos part q)).toNat]? = some true ↔ MarkedCell st crit q) := by
    intro q hq
    rw [hrg q hq]
    exact ⟨fun h => ⟨hb.grid hq, h⟩, fun h => h.2⟩
  -- the whole grid as a patch
  have hst0 : ∀ n ∈ st, 0 ≤ n := fun n hn => by have := hst n hn; omega
  have hcnt : red.count true = crit.count true := by
    have hW : PatchRaw st (MarkedCell st crit) ⟨crit.count true, crit, st.map fun n => (0, n)⟩ := by
      have hd : boxDims (st.map fun n => ((0 : Int), n)) = st := by simp [boxDims, Function.comp_def]
      have hbw : BoxIn st (st.map fun n => (0, n)) := by
        unfold BoxIn
        rw [List.forall₂_map_left_iff, List.forall₂_same]
        intro n hn
        have := hst0 n hn
        simp only; omega
      have hloc : ∀ {s : List Int} {q : List Int}, InBox (s.map fun n => ((0 : Int), n)) q → locPos (s.map fun n => (0, n)) q = q := by
        intro s
        induction s with
        | nil => intro q hq; cases hq; rfl
        | cons n s ih =>
          intro q hq
          cases hq with
          | cons hx hq =>
            have := ih hq
            simp only [locPos, List.map_cons, List.zipWith_cons_cons, Int.sub_zero] at this ⊢
            rw [this]
      refine ⟨hbw, by simp only; rw [hd]; exact hlen, fun q hq => ?_, rfl⟩
      simp only at hq ⊢
      rw [hd, hloc hq]
      exact ⟨fun h => ⟨hbw.grid hq, h⟩, fun h => h.2⟩
    refine raw_count_eq (p' := ⟨0, red, part⟩) hW ⟨hb, hrl, hC⟩ fun q hk => ⟨fun _ => hin q hk, fun _ => ?_⟩
    have := hk.1
    simp only
    unfold InBox
    rw [List.forall₂_map_right_iff]
    exact this
  generalize hp : (⟨crit.count true, red, part⟩ : IPatch) = p
  have hraw : PatchRaw st (MarkedCell st crit) p := by rw [← hp]; exact ⟨hb, hrl, hC, by simp only; rw [hcnt]⟩
  have hsz : p.crit.length ≤ crit.length := by
    have e : (p.crit.length : Int) = (boxDims p.part).prod := hraw.len
    have h1 : (boxDims part).prod ≤ st.prod := by
      refine (prod_mono ?_).2
      rw [boxDims, List.forall₂_map_left_iff]
      exact hb.imp fun a b h => by omega
    have h2 : p.part = part := by rw [← hp]
    rw [h2] at e
    omega
  have hl0 : ∀ p' ∈ (if p.nbTrue > 0 then [p] else []), PatchOk o.minLen st (MarkedCell st crit) p' := by
    intro p' hp'
    split_ifs at hp' with hpos
    · rw [List.mem_singleton] at hp'
      subst hp'
      have hpart : p'.part = part := by rw [← hp]
      refine ⟨hraw, ?_, ?_, ?_⟩
      · rw [hpart]; exact hll
      · rw [hpart]; exact tight_of_min hm hb hll hin hmin
      · obtain ⟨l, _, hlm, hlc⟩ := hraw.marked
        have : 0 < l.length := by rw [hraw.nb] at hpos; omega
        obtain ⟨q, hq⟩ := List.exists_mem_of_length_pos this
        exact ⟨q, (hlm q).mp hq⟩
    · simp at hp'
  have hwork : patchWork (if p.nbTrue > 0 then [p] else []) ≤ 2 * crit.length := by
    split_ifs
    · simp [patchWork]; omega
    · simp [patchWork]
  have hrun : ∀ fuel, createPatches o fuel st crit = (do
      let res ← patchLoop o fuel (if p.nbTrue > 0 then [p] else []) []
      return res.map fun l => l.map (·.part)) := by
    intro fuel
    unfold createPatches
    rw [if_neg (by simp [hlen]), hf, ok_bind, ← hp]
    simp only [List.map_map, Function.comp_def, Option.getD_some, List.map_id']
  rcases patchLoop_ok G (2 * crit.length) _ [] hwork hl0 (by simp) with ⟨i1, p', hp', s1, s2⟩ | ⟨res, i1, i2, i3⟩
  · left
    refine ⟨fun fuel hfu => by rw [hrun, i1 fuel hfu]; rfl, p'.part, hp'.box, s1, ?_⟩
    rw [← hp'.len]; exact s2
  · right
    have hone : ∀ q, MarkedCell st crit q → patchCount q ((if p.nbTrue > 0 then [p] else []) ++ []) = 1 := by
      intro q hk
      have hq : InBox p.part q := by rw [← hp]; exact hin q hk
      have hpos : p.nbTrue > 0 := by
        obtain ⟨l, _, hlm, hlc⟩ := hraw.marked
        have := List.length_pos_of_mem ((hlm q).mpr ⟨hq, hk⟩)
        rw [hraw.nb]; omega
      rw [if_pos hpos, List.append_nil]
      exact patchCount_one.1 hq
    have hle : ∀ q, patchCount q ((if p.nbTrue > 0 then [p] else []) ++ []) ≤ 1 := by
      intro q
      rw [List.append_nil]
      split_ifs
      · by_cases hq : InBox p.part q
        · rw [patchCount_one.1 hq]
        · rw [patchCount_one.2 hq]; omega
      · simp [patchCount]
    refine ⟨res.map (·.part), fun fuel hfu => by rw [hrun, i1 fuel hfu]; rfl, ?_, ?_, ?_, ?_, ?_, ?_⟩
    · rintro _ hpt
      obtain ⟨p', hp', rfl⟩ := List.mem_map.mp hpt
      exact (i2 p' hp').1.box
    · rintro _ hpt
      obtain ⟨p', hp', rfl⟩ := List.mem_map.mp hpt
      exact (i2 p' hp').1.lens
    · rintro _ hpt
      obtain ⟨p', hp', rfl⟩ := List.mem_map.mp hpt
      exact (i2 p' hp').1.marked1
    · rw [List.pairwise_map]
      exact pairwise_of_count fun q => by have := (i3 q).1; have := hle q; omega
    · intro q hk
      have h1 := (i3 q).2 hk
      rw [hone q hk] at h1
      have : 0 < patchCount q res := by omega
      unfold patchCount at this
      rw [List.countP_pos_iff] at this
      obtain ⟨p', hp', hq⟩ := this
      exact ⟨p'.part, List.mem_map.mpr ⟨p', hp', rfl⟩, by simpa using hq⟩
    · rintro _ hpt l hnd hlm
      obtain ⟨p', hp', rfl⟩ := List.mem_map.mp hpt
      obtain ⟨hok, hfin⟩ := i2 p' hp'
      obtain ⟨l', hnd', hlm', hc'⟩ := hok.marked
      have hll' : l.length = l'.length := ((List.perm_ext_iff_of_nodup hnd hnd').mpr fun q => by rw [hlm, hlm']).length_eq
      have heff : p'.efficiency K = ((l.length : Int) : K) / (((boxDims p'.part).prod : Int) : K) := by
        unfold IPatch.efficiency
        rw [hok.nb, hc', hll', hok.len]
      rw [← heff]
      rcases le_or_gt (p'.efficiency K) o.goal with hg | hg
      · exact .inl ⟨hg, hfin.poor hg⟩
      · refine .inr ⟨hg, ?_, (hfin.good hg).2⟩
        rw [← hok.len]
        exact (hfin.good hg).1

/-- **C90** On a grid of dimension 2 or 3, whatever the criterion and the options with a smallest length from 1 to the number of cells of every axis,
`createPatchesFromCriterion` ends; it either refuses (no patch is added) or adds patches which lie in the grid, have the smallest length along every
axis, do not overlap, hold each a marked cell and together all of them; a patch either is too small to be cut and has a poor efficiency, or respects
the largest number of cells and the largest length. -/
theorem C90_patches {o : BoxOpts K} {st : List Int} {crit : List Bool} (hm : 1 ≤ o.minLen) (h2 : 2 ≤ st.length) (h3 : st.length ≤ 3)
    (hst : ∀ n ∈ st, o.minLen ≤ n ∧ n ≤ idMax) (hlen : (crit.length : Int) = st.prod) :
    (∀ fuel, 2 * crit.length ≤ fuel → createPatches o fuel st crit = throwX) ∨
    ∃ parts, (∀ fuel, 2 * crit.length ≤ fuel → createPatches o fuel st crit = .ok (some parts)) ∧ PatchesOf o st (MarkedCell st crit) parts := by
  rcases createPatches_cases hm h2 h3 hst hlen with ⟨h, _⟩ | h
  · exact .inl h
  · exact .inr h

theorem prod_lt_pow {b : Int} : ∀ {l : List Int}, (∀ x ∈ l, 0 ≤ x ∧ x ≤ b) → 0 ≤ l.prod ∧ l.prod ≤ b ^ l.length
  | [], _ => by simp
  | x :: l, h => by
    obtain ⟨i1, i2⟩ := prod_lt_pow (l := l) fun y hy => h y (by simp [hy])
    have hx := h x (by simp)
    rw [List.prod_cons, List.length_cons, pow_succ, mul_comm (b ^ _)]
    exact ⟨Int.mul_nonneg hx.1 i1, Int.mul_le_mul hx.2 i2 i1 (by omega)⟩

/-- **C90** `createPatchesFromCriterion` does not refuse when a box which is too small to be cut always respects the two upper limits. -/
theorem C90_never_refused {o : BoxOpts K} {st : List Int} {crit : List Bool} (hm : 1 ≤ o.minLen) (h2 : 2 ≤ st.length) (h3 : st.length ≤ 3)
    (hst : ∀ n ∈ st, o.minLen ≤ n ∧ n ≤ idMax) (hlen : (crit.length : Int) = st.prod) (hL : 2 * o.minLen - 1 ≤ o.maxLen)
    (hC : (2 * o.minLen - 1) ^ st.length ≤ o.maxCells) :
    ∃ parts, (∀ fuel, 2 * crit.length ≤ fuel → createPatches o fuel st crit = .ok (some parts)) ∧ PatchesOf o st (MarkedCell st crit) parts := by
  rcases createPatches_cases hm h2 h3 hst hlen with ⟨_, part, hb, hs, h⟩ | h
  · exfalso
    rcases h with h | ⟨r, hr, h⟩
    · have := (prod_lt_pow (b := 2 * o.minLen - 1) (l := boxDims part) fun x hx => ⟨hb.dims_nonneg x hx, by
        obtain ⟨r, hr, rfl⟩ := List.mem_map.mp hx
        have := hs r hr
        omega⟩).2
      have hl : (boxDims part).length = st.length := by simp [boxDims, hb.length_eq]
      rw [hl] at this
      omega
    · have := hs r hr
      omega
  · exact h

/-- The refusals before the loops: a criterion of the wrong size, a smallest length which is negative or larger than an axis. -/
theorem C90_refused {o : BoxOpts K} {st : List Int} {crit : List Bool} (fuel : Nat) (hmax : ∀ n ∈ st, n ≤ idMax)
    (h : (crit.length : Int) ≠ st.prod ∨ o.minLen < 0 ∨ (∃ n ∈ st, n < o.minLen)) : createPatches o fuel st crit = throwX := by
  unfold createPatches
  by_cases hc : (crit.length : Int) ≠ st.prod
  · rw [if_pos hc]
  rw [if_neg hc, C43_throws hmax]
  · rfl
  · rcases h with h | h | h
    · exact absurd h hc
    · exact .inl h
    · exact .inr (.inr (.inr (.inl h)))

def amrDefault : BoxOpts Rat := { goal := 1 / 2, threshold := 7 / 10, minLen := 1, maxLen := 2147483647, maxCells := 2147483647 }

def amrCrit : List Bool := [true, true, false, false, true, false, false, false, false, false, false, false, false, false, true, true]

example : ∃ parts, (∀ fuel, 32 ≤ fuel → createPatches amrDefault fuel [4, 4] amrCrit = .ok (some parts)) ∧ PatchesOf amrDefault [4, 4] (MarkedCell [4, 4] amrCrit) parts :=
  C90_never_refused (o := amrDefault) (st := [4, 4]) (crit := amrCrit) (by decide) (by decide) (by decide) (by decide) (by decide) (by decide) (by decide)

example : createPatches amrDefault 32 [4, 4] amrCrit = .ok (some [[(3, 4), (3, 4)], [(0, 2), (0, 2)], [(2, 3), (3, 4)]]) := by decide +kernel

/-- **C90** (finding) the hole of the example is the layer 2 of the second axis: the cut is made after the layer 2 of the first axis, through the two
neighbouring marked cells of the last row. `FindHole` receives the axis by value. -/
theorem C90_finding_hole_axis : createPatches amrDefault 32 [4, 4] amrCrit = .ok (some [[(3, 4), (3, 4)], [(0, 2), (0, 2)], [(2, 3), (3, 4)]]) := by decide +kernel

/-- **C90** (finding) on a mesh of dimension one the crossings of a second axis are read. -/
theorem C90_finding_dim1 : createPatches amrDefault 10 [3] [true, true, true] = undef := by decide +kernel

/-- **C90** (finding) a smallest length of 0 passes the checks; the holes are then read from the index -1. -/
theorem C90_finding_min0 : createPatches { amrDefault with minLen := 0 } 10 [2, 2] [true, true, true, true] = undef := by decide +kernel

/-- **C90** (finding) a smallest length of 2 with a largest length of 2 is refused on a row of three marked cells. -/
theorem C90_finding_refused : createPatches { amrDefault with minLen := 2, maxLen := 2 } 30 [3, 2] [true, true, true, true, true, true] = throwX := by decide +kernel

/-- **C90** (finding) a row of eight marked cells with a largest length of 4 gives five patches: a patch which is too big is always cut after its first
`minLen` layers, `DissectBigPatch` compares twice the whole patch. -/
theorem C90_finding_dissect : createPatches { amrDefault with maxLen := 4 } 30 [8, 1] (List.replicate 8 true) =
    .ok (some [[(0, 1), (0, 1)], [(1, 2), (0, 1)], [(2, 3), (0, 1)], [(3, 4), (0, 1)], [(4, 8), (0, 1)]]) := by decide +kernel

end MC
