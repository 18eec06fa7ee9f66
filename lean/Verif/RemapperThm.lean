import Verif.RemapperRev
import Mathlib.Algebra.Order.BigOperators.Ring.Finset
import Mathlib.Algebra.Order.Ring.Rat

/-!
# The transfers of the remapper, for every history of uses
-/

set_option linter.unusedSectionVars false

namespace MC
section
open Finset
variable {K : Type} [Field K] [LinearOrder K] [IsStrictOrderedRing K]

/-- A field lies on the support given when the remapper was prepared: same discretization, same number of entities, one measure per entity. -/
structure RLiesOn (f : RField K) (t : RTempl) : Prop where
  disc : f.disc = t.disc
  nbTup : f.nbTup = t.nbTup
  measure : f.measure.length = t.nbTup

/-- The states of a remapper after `setCrudeMatrix` and any number of transfers and reverse transfers between fields lying on the supports.
A call which ends with an exception can only have changed the nature kept by the object. -/
inductive RemReach (src trg : RTempl) (W : List (Row K)) : Rem K → Prop
  | init {r0 r : Rem K} {clock : Nat} (hc : clock ≠ 0) (hs : ∀ row ∈ W, StrictSorted (mapKeys row)) (h : setCrudeMatrix r0 clock src trg W = .ok r) :
      RemReach src trg W r
  | transfer {r r' : Rem K} {f g g' : RField K} {dft : Option K} {junk : K} (hr : RemReach src trg W r) (hf : RLiesOn f src) (hg : RLiesOn g trg)
      (h : transferUnderground r f g dft junk = .ok (r', g')) : RemReach src trg W r'
  | reverse {r r' : Rem K} {f g f' : RField K} {dft junk : K} (hr : RemReach src trg W r) (hf : RLiesOn f src) (hg : RLiesOn g trg)
      (h : reverseTransfer r f g dft junk = .ok (r', f')) : RemReach src trg W r'
  | failed {r : Rem K} (hr : RemReach src trg W r) (nat : Nature) : RemReach src trg W { r with nature := nat }

theorem wr_length {α : Type} {l l' : List α} {i : Int} {v : α} (h : wr l i v = .ok l') : l'.length = l.length := by
  unfold wr at h
  split at h
  · simp only [Except.ok.injEq] at h; rw [← h, List.length_set]
  · exact absurd h (by simp)

theorem minusOne_length {td sd : Int} {a b : List K} {p : List K × List K} (h : minusOneMeasures td sd a b = .ok p) :
    p.1.length = a.length ∧ p.2.length = b.length := by
  rw [minusOneMeasures] at h
  by_cases ht : td = -1
  · rw [if_pos ht] at h
    cases hw : wr b 0 (a.foldl (· + ·) 0) with
    | error e => rw [hw] at h; cases h
    | ok b' =>
      rw [hw, ok_bind] at h
      by_cases hs : sd = -1
      · rw [if_pos hs] at h
        cases hw2 : wr a 0 (b'.foldl (· + ·) 0) with
        | error e => rw [hw2] at h; cases h
        | ok a' =>
          rw [hw2, ok_bind] at h
          simp only [Except.ok.injEq] at h
          rw [← h]; exact ⟨wr_length hw2, wr_length hw⟩
      · rw [if_neg hs, ok_bind] at h
        simp only [Except.ok.injEq] at h
        rw [← h]; exact ⟨rfl, wr_length hw⟩
  · rw [if_neg ht, ok_bind] at h
    by_cases hs : sd = -1
    · rw [if_pos hs] at h
      cases hw2 : wr a 0 (b.foldl (· + ·) 0) with
      | error e => rw [hw2] at h; cases h
      | ok a' =>
        rw [hw2, ok_bind] at h
        simp only [Except.ok.injEq] at h
        rw [← h]; exact ⟨wr_length hw2, rfl⟩
    · rw [if_neg hs, ok_bind] at h
      simp only [Except.ok.injEq] at h
      rw [← h]; exact ⟨rfl, rfl⟩

/-- a successful computation of the denominators keeps the invariant -/
theorem computeDeno_inv {W : List (Row K)} {n m : Nat} (hW : CrudeOK W n m) {r r' : Rem K} (hr : RemInv W n m r) {nat : Nature} {src trg : RField K}
    (hs : src.measure.length = m) (ht : trg.measure.length = n) (h : computeDeno r nat src trg = .ok r') : RemInv W n m r' ∧ r'.ft = r.ft := by
  have fin : ∀ ms mt : List K, ms.length = m → mt.length = n → nat ≠ .noNature →
      (nat = .extensiveMaximum → minusOneMeasures trg.meshDim src.meshDim src.measure trg.measure = .ok (ms, mt)) →
      (nat = .intensiveConservation → minusOneMeasures trg.meshDim src.meshDim trg.measure src.measure = .ok (mt, ms)) → RemInv W n m r' ∧ r'.ft = r.ft := by
    intro ms mt h1 h2 h3 h4 h5
    obtain ⟨d, d1, d2, d3⟩ := deno_measures hW hr h3 h1 h2 h4 h5
    rw [d1, Except.ok.injEq] at h
    rw [← h]
    exact ⟨⟨hr.matrix, d2.pre hW, d3.1, hr.time⟩, rfl⟩
  by_cases hn : nat = .noNature
  · subst hn
    rw [computeDeno, if_pos rfl, computeDenoFromScratch] at h
    cases h
  have hc : computeDeno r nat src trg = computeDenoFromScratch r nat src trg := by
    rw [computeDeno, if_neg hn]
    by_cases h : nat ≠ r.nature
    · rw [if_pos h]
    · rw [if_neg h, if_pos ⟨not_not.mp h, Ne.symm hr.time⟩]
  rw [hc] at h
  cases nat with
  | noNature => exact absurd rfl hn
  | intensiveMaximum => exact fin src.measure trg.measure hs ht hn (by simp) (by simp)
  | extensiveConservation => exact fin src.measure trg.measure hs ht hn (by simp) (by simp)
  | extensiveMaximum =>
    rw [computeDenoFromScratch] at h
    cases hm : minusOneMeasures trg.meshDim src.meshDim src.measure trg.measure with
    | error e => rw [hm] at h; cases h
    | ok p => exact fin p.1 p.2 ((minusOne_length hm).1.trans hs) ((minusOne_length hm).2.trans ht) hn (fun _ => hm ▸ rfl) (by simp)
  | intensiveConservation =>
    rw [computeDenoFromScratch] at h
    cases hm : minusOneMeasures trg.meshDim src.meshDim trg.measure src.measure with
    | error e => rw [hm] at h; cases h
    | ok p => exact fin p.2 p.1 ((minusOne_length hm).2.trans hs) ((minusOne_length hm).1.trans ht) hn (by simp) (fun _ => hm ▸ rfl)

/-- inversion of a successful sequence -/
theorem bind_ok_inv {α β : Type} {x : M α} {k : α → M β} {b : β} (h : (x >>= k) = .ok b) : ∃ a, x = .ok a ∧ k a = .ok b := by
  cases x with
  | error e => cases h
  | ok a => exact ⟨a, rfl, h⟩

/-- the acceptance test of `setCrudeMatrix` -/
theorem setCrude_ok {r0 r : Rem K} {clock : Nat} {src trg : RTempl} {W : List (Row K)} (hs : ∀ row ∈ W, StrictSorted (mapKeys row))
    (h : setCrudeMatrix r0 clock src trg W = .ok r) : CrudeOK W trg.nbTup src.nbTup ∧
      r = ⟨some (src, trg), W, List.replicate W.length [], List.replicate src.nbTup [], r0.nature, clock⟩ := by
  rw [setCrudeMatrix] at h
  split at h
  · cases h
  · rename_i h1
    split at h
    · cases h
    · rename_i h2
      simp only [Except.ok.injEq] at h
      refine ⟨⟨not_not.mp h1, hs, fun row hrow e he => ?_⟩, h.symm⟩
      simp only [List.any_eq_true, not_exists, not_and, decide_eq_true_eq, not_or] at h2
      have := h2 row hrow e he
      omega

theorem RemReach.inv {src trg : RTempl} {W : List (Row K)} {r : Rem K} (h : RemReach src trg W r) :
    CrudeOK W trg.nbTup src.nbTup ∧ RemInv W trg.nbTup src.nbTup r ∧ r.ft = some (src, trg) := by
  induction h with
  | init hc hs h =>
    obtain ⟨h1, rfl⟩ := setCrude_ok hs h
    refine ⟨h1, ⟨rfl, ⟨by simp [h1.len], fun i hi => ?_⟩, by simp, hc⟩, rfl⟩
    simp only
    rw [List.getD_eq_getElem _ _ (by simp [h1.len, hi]), List.getElem_replicate]
    exact ⟨List.Pairwise.nil, fun k hk => absurd hk (by simp [mapKeys])⟩
  | transfer hr hf hg h ih =>
    obtain ⟨i1, i2, i3⟩ := ih
    rw [transferUnderground] at h
    obtain ⟨a, -, h⟩ := bind_ok_inv h
    rw [i3] at h
    simp only at h
    split at h; · cases h
    split at h; · cases h
    split at h; · cases h
    split at h; · cases h
    obtain ⟨res, -, h⟩ := bind_ok_inv h
    obtain ⟨r1, hd, h⟩ := bind_ok_inv h
    obtain ⟨res', -, h⟩ := bind_ok_inv h
    simp only [Except.ok.injEq, Prod.mk.injEq] at h
    obtain ⟨j1, j2⟩ := computeDeno_inv i1 i2 hf.measure hg.measure hd
    rw [← h.1]
    exact ⟨i1, j1, j2.trans i3⟩
  | reverse hr hf hg h ih =>
    obtain ⟨i1, i2, i3⟩ := ih
    rw [reverseTransfer, i3] at h
    simp only at h
    obtain ⟨a, -, h⟩ := bind_ok_inv h
    split at h; · cases h
    split at h; · cases h
    split at h; · cases h
    split at h; · cases h
    obtain ⟨res, -, h⟩ := bind_ok_inv h
    obtain ⟨r1, hd, h⟩ := bind_ok_inv h
    obtain ⟨res', -, h⟩ := bind_ok_inv h
    simp only [Except.ok.injEq, Prod.mk.injEq] at h
    obtain ⟨j1, j2⟩ := computeDeno_inv i1 i2 hf.measure hg.measure hd
    rw [← h.1]
    exact ⟨i1, j1, j2.trans i3⟩
  | failed hr nat ih =>
    obtain ⟨i1, i2, i3⟩ := ih
    exact ⟨i1, ⟨i2.matrix, i2.deno, i2.denoR, i2.time⟩, i3⟩

/-- A field carries the values `v` with `nc` components. -/
def Holds (f : RField K) (nc : Nat) (v : List K) : Prop := f.arr = some (nc, v) ∧ v.length = f.nbTup * nc

/-- The array of the field which receives the values: absent, or with the right shape; `old` is its content before the call. -/
def Receives (f : RField K) (nc : Nat) (old : List K) : Prop := (f.arr = none ∨ f.arr = some (nc, old)) ∧ old.length = f.nbTup * nc

theorem Holds.check {f : RField K} {nc : Nat} {v : List K} (h : Holds f nc v) : f.check = .ok (nc, v) := by
  rw [RField.check, h.1]
  exact if_pos h.2

theorem Receives.ok {f : RField K} {nc : Nat} {old : List K} (h : Receives f nc old) (ha : f.arr = some (nc, old)) (b : Bool) (junk : K) :
    receiver f nc b junk = .ok old := by
  rw [receiver, ha]
  simp only [Holds.check ⟨ha, h.2⟩, ok_bind, ne_eq, not_true_eq_false, if_false]

/-- The measures which a nature uses: those of the meshes, unless a mesh has dimension -1. -/
def PlainMeasures (nat : Nature) (src trg : RField K) : Prop := nat = .intensiveMaximum ∨ nat = .extensiveConservation ∨ (src.meshDim ≠ -1 ∧ trg.meshDim ≠ -1)

/-- the general form, with the measures `ms` and `mt` after the correction for meshes of dimension -1 -/
theorem transfer_gen {src trg : RTempl} {W : List (Row K)} {r : Rem K} (hr : RemReach src trg W r) {f g : RField K} (hf : RLiesOn f src) (hg : RLiesOn g trg)
    (hnat : f.nature = g.nature) (hn : f.nature ≠ .noNature) {ms mt : List K} (hms : ms.length = src.nbTup) (hmt : mt.length = trg.nbTup)
    (hex : f.nature = .extensiveMaximum → minusOneMeasures g.meshDim f.meshDim f.measure g.measure = .ok (ms, mt))
    (hic : f.nature = .intensiveConservation → minusOneMeasures g.meshDim f.meshDim g.measure f.measure = .ok (mt, ms))
    {nc : Nat} {S old : List K} (hS : Holds f nc S) (hold : Receives g nc old) {dft : Option K} (hd : dft = none → g.arr = some (nc, old)) (junk : K) :
    ∃ r' T, transferUnderground r f g dft junk = .ok (r', { g with arr := some (nc, T) }) ∧ RemReach src trg W r' ∧ T.length = trg.nbTup * nc ∧
      ∀ i < trg.nbTup, ∀ c < nc, rtup nc T i c = if W.getD i [] = [] then dft.getD (rtup nc old i c) else
        ∑ j ∈ range src.nbTup, rtup nc S j c * (coef W i j / denomOf f.nature W trg.nbTup src.nbTup (fun j => ms.getD j 0) (fun i => mt.getD i 0) i j) := by
  obtain ⟨i1, i2, i3⟩ := hr.inv
  obtain ⟨d, d1, d2, d3⟩ := deno_measures i1 i2 hn hms hmt hex hic
  obtain ⟨res, hres1, hres2, hres3⟩ : ∃ res : List K, receiver g nc (dft = none) junk = .ok res ∧ res.length = trg.nbTup * nc ∧ (dft = none → res = old) := by
    rcases hold.1 with h | h
    · have : dft ≠ none := fun h' => by rw [hd h'] at h; cases h
      rw [receiver, h]
      exact ⟨_, if_neg (by simpa using this), by simp [hg.nbTup], fun h' => absurd h' this⟩
    · exact ⟨old, hold.ok h _ _, by rw [hold.2, hg.nbTup], fun _ => rfl⟩
  obtain ⟨T, T1, T2, T3⟩ := computeProduct_ok i1 (r := { r with nature := f.nature, deno := d.1, denoR := d.2 }) i2.matrix d2 (nc := nc) (input := S) (res := res)
    (by rw [hS.2, hf.nbTup]) hres2 dft
  have hrun : transferUnderground r f g dft junk = .ok ({ r with nature := f.nature, deno := d.1, denoR := d.2 }, { g with arr := some (nc, T) }) := by
    rw [transferUnderground, hS.check, ok_bind, i3]
    simp only
    rw [if_neg (not_not.mpr hf.disc.symm), if_neg (not_not.mpr hg.disc.symm), if_neg (not_not.mpr hnat), if_neg (not_not.mpr hf.nbTup)]
    rw [i3] at d1 T1
    rw [hres1, ok_bind, d1, ok_bind, T1, ok_bind]
  refine ⟨_, T, hrun, .transfer hr hf hg hrun, T2, fun i hi c hc => ?_⟩
  rw [T3 i hi c hc]
  by_cases he : W.getD i [] = []
  · rw [if_pos he, if_pos he]
    cases hd' : dft with
    | none => rw [hres3 hd']
    | some v => rfl
  · rw [if_neg he, if_neg he]

theorem reverse_gen {src trg : RTempl} {W : List (Row K)} {r : Rem K} (hr : RemReach src trg W r) {f g : RField K} (hf : RLiesOn f src) (hg : RLiesOn g trg)
    (hnat : f.nature = g.nature) (hn : f.nature ≠ .noNature) {ms mt : List K} (hms : ms.length = src.nbTup) (hmt : mt.length = trg.nbTup)
    (hex : f.nature = .extensiveMaximum → minusOneMeasures g.meshDim f.meshDim f.measure g.measure = .ok (ms, mt))
    (hic : f.nature = .intensiveConservation → minusOneMeasures g.meshDim f.meshDim g.measure f.measure = .ok (mt, ms))
    {nc : Nat} {T old : List K} (hT : Holds g nc T) (hold : Receives f nc old) (dft junk : K) :
    ∃ r' S, reverseTransfer r f g dft junk = .ok (r', { f with arr := some (nc, S) }) ∧ RemReach src trg W r' ∧ S.length = src.nbTup * nc ∧
      ∀ j < src.nbTup, ∀ c < nc,
        ((∃ i < trg.nbTup, inRow W i j) → rtup nc S j c = ∑ i ∈ range trg.nbTup,
          rtup nc T i c * (coef W i j / denomRevOf f.nature W trg.nbTup src.nbTup (fun j => ms.getD j 0) (fun i => mt.getD i 0) i j)) ∧
        ((¬ ∃ i < trg.nbTup, inRow W i j) → rtup nc S j c = dft) := by
  obtain ⟨i1, i2, i3⟩ := hr.inv
  obtain ⟨d, d1, d2, d3⟩ := deno_measures i1 i2 hn hms hmt hex hic
  obtain ⟨res, hres1, hres2⟩ : ∃ res : List K, receiver f nc false junk = .ok res ∧ res.length = src.nbTup * nc := by
    rcases hold.1 with h | h
    · rw [receiver, h]
      exact ⟨_, if_neg (by simp), by simp [hf.nbTup]⟩
    · exact ⟨old, hold.ok h _ _, by rw [hold.2, hf.nbTup]⟩
  obtain ⟨S, S1, S2, S3⟩ := computeReverseProduct_ok i1 (r := { r with nature := f.nature, deno := d.1, denoR := d.2 }) i2.matrix d3 (nc := nc) (input := T) (res := res)
    (by rw [hT.2, hg.nbTup]) hres2 dft
  have hrun : reverseTransfer r f g dft junk = .ok ({ r with nature := f.nature, deno := d.1, denoR := d.2 }, { f with arr := some (nc, S) }) := by
    rw [reverseTransfer, i3]
    simp only
    rw [hT.check, ok_bind, if_neg (not_not.mpr hf.disc.symm), if_neg (not_not.mpr hg.disc.symm), if_neg (not_not.mpr hnat), if_neg (not_not.mpr hg.nbTup)]
    rw [i3] at d1 S1
    rw [hres1, ok_bind, d1, ok_bind, S1, ok_bind]
  exact ⟨_, S, hrun, .reverse hr hf hg hrun, S2, S3⟩

theorem plain_ex {f g : RField K} (h : PlainMeasures f.nature f g) : f.nature = .extensiveMaximum →
    minusOneMeasures g.meshDim f.meshDim f.measure g.measure = .ok (f.measure, g.measure) := by
  intro he
  rcases h with h | h | h
  · rw [h] at he; cases he
  · rw [h] at he; cases he
  · exact minusOne_id h.2 h.1 _ _

theorem plain_ic {f g : RField K} (h : PlainMeasures f.nature f g) : f.nature = .intensiveConservation →
    minusOneMeasures g.meshDim f.meshDim g.measure f.measure = .ok (g.measure, f.measure) := by
  intro he
  rcases h with h | h | h
  · rw [h] at he; cases he
  · rw [h] at he; cases he
  · exact minusOne_id h.2 h.1 _ _

/-- **C81.** A transfer gives on every target entity the sum of the source values weighted by the coefficients of the matrix divided by the
denominators of the nature, and the default value (or, for a partial transfer, the former value) on the entities with no coefficient. -/
theorem C81_transfer {src trg : RTempl} {W : List (Row K)} {r : Rem K} (hr : RemReach src trg W r) {f g : RField K} (hf : RLiesOn f src) (hg : RLiesOn g trg)
    (hnat : f.nature = g.nature) (hn : f.nature ≠ .noNature) (hp : PlainMeasures f.nature f g)
    {nc : Nat} {S old : List K} (hS : Holds f nc S) (hold : Receives g nc old) {dft : Option K} (hd : dft = none → g.arr = some (nc, old)) (junk : K) :
    ∃ r' T, transferUnderground r f g dft junk = .ok (r', { g with arr := some (nc, T) }) ∧ RemReach src trg W r' ∧ T.length = trg.nbTup * nc ∧
      ∀ i < trg.nbTup, ∀ c < nc, rtup nc T i c = if W.getD i [] = [] then dft.getD (rtup nc old i c) else
        ∑ j ∈ range src.nbTup, rtup nc S j c *
          (coef W i j / denomOf f.nature W trg.nbTup src.nbTup (fun j => f.measure.getD j 0) (fun i => g.measure.getD i 0) i j) :=
  transfer_gen hr hf hg hnat hn hf.measure hg.measure (plain_ex hp) (plain_ic hp) hS hold hd junk

/-- **C81.** A reverse transfer uses the transposed matrix with the denominators of the exchange of the two sides. -/
theorem C81_reverse {src trg : RTempl} {W : List (Row K)} {r : Rem K} (hr : RemReach src trg W r) {f g : RField K} (hf : RLiesOn f src) (hg : RLiesOn g trg)
    (hnat : f.nature = g.nature) (hn : f.nature ≠ .noNature) (hp : PlainMeasures f.nature f g)
    {nc : Nat} {T old : List K} (hT : Holds g nc T) (hold : Receives f nc old) (dft junk : K) :
    ∃ r' S, reverseTransfer r f g dft junk = .ok (r', { f with arr := some (nc, S) }) ∧ RemReach src trg W r' ∧ S.length = src.nbTup * nc ∧
      ∀ j < src.nbTup, ∀ c < nc,
        ((∃ i < trg.nbTup, inRow W i j) → rtup nc S j c = ∑ i ∈ range trg.nbTup, rtup nc T i c *
          (coef W i j / denomRevOf f.nature W trg.nbTup src.nbTup (fun j => f.measure.getD j 0) (fun i => g.measure.getD i 0) i j)) ∧
        ((¬ ∃ i < trg.nbTup, inRow W i j) → rtup nc S j c = dft) :=
  reverse_gen hr hf hg hnat hn hf.measure hg.measure (plain_ex hp) (plain_ic hp) hT hold dft junk

/-! A matrix with three source entities and three target entities, the last of which meets nothing. -/

/-- source support -/
def exSrc : RTempl := ⟨0, 3⟩
/-- target support -/
def exTrg : RTempl := ⟨0, 3⟩
/-- crude matrix -/
def exW : List (Row ℚ) := [[(0, 1), (1, 2)], [(1, 1), (2, 4)], []]
/-- remapper prepared with the matrix -/
def exRem : Rem ℚ := ⟨some (exSrc, exTrg), exW, [[], [], []], [[], [], []], .noNature, 5⟩
/-- source field -/
def exF (nat : Nature) : RField ℚ := ⟨0, nat, 3, 2, [1, 3, 4], some (2, [1, 10, 2, 20, 6, 60])⟩
/-- target field -/
def exG (nat : Nature) : RField ℚ := ⟨0, nat, 3, 2, [3, 6, 1], some (2, [0, 0, 0, 0, 7, 8])⟩

theorem exRem_reach : RemReach exSrc exTrg exW exRem :=
  .init (r0 := newRemapper 3) (clock := 5) (by decide) (by unfold StrictSorted exW; decide +kernel) (by decide +kernel)

theorem exF_on (nat : Nature) : RLiesOn (exF nat) exSrc := ⟨rfl, rfl, rfl⟩
theorem exG_on (nat : Nature) : RLiesOn (exG nat) exTrg := ⟨rfl, rfl, rfl⟩
theorem exPlain (nat : Nature) : PlainMeasures nat (exF nat) (exG nat) := Or.inr (Or.inr ⟨by simp [exF], by simp [exG]⟩)
theorem exF_holds (nat : Nature) : Holds (exF nat) 2 [1, 10, 2, 20, 6, 60] := ⟨rfl, rfl⟩
theorem exG_holds (nat : Nature) : Holds (exG nat) 2 [0, 0, 0, 0, 7, 8] := ⟨rfl, rfl⟩
theorem exF_receives (nat : Nature) : Receives (exF nat) 2 [1, 10, 2, 20, 6, 60] := ⟨Or.inr rfl, rfl⟩
theorem exG_receives (nat : Nature) : Receives (exG nat) 2 [0, 0, 0, 0, 7, 8] := ⟨Or.inr rfl, rfl⟩

-- the hypotheses of `C81_transfer` and `C81_reverse` are met, for every nature, before and after other transfers
example (nat : Nature) (hn : nat ≠ .noNature) := C81_transfer exRem_reach (exF_on nat) (exG_on nat) rfl hn (exPlain nat) (exF_holds nat)
  (exG_receives nat) (dft := some 9) (by simp) 0
example (nat : Nature) (hn : nat ≠ .noNature) := C81_transfer exRem_reach (exF_on nat) (exG_on nat) rfl hn (exPlain nat) (exF_holds nat)
  (exG_receives nat) (dft := none) (fun _ => rfl) 0
example (nat : Nature) (hn : nat ≠ .noNature) := C81_reverse exRem_reach (exF_on nat) (exG_on nat) rfl hn (exPlain nat) (exG_holds nat)
  (exF_receives nat) 9 0
-- the values of a transfer and of a partial transfer which follows another transfer
example : (transferUnderground exRem (exF .intensiveMaximum) (exG .intensiveMaximum) (some 9) 0).map (fun p => p.2.arr) =
    .ok (some (2, [5 / 3, 50 / 3, 26 / 5, 52, 9, 9])) := by decide +kernel
example : ((transferUnderground exRem (exF .intensiveMaximum) (exG .intensiveMaximum) (some 9) 0).bind fun p =>
    (transferUnderground p.1 (exF .extensiveConservation) (exG .extensiveConservation) none 0)).map (fun p => p.2.arr) =
    .ok (some (2, [7 / 3, 70 / 3, 20 / 3, 200 / 3, 7, 8])) := by decide +kernel

end
end MC
