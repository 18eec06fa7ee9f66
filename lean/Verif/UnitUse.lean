import Verif.UnitThm
import Mathlib.Tactic.NormNum

/-!
# Units of measure: names, amounts, conversions
-/

namespace MC

/-! ## Names -/

theorem unitScan_some {text before p : List Char} {d : UDec} (h : unitScan before text = some (p, d)) :
    ∃ u, p ++ u = before ++ text ∧ unitFind u = some d := by
  induction text generalizing before with
  | nil => simp [unitScan] at h
  | cons c r ih =>
    unfold unitScan at h
    cases hf : unitFind (c :: r) with
    | some e =>
      rw [hf] at h
      simp only [Option.some.injEq, Prod.mk.injEq] at h
      obtain ⟨rfl, rfl⟩ := h
      exact ⟨c :: r, rfl, hf⟩
    | none =>
      rw [hf] at h
      obtain ⟨u, hu, hd⟩ := ih h
      exact ⟨u, by simpa using hu, hd⟩

theorem unitFind_mem {u : List Char} {d : UDec} (h : unitFind u = some d) : (u, d) ∈ unitTable := by
  unfold unitFind at h
  cases hf : unitTable.find? (fun r => r.1 = u) with
  | none => rw [hf] at h; simp at h
  | some r =>
    rw [hf] at h
    have h1 := List.mem_of_find?_eq_some hf
    have h2 := List.find?_some hf
    simp only [Option.map_some, Option.some.injEq, decide_eq_true_eq] at h h2
    subst h h2
    exact h1

theorem prefFind_mem {u : List Char} {q : ℚ} (h : prefFind u = some q) : (u, q) ∈ prefNames.zip prefPow := by
  unfold prefFind at h
  cases hf : (prefNames.zip prefPow).find? (fun r => r.1 = u) with
  | none => rw [hf] at h; simp at h
  | some r =>
    rw [hf] at h
    have h1 := List.mem_of_find?_eq_some hf
    have h2 := List.find?_some hf
    simp only [Option.map_some, Option.some.injEq, decide_eq_true_eq] at h h2
    subst h h2
    exact h1

theorem unit_alone : ∀ r ∈ unitTable, unitInfo r.1 = .ok r.2 := by decide +kernel

theorem unit_prefixed : ∀ p ∈ prefNames.zip prefPow, ∀ r ∈ unitTable,
    unitInfo (p.1 ++ r.1) = .ok { r.2 with add := 0, mul := r.2.mul * p.2 } := by decide +kernel

/-- The names which are recognised are the units of the table and a prefix of the table followed by a unit of the table.  No name is
taken for another one. -/
theorem C107_names (text : List Char) (d : UDec) :
    unitInfo text = .ok d ↔ (text, d) ∈ unitTable ∨
      ∃ p q u e, (p, q) ∈ prefNames.zip prefPow ∧ (u, e) ∈ unitTable ∧ text = p ++ u ∧ d = { e with add := 0, mul := e.mul * q } := by
  constructor
  · intro h
    unfold unitInfo at h
    cases hs : unitScan [] text with
    | none => rw [hs] at h; exact nomatch h
    | some r =>
      obtain ⟨p, e⟩ := r
      rw [hs] at h
      obtain ⟨u, hu, he⟩ := unitScan_some hs
      simp only [List.nil_append] at hu
      simp only at h
      split at h
      · rename_i hp
        subst hp
        simp only [Except.ok.injEq] at h
        subst h
        simp only [List.nil_append] at hu
        subst hu
        exact Or.inl (unitFind_mem he)
      · cases hq : prefFind p with
        | none => rw [hq] at h; exact nomatch h
        | some q =>
          rw [hq] at h
          simp only [Except.ok.injEq] at h
          exact Or.inr ⟨p, q, u, e, prefFind_mem hq, unitFind_mem he, hu.symm, h.symm⟩
  · rintro (h | ⟨p, q, u, e, hp, hu, rfl, rfl⟩)
    · exact unit_alone _ h
    · exact unit_prefixed _ hp _ hu

/-- Any other text throws. -/
theorem C107_names_other (text : List Char) (h1 : ∀ d, (text, d) ∉ unitTable)
    (h2 : ∀ r ∈ prefNames.zip prefPow, ∀ s ∈ unitTable, text ≠ r.1 ++ s.1) : unitInfo text = throwX := by
  have hn : ∀ d, unitInfo text ≠ .ok d := by
    intro d h
    rcases (C107_names text d).mp h with h | ⟨p, q, u, e, hp, hu, ht, _⟩
    · exact h1 d h
    · exact h2 _ hp _ hu ht
  unfold unitInfo at hn ⊢
  split
  · rfl
  · rename_i b d hs
    rw [hs] at hn
    simp only at hn ⊢
    split
    · rename_i hb; exact absurd (if_pos hb) (hn d)
    · rename_i hb
      rw [if_neg hb] at hn
      cases hq : prefFind b with
      | none => rfl
      | some q => rw [hq] at hn; exact absurd rfl (hn _)

/-- Both lists of names have no repetition. -/
theorem C107_names_once : (unitTable.map (·.1)).Nodup ∧ (prefNames.zip prefPow).length = 22 ∧ unitTable.length = 29 ∧ prefNames.Nodup := by
  decide +kernel

theorem table_factor : ∀ r ∈ unitTable, 0 < r.2.mul ∧ (r.2.add = 0 ∨ r.2.mul = 1) := by decide +kernel

theorem prefix_factor : ∀ r ∈ prefNames.zip prefPow, 0 < r.2 := by decide +kernel

/-- The factor of a recognised name is positive, and only names whose factor is 1 have something to add. -/
theorem C107_names_factor {text : List Char} {d : UDec} (h : unitInfo text = .ok d) : 0 < d.mul ∧ (d.add = 0 ∨ d.mul = 1) := by
  rcases (C107_names text d).mp h with h | ⟨p, q, u, e, hp, hu, rfl, rfl⟩
  · exact table_factor _ h
  · exact ⟨mul_pos (table_factor _ hu).1 (prefix_factor _ hp), Or.inl rfl⟩

/-- The base units: gram, metre, second, ampere and kelvin, in this order. -/
theorem C107_base : unitInfo ['g'] = .ok { g := 1, m := 0, s := 0, a := 0, k := 0, add := 0, mul := 1 } ∧
    unitInfo ['m'] = .ok { g := 0, m := 1, s := 0, a := 0, k := 0, add := 0, mul := 1 } ∧
    unitInfo ['s'] = .ok { g := 0, m := 0, s := 1, a := 0, k := 0, add := 0, mul := 1 } ∧
    unitInfo ['A'] = .ok { g := 0, m := 0, s := 0, a := 1, k := 0, add := 0, mul := 1 } ∧
    unitInfo ['K'] = .ok { g := 0, m := 0, s := 0, a := 0, k := 1, add := 0, mul := 1 } := by
  refine ⟨?_, ?_, ?_, ?_, ?_⟩ <;> decide +kernel

/-- the prefixes of the International System (1991), u being micro -/
def siPrefixes : List (List Char × Int) :=
  [(['y'], -24), (['z'], -21), (['a'], -18), (['f'], -15), (['p'], -12), (['n'], -9), (['u'], -6), (['µ'], -6), (['m'], -3), (['c'], -2), (['d'], -1),
    (['d', 'a'], 1), (['h'], 2), (['k'], 3), (['M'], 6), (['G'], 9), (['T'], 12), (['P'], 15), (['E'], 18), (['Z'], 21), (['Y'], 24)]

/-- Each prefix of the International System multiplies each unit by its power of ten. -/
theorem C107_prefixes : ∀ r ∈ siPrefixes, ∀ u e, (u, e) ∈ unitTable → unitInfo (r.1 ++ u) = .ok { e with add := 0, mul := e.mul * 10 ^ r.2 } := by
  have h : ∀ r ∈ siPrefixes, (r.1, (10 : ℚ) ^ r.2) ∈ prefNames.zip prefPow := by decide +kernel
  intro r hr u e hu
  exact (C107_names _ _).mpr (Or.inr ⟨r.1, _, u, e, h r hr, hu, rfl, rfl⟩)

example : unitInfo ['k', 'P', 'a'] = .ok ⟨1, -1, -2, 0, 0, 0, 10 ^ 6⟩ := by decide +kernel
example : unitInfo ['m', 'm'] = .ok ⟨0, 1, 0, 0, 0, 0, 1 / 1000⟩ ∧ unitInfo ['x', 'm'] = throwX ∧ unitInfo ['k', 'i'] = throwX := by
  decide +kernel

/-! ## Amounts -/

/-- Amounts of the five base units, in whatever system. -/
structure BaseAmounts where
  g : ℚ
  m : ℚ
  s : ℚ
  a : ℚ
  k : ℚ
  g0 : g ≠ 0
  m0 : m ≠ 0
  s0 : s ≠ 0
  a0 : a ≠ 0
  k0 : k ≠ 0

/-- The amount of one unit. -/
def UDec.amount (ρ : BaseAmounts) (d : UDec) : ℚ := d.mul * (ρ.g ^ d.g * ρ.m ^ d.m * ρ.s ^ d.s * ρ.a ^ d.a * ρ.k ^ d.k)

/-- The amount of a written expression: the arithmetic of numbers, where a name stands for the amount of its unit. -/
def Cst.amount (A : Arith ℚ) (ρ : BaseAmounts) : Cst → ℚ
  | .num l => A.lit l
  | .var x => match unitInfo x with
    | .ok d => d.amount ρ
    | _ => 0
  | .sign sg e => (-1) ^ sg.count '-' * e.amount A ρ
  | .call _ e => e.amount A ρ
  | .bin .mult a b => a.amount A ρ * b.amount A ρ
  | .bin .div a b => a.amount A ρ / b.amount A ρ
  | .bin .pow a b => a.amount A ρ ^ (b.amount A ρ).num
  | _ => 0

theorem amount_adim (ρ : BaseAmounts) {d : UDec} (h : d.g = 0 ∧ d.m = 0 ∧ d.s = 0 ∧ d.a = 0 ∧ d.k = 0) : d.amount ρ = d.mul := by
  obtain ⟨h1, h2, h3, h4, h5⟩ := h
  simp [UDec.amount, h1, h2, h3, h4, h5]

theorem unit_amount (A : Arith ℚ) (ρ : BaseAmounts) (c : Cst) (d : UDec) (h : c.unit A = some d) : d.amount ρ = c.amount A ρ := by
  induction c generalizing d with
  | num l =>
    simp only [Cst.unit] at h
    split at h
    · simp only [Option.some.injEq] at h
      subst h
      simp [UDec.amount, Cst.amount]
    · exact nomatch h
  | var x =>
    simp only [Cst.unit] at h
    simp only [Cst.amount]
    cases hx : unitInfo x with
    | ok e => rw [hx] at h; simp only [Option.some.injEq] at h; subst h; rfl
    | error e => rw [hx] at h; exact nomatch h
  | sign sg e ih =>
    simp only [Cst.unit, Option.map_eq_some_iff] at h
    obtain ⟨d', h', rfl⟩ := h
    simp only [Cst.amount, ← ih d' h']
    by_cases ho : sg.count '-' % 2 = 1
    · rw [if_pos ho, Odd.neg_one_pow (Nat.odd_iff.mpr ho)]
      simp [UDec.amount]
    · rw [if_neg ho, Even.neg_one_pow (Nat.even_iff.mpr (by omega)), one_mul]
  | call f e ih =>
    simp only [Cst.unit] at h
    split at h
    · exact ih d h
    · exact nomatch h
  | call2 f a b => exact nomatch h
  | callIf a b c => exact nomatch h
  | bin op a b iha ihb =>
    simp only [Cst.unit, Option.bind_eq_some_iff] at h
    obtain ⟨x, hx, y, hy, h⟩ := h
    have ha := iha x hx
    have hb := ihb y hy
    obtain ⟨g, m, s, am, k, g0, m0, s0, a0, k0⟩ := ρ
    cases op with
    | mult =>
      simp only [binUnit, Option.some.injEq] at h
      subst h
      simp only [Cst.amount, ← ha, ← hb, UDec.amount, zpow_add₀ g0, zpow_add₀ m0, zpow_add₀ s0, zpow_add₀ a0, zpow_add₀ k0]
      ring
    | div =>
      simp only [binUnit] at h
      split at h
      · exact nomatch h
      simp only [Option.some.injEq] at h
      subst h
      simp only [Cst.amount, ← ha, ← hb, UDec.amount, zpow_sub₀ g0, zpow_sub₀ m0, zpow_sub₀ s0, zpow_sub₀ a0, zpow_sub₀ k0, div_eq_mul_inv, mul_inv]
      ring
    | pow =>
      simp only [binUnit] at h
      split at h
      · rename_i hc
        simp only [Option.some.injEq] at h
        subst h
        rw [amount_adim _ hc.1] at hb
        simp only [Cst.amount, ← ha, ← hb, UDec.amount, mul_zpow, zpow_mul]
      · exact nomatch h
    | _ => exact nomatch h

/-- What a text is interpreted as is worth the number which arithmetic gives, each name being worth its unit, whatever the amounts of
the base units are. -/
theorem C107_amount {A : Arith ℚ} {c : Cst} {text : List Char} (h : Written A c text) {d : UDec} (hd : evaluateUnit A text = .ok d)
    (ρ : BaseAmounts) : d.amount ρ = c.amount A ρ :=
  unit_amount A ρ c d ((C107_interpret h d).mp hd)

/-- No sign before the whole expression. -/
def Cst.unsigned : Cst → Bool
  | .sign _ _ => false
  | .call _ e => e.unsigned
  | _ => true

theorem unit_factor (A : Arith ℚ) (c : Cst) (hc : c.unsigned = true) (d : UDec) (h : c.unit A = some d) : d.add = 0 ∨ d.mul = 1 := by
  induction c generalizing d with
  | num l =>
    simp only [Cst.unit] at h
    split at h
    · simp only [Option.some.injEq] at h; subst h; exact Or.inl rfl
    · exact nomatch h
  | var x =>
    simp only [Cst.unit] at h
    cases hx : unitInfo x with
    | ok e => rw [hx] at h; simp only [Option.some.injEq] at h; subst h; exact (C107_names_factor hx).2
    | error e => rw [hx] at h; exact nomatch h
  | sign sg e => exact nomatch hc
  | call f e ih =>
    simp only [Cst.unit] at h
    split at h
    · exact ih hc d h
    · exact nomatch h
  | call2 f a b => exact nomatch h
  | callIf a b c => exact nomatch h
  | bin op a b =>
    simp only [Cst.unit, Option.bind_eq_some_iff] at h
    obtain ⟨x, _, y, _, h⟩ := h
    left
    cases op with
    | mult => simp only [binUnit, Option.some.injEq] at h; subst h; rfl
    | div =>
      simp only [binUnit] at h
      split at h
      · exact nomatch h
      · simp only [Option.some.injEq] at h; subst h; rfl
    | pow =>
      simp only [binUnit] at h
      split at h
      · simp only [Option.some.injEq] at h; subst h; rfl
      · exact nomatch h
    | _ => exact nomatch h

/-- What the theorems on conversions ask from the units holds for every text without a sign in front: what is added is 0 or the factor
is 1. -/
theorem C107_plain {A : Arith ℚ} {c : Cst} {text : List Char} (h : Written A c text) (hc : c.unsigned = true) {d : UDec}
    (hd : evaluateUnit A text = .ok d) : d.add = 0 ∨ d.mul = 1 :=
  unit_factor A c hc d ((C107_interpret h d).mp hd)

/-! ## Conversions -/

/-- the same exponents -/
def SameDim (x y : UDec) : Prop := x.g = y.g ∧ x.m = y.m ∧ x.s = y.s ∧ x.a = y.a ∧ x.k = y.k

theorem same_iff (x y : UDec) : x.same y = true ↔ SameDim x y := by
  simp [UDec.same, SameDim, and_assoc]

theorem unitOf_ok {A : Arith ℚ} {t : List Char} {d : UDec} (h : evaluateUnit A t = .ok d) : unitOf A t = .ok (some d) := by
  simp [unitOf, h]

/-- Two units are compatible exactly when both texts are interpreted and the exponents are the same. -/
theorem C107_compatible {A : Arith ℚ} {x y : List Char} {b : Bool} (h : unitCompatible A x y = .ok b) :
    b = true ↔ ∃ dx dy, evaluateUnit A x = .ok dx ∧ evaluateUnit A y = .ok dy ∧ SameDim dx dy := by
  unfold unitCompatible unitOf at h
  cases hx : evaluateUnit A x with
  | error e =>
    simp only [reduceCtorEq, false_and, exists_false, iff_false, Bool.not_eq_true]
    cases e with
    | exn =>
      rw [hx] at h
      cases hy : evaluateUnit A y with
      | ok dy => rw [hy] at h; simpa [bind, Except.bind, eq_comm] using h
      | error e => cases e <;> rw [hy] at h <;> simp [bind, Except.bind, eq_comm] at h; exact h
    | ub => rw [hx] at h; exact nomatch h
  | ok dx =>
    rw [hx] at h
    cases hy : evaluateUnit A y with
    | error e =>
      simp only [reduceCtorEq, false_and, and_false, exists_false, iff_false, Bool.not_eq_true]
      cases e <;> rw [hy] at h <;> simp [bind, Except.bind, eq_comm] at h; exact h
    | ok dy =>
      rw [hy] at h
      simp only [ok_bind, Except.ok.injEq] at h
      subst h
      rw [same_iff]
      constructor
      · intro hs; exact ⟨dx, dy, rfl, rfl, hs⟩
      · rintro ⟨dx', dy', h1, h2, hs⟩
        simp only [Except.ok.injEq] at h1 h2
        subst h1 h2
        exact hs

theorem convert_value {A : Arith ℚ} (big : ℚ) {x y : List Char} {dx dy : UDec} (hx : evaluateUnit A x = .ok dx) (hy : evaluateUnit A y = .ok dy)
    (hs : SameDim dx dy) (h0 : dy.mul ≠ 0) (v : ℚ) :
    unitConvert A big x y v = .ok (dx.mul / dy.mul * v + (dx.add / dy.mul - dy.add)) := by
  have hb : dx.same dy = true := (same_iff _ _).mpr hs
  simp only [unitConvert, unitCompatible, unitOf_ok hx, unitOf_ok hy, ok_bind, hb, if_true, convertWith, UDec.translation]
  rw [if_neg h0]
  rfl

/-- Converting keeps the quantity: what the number is worth in the base units, with what is added for temperatures, is the same before
and after. -/
theorem C107_convert {A : Arith ℚ} (big : ℚ) {x y : List Char} {dx dy : UDec} (hx : evaluateUnit A x = .ok dx) (hy : evaluateUnit A y = .ok dy)
    (hs : SameDim dx dy) (h0 : dy.mul ≠ 0) (hp : dy.add = 0 ∨ dy.mul = 1) (v : ℚ) :
    ∃ w, unitConvert A big x y v = .ok w ∧ dy.mul * w + dy.add = dx.mul * v + dx.add := by
  refine ⟨_, convert_value big hx hy hs h0 v, ?_⟩
  rcases hp with hp | hp
  · rw [hp]; field_simp; ring
  · rw [hp]; ring

/-- Between units without anything to add: `v` of the first unit and the result of the second one are the same amount, whatever the
amounts of the base units are. -/
theorem C107_convert_amount {A : Arith ℚ} (big : ℚ) {x y : List Char} {dx dy : UDec} (hx : evaluateUnit A x = .ok dx)
    (hy : evaluateUnit A y = .ok dy) (hs : SameDim dx dy) (h0 : dy.mul ≠ 0) (hax : dx.add = 0) (hay : dy.add = 0) (v : ℚ) :
    ∃ w, unitConvert A big x y v = .ok w ∧ ∀ ρ : BaseAmounts, w * dy.amount ρ = v * dx.amount ρ := by
  obtain ⟨w, hw, he⟩ := C107_convert big hx hy hs h0 (Or.inl hay) v
  refine ⟨w, hw, fun ρ => ?_⟩
  rw [hax, hay] at he
  obtain ⟨h1, h2, h3, h4, h5⟩ := hs
  simp only [UDec.amount, h1, h2, h3, h4, h5]
  linear_combination (ρ.g ^ dy.g * ρ.m ^ dy.m * ρ.s ^ dy.s * ρ.a ^ dy.a * ρ.k ^ dy.k) * he

/-- There and back gives the number again. -/
theorem C107_round_trip {A : Arith ℚ} (big : ℚ) {x y : List Char} {dx dy : UDec} (hx : evaluateUnit A x = .ok dx) (hy : evaluateUnit A y = .ok dy)
    (hs : SameDim dx dy) (hx0 : dx.mul ≠ 0) (hy0 : dy.mul ≠ 0) (hpx : dx.add = 0 ∨ dx.mul = 1) (hpy : dy.add = 0 ∨ dy.mul = 1) (v : ℚ) :
    (unitConvert A big x y v >>= fun w => unitConvert A big y x w) = .ok v := by
  obtain ⟨w, hw, he⟩ := C107_convert big hx hy hs hy0 hpy v
  have hs' : SameDim dy dx := ⟨hs.1.symm, hs.2.1.symm, hs.2.2.1.symm, hs.2.2.2.1.symm, hs.2.2.2.2.symm⟩
  obtain ⟨u, hu, he'⟩ := C107_convert big hy hx hs' hx0 hpx w
  rw [hw, ok_bind, hu]
  congr 1
  have : dx.mul * u = dx.mul * v := by linear_combination he' + he
  exact mul_left_cancel₀ hx0 this

/-- Converting through a third unit changes nothing. -/
theorem C107_through {A : Arith ℚ} (big : ℚ) {x y z : List Char} {dx dy dz : UDec} (hx : evaluateUnit A x = .ok dx)
    (hy : evaluateUnit A y = .ok dy) (hz : evaluateUnit A z = .ok dz) (hxy : SameDim dx dy) (hyz : SameDim dy dz) (hy0 : dy.mul ≠ 0)
    (hz0 : dz.mul ≠ 0) (hpy : dy.add = 0 ∨ dy.mul = 1) (hpz : dz.add = 0 ∨ dz.mul = 1) (v : ℚ) :
    (unitConvert A big x y v >>= fun w => unitConvert A big y z w) = unitConvert A big x z v := by
  have hxz : SameDim dx dz := ⟨hxy.1.trans hyz.1, hxy.2.1.trans hyz.2.1, hxy.2.2.1.trans hyz.2.2.1, hxy.2.2.2.1.trans hyz.2.2.2.1,
    hxy.2.2.2.2.trans hyz.2.2.2.2⟩
  obtain ⟨w, hw, he⟩ := C107_convert big hx hy hxy hy0 hpy v
  obtain ⟨u, hu, he'⟩ := C107_convert big hy hz hyz hz0 hpz w
  obtain ⟨t, ht, he''⟩ := C107_convert big hx hz hxz hz0 hpz v
  rw [hw, ok_bind, hu, ht]
  congr 1
  have : dz.mul * u = dz.mul * t := by linear_combination he' + he - he''
  exact mul_left_cancel₀ hz0 this

/-- Units which are not compatible convert any number to the largest number. -/
theorem C107_incompatible {A : Arith ℚ} (big : ℚ) {x y : List Char} (h : unitCompatible A x y = .ok false) (v : ℚ) :
    unitConvert A big x y v = .ok big := by
  simp [unitConvert, h, ok_bind]

/-! ## The names and the international system -/

/-- decimal whole numbers, exact arithmetic -/
def ratArith : Arith ℚ where
  lit l := Nat.ofDigitChars 10 l 0
  toInt v := v.num
  zero := 0
  one := 1
  top := 10 ^ 300
  neg v := -v
  add a b := a + b
  sub a b := a - b
  mul a b := a * b
  div a b := a / b
  pow a b := a ^ b.num
  lt a b := decide (a < b)
  eq a b := decide (a = b)
  math _ v := v

theorem ratArith_laws : ratArith.Laws where
  neg_neg v := by simp [ratArith]
  toInt_lit k := by simp [ratArith, Nat.ofDigitChars_toDigits]

/-- units and how the international system defines them -/
def siDefs : List (List Char × List Char) :=
  [(['N'], ['k', 'g', '*', 'm', '/', 's', '^', '2']),
    (['J'], ['N', '*', 'm']),
    (['W'], ['J', '/', 's']),
    (['H', 'z'], ['1', '/', 's']),
    (['P', 'a'], ['N', '/', 'm', '^', '2']),
    (['C'], ['A', '*', 's']),
    (['V'], ['W', '/', 'A']),
    (['o', 'h', 'm'], ['V', '/', 'A']),
    (['F'], ['C', '/', 'V']),
    (['T'], ['V', '*', 's', '/', 'm', '^', '2']),
    (['h'], ['3', '6', '0', '0', '*', 's']),
    (['t'], ['1', '0', '0', '0', '*', 'k', 'g']),
    (['d', 'y', 'n'], ['N', '/', '1', '0', '0', '0', '0', '0']),
    (['a', 't', 'm'], ['1', '0', '1', '3', '2', '5', '*', 'P', 'a']),
    (['b', 'a', 'r'], ['1', '0', '0', '0', '0', '0', '*', 'P', 'a'])]

/-- units and their definitions, for which the factor of the table is another one -/
def siWrong : List (List Char × List Char) :=
  [(['m', 'i', 'n'], ['6', '0', '*', 's']),
    (['S'], ['1', '/', 'o', 'h', 'm']),
    (['H'], ['o', 'h', 'm', '*', 's']),
    (['P'], ['P', 'a', '*', 's', '/', '1', '0']),
    (['S', 't'], ['c', 'm', '^', '2', '/', 's'])]

/-- Fifteen derived units are interpreted as their definitions. -/
theorem C107_si : ∀ r ∈ siDefs, ∃ d, evaluateUnit ratArith r.1 = .ok d ∧ evaluateUnit ratArith r.2 = .ok d := by
  have h : ∀ r ∈ siDefs, evaluateUnit ratArith r.1 = evaluateUnit ratArith r.2 ∧ (evaluateUnit ratArith r.1).isOk = true := by decide +kernel
  intro r hr
  obtain ⟨h1, h2⟩ := h r hr
  cases hd : evaluateUnit ratArith r.1 with
  | ok d => exact ⟨d, rfl, by rw [← h1, hd]⟩
  | error e => rw [hd] at h2; exact nomatch h2

/-- Five other units have the dimension of their definition but another factor. -/
theorem C107_finding_factors : ∀ r ∈ siWrong, unitCompatible ratArith r.1 r.2 = .ok true ∧ unitConvert ratArith 0 r.1 r.2 1 ≠ .ok 1 := by
  decide +kernel

/-- One minute is one hour. -/
theorem C107_finding_minute : unitConvert ratArith 0 ['m', 'i', 'n'] ['s'] 1 = .ok 3600 ∧ unitConvert ratArith 0 ['m', 'i', 'n'] ['h'] 1 = .ok 1 := by
  decide +kernel

/-- A text which is no unit is not even compatible with itself, and converts to the largest number. -/
theorem C107_finding_unknown (big v : ℚ) : unitCompatible ratArith ['m', '2'] ['m', '2'] = .ok false ∧ unitConvert ratArith big ['m', '2'] ['m', '2'] v = .ok big := by
  have h : unitCompatible ratArith ['m', '2'] ['m', '2'] = .ok false := by decide +kernel
  exact ⟨h, C107_incompatible big h v⟩

/-- A temperature in a product has lost what is added: degrees Celsius per second are kelvins per second, but so are degrees Celsius
times 1 and kelvins. -/
theorem C107_finding_celsius (big : ℚ) : unitConvert ratArith big ['°', 'C'] ['K'] 0 = .ok (27315 / 100) ∧ unitConvert ratArith big ['°', 'C', '*', '1'] ['K'] 0 = .ok 0 := by
  have h1 : evaluateUnit ratArith ['°', 'C'] = .ok ⟨0, 0, 0, 0, 1, 27315 / 100, 1⟩ := by decide +kernel
  have h2 : evaluateUnit ratArith ['°', 'C', '*', '1'] = .ok ⟨0, 0, 0, 0, 1, 0, 1⟩ := by decide +kernel
  have h3 : evaluateUnit ratArith ['K'] = .ok ⟨0, 0, 0, 0, 1, 0, 1⟩ := by decide +kernel
  rw [convert_value big h1 h3 ⟨rfl, rfl, rfl, rfl, rfl⟩ (by norm_num), convert_value big h2 h3 ⟨rfl, rfl, rfl, rfl, rfl⟩ (by norm_num)]
  norm_num

/-! ## Concrete cases -/

/-- `kg*m/s^2` -/
def newtonCst : Cst := .bin .div (.bin .mult (.var ['k', 'g']) (.var ['m'])) (.bin .pow (.var ['s']) (.num ['2']))

theorem newton_written : Written ratArith newtonCst ['k', 'g', ' ', '*', ' ', 'm', '/', 's', '^', '2'] where
  laws := ratArith_laws
  wf := by
    refine ⟨by decide, by decide, by decide, by decide, by decide, by decide, by decide,
      ⟨by decide, by decide, by decide, by decide, by decide, by decide, by decide, ?_, ?_⟩,
      ⟨by decide, by decide, by decide, by decide, by decide, by decide, by decide, ?_, ?_⟩⟩
    · exact ⟨'k', ['g'], rfl, Or.inl (by decide), by decide⟩
    · exact ⟨'m', [], rfl, Or.inl (by decide), by decide⟩
    · exact ⟨'s', [], rfl, Or.inl (by decide), by decide⟩
    · exact ⟨['2'], [], [], rfl, by simp, by decide, Or.inl rfl, Or.inl rfl⟩
  long := ⟨by decide, trivial⟩
  text_eq := by decide

example : newtonCst.unit ratArith = some ⟨1, 1, -2, 0, 0, 0, 1000⟩ := by decide +kernel
example : evaluateUnit ratArith ['k', 'g', ' ', '*', ' ', 'm', '/', 's', '^', '2'] = .ok ⟨1, 1, -2, 0, 0, 0, 1000⟩ := (C107_interpret newton_written _).mpr (by decide +kernel)
example : newtonCst.amount ratArith ⟨1 / 1000, 1, 60, 1, 1, by norm_num, by norm_num, by norm_num, by norm_num, by norm_num⟩ = 1 / 3600 := by
  rw [← C107_amount newton_written (d := ⟨1, 1, -2, 0, 0, 0, 1000⟩) ((C107_interpret newton_written _).mpr (by decide +kernel))]
  norm_num [UDec.amount]
example : newtonCst.unsigned = true := rfl
/-- `36 km/h` are `10 m/s` -/
example : unitConvert ratArith 0 ['k', 'm', '/', 'h'] ['m', '/', 's'] 36 = .ok 10 := by decide +kernel
example : (unitConvert ratArith 0 ['k', 'm', '/', 'h'] ['m', '/', 's'] 36 >>= fun w => unitConvert ratArith 0 ['m', '/', 's'] ['k', 'm', '/', 'h'] w) = .ok 36 := by decide +kernel
example : (unitConvert ratArith 0 ['k', 'm', '/', 'h'] ['m', '/', 's'] 36 >>= fun w => unitConvert ratArith 0 ['m', '/', 's'] ['k', 'm', '/', 'm', 'i', 'n'] w) = unitConvert ratArith 0 ['k', 'm', '/', 'h'] ['k', 'm', '/', 'm', 'i', 'n'] 36 := by
  decide +kernel
example : unitCompatible ratArith ['k', 'm', '/', 'h'] ['K'] = .ok false ∧ unitConvert ratArith 7 ['k', 'm', '/', 'h'] ['K'] 36 = .ok 7 := by decide +kernel
example : unitConvert ratArith 0 ['K'] ['°', 'C'] 300 = .ok (2685 / 100) := by decide +kernel
/-- sums, functions and names which are no unit are refused -/
example : evaluateUnit ratArith ['m', '+', 's'] = throwX ∧ evaluateUnit ratArith ['c', 'o', 's', '(', 'm', ')'] = throwX ∧ evaluateUnit ratArith ['m', '2'] = throwX := by decide +kernel

end MC
