import Verif.Spread
import Verif.CommonFind
import Mathlib.Logic.Relation

/-!
# Zones reached from seeds are the reachable sets, and the partition is the set of connected components
-/

namespace MC
section

/-! ## Specification -/

/-- `x` is a neighbour of `y`. -/
def Nbr (G : List (List Int)) (y x : Int) : Prop := ∃ (i : Nat) (l : List Int), y = (i : Int) ∧ G[i]? = some l ∧ x ∈ l

/-- All the neighbours are cells. -/
def ValidGraph (G : List (List Int)) : Prop := ∀ l ∈ G, ∀ x ∈ l, 0 ≤ x ∧ x < (G.length : Int)

/-- Reached from `S` in at most `n` steps. -/
def Within (R : Int → Int → Prop) (S : Int → Prop) : Nat → Int → Prop
  | 0, x => S x
  | n + 1, x => Within R S n x ∨ ∃ y, Within R S n y ∧ R y x

theorem Within.mono {R : Int → Int → Prop} {S : Int → Prop} {n m : Nat} (h : n ≤ m) {x : Int} (hx : Within R S n x) : Within R S m x := by
  induction m with
  | zero => obtain rfl : n = 0 := by omega
            exact hx
  | succ m ih =>
    rcases Nat.lt_or_ge n (m + 1) with h1 | h1
    · exact Or.inl (ih (by omega))
    · obtain rfl : n = m + 1 := by omega
      exact hx

/-- When a step adds nothing, everything is reached. -/
theorem Within.closed {R : Int → Int → Prop} {S : Int → Prop} {p : Nat} (hc : ∀ x y, Within R S p x → R x y → Within R S p y) {n : Nat}
    {x : Int} (hx : Within R S n x) : Within R S p x := by
  induction n generalizing x with
  | zero => exact Within.mono (Nat.zero_le p) hx
  | succ n ih =>
    rcases hx with h | ⟨y, h1, h2⟩
    · exact ih h
    · exact hc y x (ih h1) h2

theorem within_iff_reach {R : Int → Int → Prop} {S : Int → Prop} {x : Int} :
    (∃ n, Within R S n x) ↔ ∃ s, S s ∧ Relation.ReflTransGen R s x := by
  constructor
  · rintro ⟨n, h⟩
    induction n generalizing x with
    | zero => exact ⟨x, h, .refl⟩
    | succ n ih =>
      rcases h with h | ⟨y, h1, h2⟩
      · exact ih h
      · obtain ⟨s, q1, q2⟩ := ih h1
        exact ⟨s, q1, q2.tail h2⟩
  · rintro ⟨s, hs, h⟩
    induction h with
    | refl => exact ⟨0, hs⟩
    | tail _ h2 ih =>
      obtain ⟨n, h⟩ := ih
      exact ⟨n + 1, Or.inr ⟨_, h, h2⟩⟩

/-! ## Flags -/

/-- The flag of `x` is set. -/
def On (l : List Bool) (x : Int) : Prop := ∃ i : Nat, x = (i : Int) ∧ l[i]? = some true

theorem On.range {l : List Bool} {x : Int} (h : On l x) : 0 ≤ x ∧ x < (l.length : Int) := by
  obtain ⟨i, rfl, h⟩ := h
  have := (List.getElem?_eq_some_iff.mp h).1
  omega

theorem rd_on {l : List Bool} {x : Int} (h0 : 0 ≤ x) (h1 : x < (l.length : Int)) :
    (On l x → rd l x = .ok true) ∧ (¬ On l x → rd l x = .ok false) := by
  lift x to Nat using h0
  have hx : x < l.length := by omega
  rw [rd_natCast hx]
  constructor
  · rintro ⟨i, e, h⟩
    have : i = x := by omega
    subst this
    rw [List.getElem?_eq_getElem hx] at h
    rw [Option.some.inj h]
  · intro h
    cases e : l[x] with
    | false => rfl
    | true => exact absurd ⟨x, rfl, by rw [List.getElem?_eq_getElem hx, e]⟩ h

theorem wr_on {l : List Bool} {x : Int} (h0 : 0 ≤ x) (h1 : x < (l.length : Int)) :
    ∃ l', wr l x true = .ok l' ∧ l'.length = l.length ∧ (∀ y, On l' y ↔ On l y ∨ y = x) ∧
      (¬ On l x → l.count false = l'.count false + 1) := by
  lift x to Nat using h0
  have hx : x < l.length := by omega
  refine ⟨_, wr_natCast hx, by simp, ?_, ?_⟩
  · intro y
    constructor
    · rintro ⟨i, rfl, h⟩
      by_cases hi : i = x
      · right; omega
      · rw [List.getElem?_set_ne (by omega)] at h
        exact Or.inl ⟨i, rfl, h⟩
    · rintro (⟨i, rfl, h⟩ | rfl)
      · by_cases hi : i = x
        · exact ⟨i, rfl, by rw [hi, List.getElem?_set_self hx]⟩
        · exact ⟨i, rfl, by rw [List.getElem?_set_ne (by omega)]; exact h⟩
      · exact ⟨x, rfl, by rw [List.getElem?_set_self hx]⟩
  · intro hn
    have he : l[x] = false := by
      cases e : l[x] with
      | false => rfl
      | true => exact absurd ⟨x, rfl, by rw [List.getElem?_eq_getElem hx, e]⟩ hn
    have hpos : 0 < l.count false := List.count_pos_iff.mpr (he ▸ List.getElem_mem hx)
    rw [List.count_set hx, he]
    simp
    omega

/-! ## One round -/

/-- `x` is visited only if it is not fetched. -/
theorem spreadVisit_fold {n : Nat} {vs : List Int} (hv : ∀ x ∈ vs, 0 ≤ x ∧ x < (n : Int)) {s : Spread}
    (h1 : s.fetched.length = n) (h2 : s.fetched2.length = n) :
    wp (vs.foldlM spreadVisit s) (fun s' => s'.fetched.length = n ∧ s'.fetched2.length = n ∧
      (∀ y, On s'.fetched y ↔ On s.fetched y ∨ y ∈ vs) ∧ (∀ y, On s'.fetched2 y ↔ On s.fetched2 y ∨ (y ∈ vs ∧ ¬ On s.fetched y)) ∧
      ∃ new, s'.other = s.other ++ new ∧ (∀ y, y ∈ new ↔ y ∈ vs ∧ ¬ On s.fetched y) ∧
        s.fetched.count false = s'.fetched.count false + new.length) False := by
  refine wp_foldlM (fun vs (s' : Spread) => s'.fetched.length = n ∧ s'.fetched2.length = n ∧
      (∀ y, On s'.fetched y ↔ On s.fetched y ∨ y ∈ vs) ∧ (∀ y, On s'.fetched2 y ↔ On s.fetched2 y ∨ (y ∈ vs ∧ ¬ On s.fetched y)) ∧
      ∃ new, s'.other = s.other ++ new ∧ (∀ y, y ∈ new ↔ y ∈ vs ∧ ¬ On s.fetched y) ∧
        s.fetched.count false = s'.fetched.count false + new.length) ?_ ?_
  · exact ⟨h1, h2, by simp, by simp, [], by simp, by simp, by simp⟩
  · rintro pre x suf hl s' ⟨a1, a2, a3, a4, new, a5, a6, a7⟩
    obtain ⟨hx0, hx1⟩ := hv x (by simp [hl])
    obtain ⟨r1, r2⟩ := rd_on (l := s'.fetched) hx0 (by omega)
    unfold spreadVisit
    by_cases hon : On s'.fetched x
    · rw [r1 hon, ok_bind, if_pos rfl]
      refine ⟨a1, a2, ?_, ?_, new, a5, ?_, a7⟩
      · intro y
        rw [a3]
        constructor
        · rintro (h | h)
          · exact Or.inl h
          · exact Or.inr (by simp [h])
        · rintro (h | h)
          · exact Or.inl h
          · rcases List.mem_append.mp h with h | h
            · exact Or.inr h
            · rw [List.mem_singleton] at h
              subst h
              exact (a3 y).mp hon
      · intro y
        rw [a4]
        constructor
        · rintro (h | ⟨h, h'⟩)
          · exact Or.inl h
          · exact Or.inr ⟨by simp [h], h'⟩
        · rintro (h | ⟨h, h'⟩)
          · exact Or.inl h
          · rcases List.mem_append.mp h with h | h
            · exact Or.inr ⟨h, h'⟩
            · rw [List.mem_singleton] at h
              subst h
              exact Or.inr ⟨((a3 y).mp hon).resolve_left h', h'⟩
      · intro y
        rw [a6]
        constructor
        · rintro ⟨h, h'⟩
          exact ⟨by simp [h], h'⟩
        · rintro ⟨h, h'⟩
          rcases List.mem_append.mp h with h | h
          · exact ⟨h, h'⟩
          · rw [List.mem_singleton] at h
            subst h
            exact ⟨((a3 y).mp hon).resolve_left h', h'⟩
    · obtain ⟨f, b1, b2, b3, b4⟩ := wr_on (l := s'.fetched) hx0 (by omega)
      obtain ⟨f2, c1, c2, c3, -⟩ := wr_on (l := s'.fetched2) hx0 (by omega)
      rw [r2 hon, ok_bind, if_neg (by simp), b1, ok_bind, c1, ok_bind]
      have hns : ¬ On s.fetched x := fun h => hon ((a3 x).mpr (Or.inl h))
      refine ⟨by simp [b2, a1], by simp [c2, a2], ?_, ?_, new ++ [x], ?_, ?_, ?_⟩
      · intro y
        simp only [b3, a3, List.mem_append, List.mem_singleton]
        tauto
      · intro y
        simp only [c3, a4, List.mem_append, List.mem_singleton]
        constructor
        · rintro ((h | ⟨h, h'⟩) | rfl)
          · exact Or.inl h
          · exact Or.inr ⟨Or.inl h, h'⟩
          · exact Or.inr ⟨Or.inr rfl, hns⟩
        · rintro (h | ⟨h | h, h'⟩)
          · exact Or.inl (Or.inl h)
          · exact Or.inl (Or.inr ⟨h, h'⟩)
          · exact Or.inr h
      · simp [a5]
      · intro y
        simp only [a6, List.mem_append, List.mem_singleton]
        constructor
        · rintro (⟨h, h'⟩ | rfl)
          · exact ⟨Or.inl h, h'⟩
          · exact ⟨Or.inr rfl, hns⟩
        · rintro ⟨h | h, h'⟩
          · exact Or.inl ⟨h, h'⟩
          · exact Or.inr h
      · have := b4 hon
        simp only [List.length_append, List.length_singleton]
        omega

theorem revGroup_sky {arr idx : List Int} {G : List (List Int)} (h : IsSky arr idx G) {k : Nat} {l : List Int} (hk : G[k]? = some l) :
    revGroup arr idx k = .ok l := by
  obtain ⟨hk1, rfl⟩ := List.getElem?_eq_some_iff.mp hk
  obtain ⟨a1, a2, a3, a4⟩ := h.get hk1
  unfold revGroup
  rw [rd_of_getElem? (by omega) (by rw [Int.toNat_natCast]; exact a1), ok_bind,
    rd_of_getElem? (by omega) (by rw [show ((k : Int) + 1).toNat = k + 1 by omega]; exact a2), ok_bind,
    if_pos ⟨by omega, by omega, a3⟩, a4]

theorem spreadRound_eq {arr idx : List Int} {G : List (List Int)} (h : IsSky arr idx G) {ids : List Int}
    (hv : ∀ x ∈ ids, 0 ≤ x ∧ x < (G.length : Int)) :
    ∃ vs : List Int, (∀ s, spreadRound arr idx ids s = vs.foldlM spreadVisit s) ∧ ∀ x, x ∈ vs ↔ ∃ y ∈ ids, Nbr G y x := by
  unfold spreadRound
  induction ids with
  | nil => exact ⟨[], fun s => rfl, by simp⟩
  | cons z ids ih =>
    obtain ⟨vs, q1, q2⟩ := ih (fun x hx => hv x (by simp [hx]))
    obtain ⟨g0, g1⟩ := hv z (by simp)
    lift z to Nat using g0
    have hz : G[z]? = some (G[z]'(by omega)) := List.getElem?_eq_getElem (by omega)
    refine ⟨G[z]'(by omega) ++ vs, ?_, ?_⟩
    · intro s
      rw [List.foldlM_cons, revGroup_sky h hz, ok_bind, List.foldlM_append]
      congr 1
      funext s'
      exact q1 s'
    · intro x
      rw [List.mem_append, q2]
      constructor
      · rintro (h | ⟨y, h, h'⟩)
        · exact ⟨z, by simp, z, _, rfl, hz, h⟩
        · exact ⟨y, by simp [h], h'⟩
      · rintro ⟨y, h, h'⟩
        rcases List.mem_cons.mp h with rfl | h
        · obtain ⟨i, l, e, q3, q4⟩ := h'
          have : z = i := by omega
          subst this
          rw [hz, Option.some.injEq] at q3
          subst q3
          exact Or.inl q4
        · exact Or.inr ⟨y, h, h'⟩

theorem ValidGraph.nbr {G : List (List Int)} (hv : ValidGraph G) {y x : Int} (h : Nbr G y x) : 0 ≤ x ∧ x < (G.length : Int) := by
  obtain ⟨i, l, -, h1, h2⟩ := h
  exact hv l (List.mem_of_getElem? h1) x h2

/-! ## All the rounds -/

/-- What the rounds keep after `p` of them; `F` is what was fetched before. -/
structure SpreadInv (G : List (List Int)) (F S : Int → Prop) (target : Option Int) (p : Nat) (ids : List Int) (fetched fetched2 : List Bool) : Prop where
  len : fetched.length = G.length
  len2 : fetched2.length = G.length
  on : ∀ x, On fetched x ↔ F x ∨ Within (fun y x => Nbr G y x ∧ ¬ F x) S p x
  on2 : ∀ x, On fetched2 x ↔ Within (fun y x => Nbr G y x ∧ ¬ F x) S p x
  todo : ∀ y ∈ ids, Within (fun y x => Nbr G y x ∧ ¬ F x) S p y
  done : ∀ y, Within (fun y x => Nbr G y x ∧ ¬ F x) S p y → y ∉ ids → ∀ x, Nbr G y x → ¬ F x →
    Within (fun y x => Nbr G y x ∧ ¬ F x) S p x
  layers : ∀ q, q + 1 < p → ∃ x, Within (fun y x => Nbr G y x ∧ ¬ F x) S (q + 1) x ∧ ¬ Within (fun y x => Nbr G y x ∧ ¬ F x) S q x
  front : ∀ q, p = q + 1 → ids ≠ [] → ∃ x, Within (fun y x => Nbr G y x ∧ ¬ F x) S (q + 1) x ∧ ¬ Within (fun y x => Nbr G y x ∧ ¬ F x) S q x
  limit : ∀ t ∈ target, (p : Int) ≤ max t 0

/-- What the rounds give. -/
structure SpreadRes (G : List (List Int)) (F S : Int → Prop) (target : Option Int) (r : List Bool × List Bool × Int) (p : Nat) : Prop where
  perf : r.2.2 = (p : Int)
  len : r.1.length = G.length
  on : ∀ x, On r.1 x ↔ F x ∨ Within (fun y x => Nbr G y x ∧ ¬ F x) S p x
  on2 : ∀ x, On r.2.1 x ↔ Within (fun y x => Nbr G y x ∧ ¬ F x) S p x
  stop : (∀ x y, Within (fun y x => Nbr G y x ∧ ¬ F x) S p x → (Nbr G x y ∧ ¬ F y) → Within (fun y x => Nbr G y x ∧ ¬ F x) S p y) ∨
    ∃ t ∈ target, t ≤ (p : Int)
  layers : ∀ q, q + 1 < p → ∃ x, Within (fun y x => Nbr G y x ∧ ¬ F x) S (q + 1) x ∧ ¬ Within (fun y x => Nbr G y x ∧ ¬ F x) S q x
  limit : ∀ t ∈ target, (p : Int) ≤ max t 0

theorem spreadLoop_spec {arr idx : List Int} {G : List (List Int)} (h : IsSky arr idx G) (hv : ValidGraph G) {F S : Int → Prop}
    {target : Option Int} {fuel p : Nat} {ids : List Int} {fetched fetched2 : List Bool} (hI : SpreadInv G F S target p ids fetched fetched2)
    (hf : 1 ≤ fuel) (hf2 : ids ≠ [] → fetched.count false + 2 ≤ fuel) :
    ∃ r p', spreadLoop arr idx target fuel ids fetched fetched2 (p : Int) = .ok r ∧ SpreadRes G F S target r p' := by
  induction fuel generalizing p ids fetched fetched2 with
  | zero => omega
  | succ fuel ih =>
    unfold spreadLoop
    by_cases hc : ids ≠ [] ∧ (∀ t ∈ target, (p : Int) < t)
    · rw [if_pos hc]
      have hids : ∀ x ∈ ids, 0 ≤ x ∧ x < (G.length : Int) := fun x hx => by
        have := ((hI.on2 x).mpr (hI.todo x hx)).range
        rw [hI.len2] at this
        exact this
      obtain ⟨vs, v1, v2⟩ := spreadRound_eq h hids
      have hvs : ∀ x ∈ vs, 0 ≤ x ∧ x < (G.length : Int) := fun x hx => by
        obtain ⟨y, -, q⟩ := (v2 x).mp hx
        exact hv.nbr q
      rw [v1]
      obtain ⟨s, e, a1, a2, a3, a4, new, a5, a6, a7⟩ := wp_exists (spreadVisit_fold hvs (s := ⟨fetched, fetched2, []⟩) hI.len hI.len2)
      rw [e, ok_bind]
      simp only at a3 a4 a5 a6 a7
      rw [List.nil_append] at a5
      have hcount := hf2 hc.1
      have hnew : ∀ x, x ∈ new ↔ (∃ y ∈ ids, Nbr G y x) ∧ ¬ F x ∧ ¬ Within (fun y x => Nbr G y x ∧ ¬ F x) S p x := by
        intro x
        rw [a6, v2, hI.on]
        tauto
      have hW : ∀ x, Within (fun y x => Nbr G y x ∧ ¬ F x) S (p + 1) x ↔
          Within (fun y x => Nbr G y x ∧ ¬ F x) S p x ∨ (∃ y ∈ ids, Nbr G y x) ∧ ¬ F x := by
        intro x
        constructor
        · rintro (h | ⟨y, q1, q2, q3⟩)
          · exact Or.inl h
          · by_cases hy : y ∈ ids
            · exact Or.inr ⟨⟨y, hy, q2⟩, q3⟩
            · exact Or.inl (hI.done y q1 hy x q2 q3)
        · rintro (h | ⟨⟨y, q1, q2⟩, q3⟩)
          · exact Or.inl h
          · exact Or.inr ⟨y, hI.todo y q1, q2, q3⟩
      have := ih (p := p + 1) (ids := s.other) (fetched := s.fetched) (fetched2 := s.fetched2) ?_ (by omega) ?_
      · rw [show ((p : Int) + 1) = ((p + 1 : Nat) : Int) by omega]
        exact this
      · refine ⟨a1, a2, ?_, ?_, ?_, ?_, ?_, ?_, ?_⟩
        · intro x
          rw [a3, hI.on, v2, hW]
          by_cases hF : F x
          · simp [hF]
          · simp [hF]
        · intro x
          rw [a4, hI.on2, v2, hW, hI.on]
          constructor
          · rintro (h | ⟨h, h'⟩)
            · exact Or.inl h
            · exact Or.inr ⟨h, fun hF => h' (Or.inl hF)⟩
          · rintro (h | ⟨h, h'⟩)
            · exact Or.inl h
            · by_cases hw : Within (fun y x => Nbr G y x ∧ ¬ F x) S p x
              · exact Or.inl hw
              · exact Or.inr ⟨h, fun h'' => h''.elim h' hw⟩
        · intro y hy
          rw [a5, hnew] at hy
          exact (hW y).mpr (Or.inr ⟨hy.1, hy.2.1⟩)
        · intro y hy hy' x q1 q2
          rw [a5, hnew] at hy'
          rcases (hW y).mp hy with h | ⟨h, h'⟩
          · exact Or.inr ⟨y, h, q1, q2⟩
          · by_cases hw : Within (fun y x => Nbr G y x ∧ ¬ F x) S p y
            · exact Or.inr ⟨y, hw, q1, q2⟩
            · exact absurd ⟨h, h', hw⟩ hy'
        · intro q hq
          by_cases hq' : q + 1 < p
          · exact hI.layers q hq'
          · exact hI.front q (by omega) hc.1
        · intro q hq hne
          obtain rfl : q = p := by omega
          obtain ⟨x, hx⟩ := List.exists_mem_of_ne_nil _ hne
          rw [a5, hnew] at hx
          exact ⟨x, (hW x).mpr (Or.inr ⟨hx.1, hx.2.1⟩), hx.2.2⟩
        · intro t ht
          have := hc.2 t ht
          omega
      · intro hne
        have : 0 < new.length := by rw [← a5]; exact List.length_pos_of_ne_nil hne
        omega
    · rw [if_neg hc]
      refine ⟨_, p, rfl, rfl, hI.len, hI.on, hI.on2, ?_, hI.layers, hI.limit⟩
      by_cases hid : ids = []
      · left
        intro x y q1 q2
        exact hI.done x q1 (by simp [hid]) y q2.1 q2.2
      · right
        by_contra hcon
        exact hc ⟨hid, fun t ht => by
          by_contra hlt
          exact hcon ⟨t, ht, by omega⟩⟩

theorem seeds_fold {n : Nat} {seeds : List Int} (hv : ∀ x ∈ seeds, 0 ≤ x ∧ x < (n : Int)) {f f2 : List Bool} (h1 : f.length = n)
    (h2 : f2.length = n) :
    ∃ s, seeds.foldlM (seedStep (n : Int)) (f, f2) = .ok s ∧ s.1.length = n ∧ s.2.length = n ∧
      (∀ x, On s.1 x ↔ On f x ∨ x ∈ seeds) ∧ ∀ x, On s.2 x ↔ On f2 x ∨ x ∈ seeds := by
  refine wp_exists (wp_foldlM (fun pre (s : List Bool × List Bool) => s.1.length = n ∧ s.2.length = n ∧
      (∀ x, On s.1 x ↔ On f x ∨ x ∈ pre) ∧ ∀ x, On s.2 x ↔ On f2 x ∨ x ∈ pre) ?_ ?_)
  · exact ⟨h1, h2, by simp, by simp⟩
  · rintro pre x suf hl s ⟨a1, a2, a3, a4⟩
    obtain ⟨hx0, hx1⟩ := hv x (by simp [hl])
    obtain ⟨g, b1, b2, b3, -⟩ := wr_on (l := s.1) hx0 (by omega)
    obtain ⟨g2, c1, c2, c3, -⟩ := wr_on (l := s.2) hx0 (by omega)
    unfold seedStep
    rw [if_pos ⟨hx0, hx1⟩, b1, ok_bind, c1, ok_bind]
    refine ⟨by simp [b2, a1], by simp [c2, a2], ?_, ?_⟩
    · intro y; simp only [b3, a3, List.mem_append, List.mem_singleton]; tauto
    · intro y; simp only [c3, a4, List.mem_append, List.mem_singleton]; tauto

theorem not_on_replicate {n : Nat} {x : Int} : ¬ On (List.replicate n false) x := by
  rintro ⟨i, -, h⟩
  have := List.mem_of_getElem? h
  rw [List.mem_replicate] at this
  simp at this

/-- The algorithm on seeds which were not fetched before. -/
theorem spreadAlg_spec {arr idx : List Int} {G : List (List Int)} (h : IsSky arr idx G) (hv : ValidGraph G) {seeds : List Int}
    (hs : ∀ x ∈ seeds, 0 ≤ x ∧ x < (G.length : Int)) {fetched : List Bool} (hl : fetched.length = G.length)
    (depth : Int) :
    ∃ (fetched' : List Bool) (ids : List Int) (p : Nat), spreadAlg fetched seeds arr idx depth = .ok (fetched', ids.map some, (p : Int)) ∧
      fetched'.length = G.length ∧ StrictSorted ids ∧
      (∀ x, x ∈ ids ↔ Within (fun y x => Nbr G y x ∧ ¬ On fetched x) (· ∈ seeds) p x) ∧
      (∀ x, On fetched' x ↔ On fetched x ∨ x ∈ ids) ∧
      ((∀ x y, x ∈ ids → Nbr G x y → ¬ On fetched y → y ∈ ids) ∨ (depth ≠ -1 ∧ depth ≤ p)) ∧
      (depth ≠ -1 → (p : Int) ≤ max depth 0) ∧
      (∀ q, q + 1 < p → ∃ x, Within (fun y x => Nbr G y x ∧ ¬ On fetched x) (· ∈ seeds) (q + 1) x ∧
        ¬ Within (fun y x => Nbr G y x ∧ ¬ On fetched x) (· ∈ seeds) q x) := by
  have hil : (idx.length : Int) - 1 = (G.length : Int) := by
    have := h.idx_length
    omega
  obtain ⟨s, e, a1, a2, a3, a4⟩ := seeds_fold hs hl (f2 := List.replicate G.length false) (by simp)
  have hcnt : s.1.count false ≤ G.length := by rw [← a1]; exact List.count_le_length
  have hI : SpreadInv G (On fetched) (· ∈ seeds) (if depth ≠ -1 then some depth else none) 0 seeds s.1 s.2 := by
    refine ⟨a1, a2, a3, ?_, fun y hy => hy, fun y hy hy' => absurd hy hy', fun q hq => by omega, fun q hq => by omega, fun t ht => by omega⟩
    intro x
    rw [a4]
    simp [not_on_replicate, Within]
  obtain ⟨r, p, e2, hr⟩ := spreadLoop_spec h hv hI (fuel := G.length + 2) (by omega) (fun _ => by omega)
  obtain ⟨ids, c1, c2, c3⟩ := C35_switched true r.2.1
  have hm : ∀ x, x ∈ ids ↔ Within (fun y x => Nbr G y x ∧ ¬ On fetched x) (· ∈ seeds) p x := fun x => by
    rw [c3, ← hr.on2]
    rfl
  refine ⟨r.1, ids, p, ?_, hr.len, c2, hm, ?_, ?_, ?_, hr.layers⟩
  · unfold spreadAlg
    simp only
    rw [hil, if_neg (by omega), Int.toNat_natCast, e, ok_bind]
    rw [show (0 : Int) = ((0 : Nat) : Int) by rfl, e2, ok_bind, c1, ok_bind, hr.perf]
  · intro x
    rw [hr.on, hm]
  · rcases hr.stop with h | ⟨t, ht, h⟩
    · left
      intro x y q1 q2 q3
      rw [hm] at q1 ⊢
      exact h x y q1 ⟨q2, q3⟩
    · right
      split at ht
      · rename_i hd
        simp only [Option.mem_def, Option.some.injEq] at ht
        subst ht
        exact ⟨hd, h⟩
      · simp at ht
  · intro hd
    exact hr.limit depth (by simp [hd])

/-! ## Theorems -/

theorem within_congr {R R' : Int → Int → Prop} {S : Int → Prop} (h : ∀ x y, R x y ↔ R' x y) {n : Nat} {x : Int} :
    Within R S n x ↔ Within R' S n x := by
  have : R = R' := by funext x y; exact propext (h x y)
  rw [this]

/-- C61: `ComputeSpreadZoneGraduallyFromSeed` returns the increasing list of the cells within `depth` steps of the seeds (all the cells
reachable from the seeds when `depth` is -1), and stops as soon as a round would bring nothing. -/
theorem C61_spread {arr idx : List Int} {G : List (List Int)} (h : IsSky arr idx G) (hv : ValidGraph G) {seeds : List Int}
    (hs : ∀ x ∈ seeds, 0 ≤ x ∧ x < (G.length : Int)) (hne : G ≠ []) (depth : Int) :
    ∃ (ids : List Int) (p : Nat), computeSpreadZoneGraduallyFromSeed seeds arr idx depth = .ok (ids.map some, (p : Int)) ∧ StrictSorted ids ∧
      (∀ x, x ∈ ids ↔ Within (Nbr G) (· ∈ seeds) p x) ∧
      (depth = -1 → ∀ x, x ∈ ids ↔ ∃ s ∈ seeds, Relation.ReflTransGen (Nbr G) s x) ∧
      (0 ≤ depth → (p : Int) ≤ depth ∧ ∀ x, x ∈ ids ↔ Within (Nbr G) (· ∈ seeds) depth.toNat x) ∧
      (depth < -1 → p = 0) ∧
      (∀ q, q + 1 < p → ∃ x, Within (Nbr G) (· ∈ seeds) (q + 1) x ∧ ¬ Within (Nbr G) (· ∈ seeds) q x) := by
  have hpos : 0 < G.length := List.length_pos_of_ne_nil hne
  have hil : (idx.length : Int) - 1 = (G.length : Int) := by
    have := h.idx_length
    omega
  obtain ⟨f', ids, p, e, -, a1, a2, -, a4, a5, a6⟩ := spreadAlg_spec h hv hs (fetched := List.replicate G.length false) (by simp) depth
  have hR : ∀ x y, (Nbr G x y ∧ ¬ On (List.replicate G.length false) y) ↔ Nbr G x y := fun x y => by simp [not_on_replicate]
  have hW : ∀ n x, Within (fun y x => Nbr G y x ∧ ¬ On (List.replicate G.length false) x) (· ∈ seeds) n x ↔ Within (Nbr G) (· ∈ seeds) n x :=
    fun n x => within_congr hR
  have hm : ∀ x, x ∈ ids ↔ Within (Nbr G) (· ∈ seeds) p x := fun x => by rw [a2, hW]
  refine ⟨ids, p, ?_, a1, hm, ?_, ?_, ?_, ?_⟩
  · unfold computeSpreadZoneGraduallyFromSeed
    simp only
    rw [hil, if_neg (by omega), Int.toNat_natCast, e, ok_bind]
  · intro hd x
    rw [hm]
    have hcl : ∀ x y, Within (Nbr G) (· ∈ seeds) p x → Nbr G x y → Within (Nbr G) (· ∈ seeds) p y := by
      rcases a4 with q | ⟨q, -⟩
      · intro x y h1 h2
        rw [← hm] at h1 ⊢
        exact q x y h1 h2 not_on_replicate
      · exact absurd hd q
    rw [← within_iff_reach (S := (· ∈ seeds))]
    exact ⟨fun h => ⟨p, h⟩, fun ⟨n, h⟩ => Within.closed hcl h⟩
  · intro h0
    have hle := a5 (by omega)
    have hle' : p ≤ depth.toNat := by omega
    refine ⟨by omega, fun x => ?_⟩
    rw [hm]
    refine ⟨Within.mono hle', fun hx => ?_⟩
    rcases a4 with q | ⟨-, q⟩
    · refine Within.closed ?_ hx
      intro x y h1 h2
      rw [← hm] at h1 ⊢
      exact q x y h1 h2 not_on_replicate
    · obtain rfl : p = depth.toNat := by omega
      exact hx
  · intro hd
    have := a5 (by omega)
    omega
  · intro q hq
    obtain ⟨x, h1, h2⟩ := a6 q hq
    exact ⟨x, (hW _ _).mp h1, fun h => h2 ((hW _ _).mpr h)⟩

example : IsSky [1, 0, 2, 1, 4, 3] [0, 1, 3, 4, 5, 6] [[1], [0, 2], [1], [4], [3]] ∧ ValidGraph [[1], [0, 2], [1], [4], [3]] ∧
    computeSpreadZoneGraduallyFromSeed [0] [1, 0, 2, 1, 4, 3] [0, 1, 3, 4, 5, 6] (-1) = .ok ([some 0, some 1, some 2], 3) ∧
    computeSpreadZoneGraduallyFromSeed [0] [1, 0, 2, 1, 4, 3] [0, 1, 3, 4, 5, 6] 1 = .ok ([some 0, some 1], 1) := by
  refine ⟨⟨by decide, by decide⟩, ?_, by decide, by decide⟩
  unfold ValidGraph
  decide

/-- C61: a seed which is not a cell is refused; without any cell the answer is empty. -/
theorem C61_bad_seed {arr idx : List Int} {G : List (List Int)} (h : IsSky arr idx G) {seeds : List Int} (depth : Int) :
    (G ≠ [] → (∃ x ∈ seeds, ¬ (0 ≤ x ∧ x < (G.length : Int))) → computeSpreadZoneGraduallyFromSeed seeds arr idx depth = .error .exn) ∧
    (G = [] → computeSpreadZoneGraduallyFromSeed seeds arr idx depth = .ok ([], 0)) := by
  have hil : (idx.length : Int) - 1 = (G.length : Int) := by
    have := h.idx_length
    omega
  constructor
  · intro hne hbad
    have hpos : 0 < G.length := List.length_pos_of_ne_nil hne
    have key : ∀ (f f2 : List Bool), f.length = G.length → f2.length = G.length →
        seeds.foldlM (seedStep (G.length : Int)) (f, f2) = .error .exn := by
      induction seeds with
      | nil => simp at hbad
      | cons x l ih =>
        intro f f2 h1 h2
        rw [List.foldlM_cons]
        by_cases hx : 0 ≤ x ∧ x < (G.length : Int)
        · obtain ⟨g, b1, b2, -⟩ := wr_on (l := f) hx.1 (by omega)
          obtain ⟨g2, c1, c2, -⟩ := wr_on (l := f2) hx.1 (by omega)
          have hst : seedStep (G.length : Int) (f, f2) x = .ok (g, g2) := by
            unfold seedStep
            rw [if_pos hx, b1, ok_bind, c1, ok_bind]
          rw [hst, ok_bind]
          refine ih ?_ g g2 (by omega) (by omega)
          obtain ⟨y, q1, q2⟩ := hbad
          rcases List.mem_cons.mp q1 with rfl | q1
          · exact absurd hx q2
          · exact ⟨y, q1, q2⟩
        · have hst : seedStep (G.length : Int) (f, f2) x = .error .exn := by
            unfold seedStep
            rw [if_neg hx]
            rfl
          rw [hst, err_bind]
    unfold computeSpreadZoneGraduallyFromSeed spreadAlg
    simp only
    rw [hil, if_neg (by omega), if_neg (by omega), Int.toNat_natCast, key _ _ (by simp) (by simp)]
    rfl
  · rintro rfl
    unfold computeSpreadZoneGraduallyFromSeed
    simp only
    rw [hil, if_pos (by simp)]

/-- C61, finding: the documentation says that negative values are ignored; the flag before the first one is read. -/
theorem C61_negative_neighbour : computeSpreadZoneGraduallyFromSeed [0] [-1, 0] [0, 1, 2] (-1) = .error .ub := by decide

/-! ## Partition -/

theorem idxOf_false_spec (l : List Bool) : l.idxOf false ≤ l.length ∧ (∀ i < l.idxOf false, l[i]? = some true) ∧
    (l.idxOf false < l.length → l[l.idxOf false]? = some false) := by
  induction l with
  | nil => simp
  | cons b l ih =>
    obtain ⟨h1, h2, h3⟩ := ih
    cases b with
    | false => simp
    | true =>
      rw [List.idxOf_cons_ne _ (by simp)]
      refine ⟨by simp; omega, ?_, ?_⟩
      · intro i hi
        cases i with
        | zero => simp
        | succ i => simpa using h2 i (by omega)
      · intro hi
        simpa using h3 (by simpa using hi)

theorem within_avoid {R : Int → Int → Prop} {F S : Int → Prop} (hS : ∀ s, S s → ¬ F s) {p : Nat} {x : Int}
    (h : Within (fun y x => R y x ∧ ¬ F x) S p x) : ¬ F x := by
  induction p generalizing x with
  | zero => exact hS x h
  | succ p ih =>
    rcases h with h | ⟨y, -, -, q⟩
    · exact ih h
    · exact q

theorem reach_mono {R R' : Int → Int → Prop} (h : ∀ x y, R x y → R' x y) {x y : Int} (hr : Relation.ReflTransGen R x y) :
    Relation.ReflTransGen R' x y := by
  induction hr with
  | refl => exact .refl
  | tail _ h2 ih => exact ih.tail (h _ _ h2)

theorem reach_symm {R : Int → Int → Prop} (h : ∀ x y, R x y → R y x) {x y : Int} (hr : Relation.ReflTransGen R x y) :
    Relation.ReflTransGen R y x := by
  induction hr with
  | refl => exact .refl
  | tail _ h2 ih => exact .head (h _ _ h2) ih

/-- The parts found so far. -/
structure ZonesInv (G : List (List Int)) (seed : Nat) (fetched : List Bool) (zones : List (List Int)) : Prop where
  len : fetched.length = G.length
  le : seed ≤ G.length
  before : ∀ i < seed, fetched[i]? = some true
  at_seed : seed < G.length → fetched[seed]? = some false
  cover : ∀ x, On fetched x ↔ ∃ z ∈ zones, x ∈ z
  sorted : ∀ z ∈ zones, StrictSorted z
  disj : zones.Pairwise List.Disjoint
  /-- each part starts with its least cell, and these are increasing -/
  heads : zones.Pairwise fun z z' => ∀ a ∈ z.head?, ∀ b ∈ z'.head?, a < b
  head_lt : ∀ z ∈ zones, ∃ a, z.head? = some a ∧ 0 ≤ a ∧ a < (seed : Int)
  comp : (∀ x y, Nbr G x y → Nbr G y x) → ∀ z ∈ zones, ∀ x ∈ z, ∀ y, y ∈ z ↔ Relation.ReflTransGen (Nbr G) x y

theorem partitionLoop_spec {arr idx : List Int} {G : List (List Int)} (h : IsSky arr idx G) (hv : ValidGraph G) {fuel seed : Nat}
    {fetched : List Bool} {zones : List (List Int)} (hI : ZonesInv G seed fetched zones) (hf : G.length - seed + 1 ≤ fuel) :
    ∃ zones' fetched', partitionLoop arr idx fuel seed fetched (zones.map fun z => z.map some) = .ok (zones'.map fun z => z.map some) ∧
      ZonesInv G G.length fetched' zones' := by
  have hil : (idx.length : Int) - 1 = (G.length : Int) := by
    have := h.idx_length
    omega
  induction fuel generalizing seed fetched zones with
  | zero => omega
  | succ fuel ih =>
    unfold partitionLoop
    rw [hil]
    by_cases hc : (seed : Int) < (G.length : Int)
    · rw [if_pos hc]
      have hsl : seed < G.length := by omega
      obtain ⟨f', ids, p, e, b1, b2, b3, b4, b5, -, -⟩ := spreadAlg_spec h hv (seeds := [(seed : Int)]) (by simp; omega) hI.len (-1)
      rw [e, ok_bind]
      have hseedoff : ¬ On fetched (seed : Int) := by
        rintro ⟨i, e1, e2⟩
        have : i = seed := by omega
        subst this
        rw [hI.at_seed hsl] at e2
        simp at e2
      have hclosed : ∀ x y, x ∈ ids → Nbr G x y → ¬ On fetched y → y ∈ ids := b5.resolve_right (by simp)
      have hseedin : (seed : Int) ∈ ids := (b3 _).mpr (Within.mono (Nat.zero_le p) (by simp [Within]))
      -- none of the cells of the new part was fetched
      have hnot : ∀ x ∈ ids, ¬ On fetched x := by
        intro x hx
        refine within_avoid (F := On fetched) (S := (· ∈ [(seed : Int)])) ?_ ((b3 x).mp hx)
        intro s hs
        rw [List.mem_singleton] at hs
        rw [hs]
        exact hseedoff
      have hreach : ∀ x ∈ ids, Relation.ReflTransGen (Nbr G) (seed : Int) x := by
        intro x hx
        obtain ⟨s, q1, q2⟩ := within_iff_reach.mp ⟨p, (b3 x).mp hx⟩
        rw [List.mem_singleton] at q1
        subst q1
        exact reach_mono (fun _ _ h => h.1) q2
      -- the cells before the seed are in former parts
      have hids : ∀ x ∈ ids, (seed : Int) ≤ x := by
        intro x hx
        by_contra hlt
        have hx0 := ((b4 x).mpr (Or.inr hx)).range.1
        lift x to Nat using hx0
        exact hnot _ hx ⟨x, rfl, hI.before x (by omega)⟩
      have hhead : ids.head? = some (seed : Int) := by
        cases hc2 : ids with
        | nil => rw [hc2] at hseedin; simp at hseedin
        | cons a t =>
          rw [hc2] at hseedin b2 hids
          rcases List.mem_cons.mp hseedin with q | q
          · simp [q]
          · have h1 := (List.pairwise_cons.mp b2).1 _ q
            have h2 := hids a (by simp)
            omega
      obtain ⟨d1, d2, d3⟩ := idxOf_false_spec (f'.drop seed)
      have hdl : (f'.drop seed).length = G.length - seed := by simp [b1]
      have hgt : 0 < (f'.drop seed).idxOf false := by
        by_contra hz
        have hz : (f'.drop seed).idxOf false = 0 := by omega
        have h0 := d3 (by omega)
        rw [hz, List.getElem?_drop, Nat.add_zero] at h0
        obtain ⟨i, e1, e2⟩ := (b4 _).mpr (Or.inr hseedin)
        have : i = seed := by omega
        subst this
        rw [h0] at e2
        simp at e2
      have hI' : ZonesInv G (seed + (f'.drop seed).idxOf false) f' (zones ++ [ids]) := by
        refine ⟨b1, by omega, ?_, ?_, ?_, ?_, ?_, ?_, ?_, ?_⟩
        · intro i hi
          by_cases his : i < seed
          · obtain ⟨j, e1, e2⟩ := (b4 (i : Int)).mpr (Or.inl ⟨i, rfl, hI.before i his⟩)
            have : j = i := by omega
            subst this
            exact e2
          · have := d2 (i - seed) (by omega)
            rw [List.getElem?_drop, show seed + (i - seed) = i by omega] at this
            exact this
        · intro hlt
          have := d3 (by omega)
          rw [List.getElem?_drop] at this
          exact this
        · intro x
          rw [b4, hI.cover]
          simp only [List.mem_append, List.mem_singleton]
          constructor
          · rintro (⟨z, h1, h2⟩ | h1)
            · exact ⟨z, Or.inl h1, h2⟩
            · exact ⟨ids, Or.inr rfl, h1⟩
          · rintro ⟨z, h1 | h1, h2⟩
            · exact Or.inl ⟨z, h1, h2⟩
            · subst h1; exact Or.inr h2
        · intro z hz
          rcases List.mem_append.mp hz with hz | hz
          · exact hI.sorted z hz
          · rw [List.mem_singleton] at hz; subst hz; exact b2
        · rw [List.pairwise_append]
          refine ⟨hI.disj, by simp, ?_⟩
          intro z hz z' hz'
          rw [List.mem_singleton] at hz'
          subst hz'
          intro x hx hx'
          exact hnot x hx' ((hI.cover x).mpr ⟨z, hz, hx⟩)
        · rw [List.pairwise_append]
          refine ⟨hI.heads, by simp, ?_⟩
          intro z hz z' hz' a ha b hb
          rw [List.mem_singleton] at hz'
          subst hz'
          obtain ⟨a', q1, q2, q3⟩ := hI.head_lt z hz
          rw [q1] at ha
          rw [hhead] at hb
          simp only [Option.mem_def, Option.some.injEq] at ha hb
          omega
        · intro z hz
          rcases List.mem_append.mp hz with hz | hz
          · obtain ⟨a', q1, q2, q3⟩ := hI.head_lt z hz
            exact ⟨a', q1, q2, by omega⟩
          · rw [List.mem_singleton] at hz
            subst hz
            exact ⟨seed, hhead, by omega, by omega⟩
        · intro hsym z hz
          rcases List.mem_append.mp hz with hz | hz
          · exact hI.comp hsym z hz
          · rw [List.mem_singleton] at hz
            subst hz
            have hFc : ∀ x y, On fetched x → Nbr G x y → On fetched y := by
              intro x y h1 h2
              obtain ⟨z, q1, q2⟩ := (hI.cover x).mp h1
              exact (hI.cover y).mpr ⟨z, q1, (hI.comp hsym z q1 x q2 y).mpr (.single h2)⟩
            intro x hx y
            constructor
            · intro hy
              exact (reach_symm hsym (hreach x hx)).trans (hreach y hy)
            · intro hxy
              induction hxy with
              | refl => exact hx
              | tail _ h2 ih2 =>
                exact hclosed _ _ ih2 h2 fun hF => hnot _ ih2 (hFc _ _ hF (hsym _ _ h2))
      have := ih hI' (by omega)
      rw [List.map_append, List.map_singleton] at this
      exact this
    · rw [if_neg hc]
      have : seed = G.length := by have := hI.le; omega
      subst this
      exact ⟨zones, fetched, rfl, hI⟩

/-- C62: `PartitionBySpreadZone`: each cell is in exactly one part, each part is increasing, the parts are ordered by their least cell.
When the relation of neighbourhood is symmetric the parts are exactly the connected components. -/
theorem C62_partition {arr idx : List Int} {G : List (List Int)} (h : IsSky arr idx G) (hv : ValidGraph G) :
    ∃ zones : List (List Int), partitionBySpreadZoneOf arr idx = .ok (zones.map fun z => z.map some) ∧
      (∀ x : Int, 0 ≤ x ∧ x < (G.length : Int) ↔ ∃ z ∈ zones, x ∈ z) ∧ zones.Pairwise List.Disjoint ∧
      (∀ z ∈ zones, z ≠ [] ∧ StrictSorted z) ∧ (zones.Pairwise fun z z' => ∀ a ∈ z.head?, ∀ b ∈ z'.head?, a < b) ∧
      ((∀ x y, Nbr G x y → Nbr G y x) → ∀ z ∈ zones, ∀ x ∈ z, ∀ y, y ∈ z ↔ Relation.ReflTransGen (Nbr G) x y) := by
  have hil := h.idx_length
  unfold partitionBySpreadZoneOf
  rw [if_neg (by omega)]
  by_cases hne : G = []
  · subst hne
    rw [if_pos (by simp at hil; omega)]
    refine ⟨[], rfl, ?_, by simp, by simp, by simp, by simp⟩
    intro x
    simp
  · have hpos : 0 < G.length := List.length_pos_of_ne_nil hne
    rw [if_neg (by omega), show idx.length - 1 = G.length by omega]
    have hI : ZonesInv G 0 (List.replicate G.length false) [] := by
      refine ⟨by simp, by omega, fun i hi => by omega, fun _ => by rw [List.getElem?_replicate, if_pos hpos], ?_, by simp, by simp, by simp, by simp, by simp⟩
      intro x
      simp [not_on_replicate]
    obtain ⟨zones, f, e, hr⟩ := partitionLoop_spec h hv hI (fuel := idx.length + 1) (by omega)
    refine ⟨zones, e, ?_, hr.disj, ?_, hr.heads, hr.comp⟩
    · intro x
      rw [← hr.cover]
      constructor
      · rintro ⟨h0, h1⟩
        lift x to Nat using h0
        exact ⟨x, rfl, hr.before x (by omega)⟩
      · intro hx
        have := hx.range
        rw [hr.len] at this
        exact this
    · intro z hz
      refine ⟨?_, hr.sorted z hz⟩
      rintro rfl
      obtain ⟨a, q, -⟩ := hr.head_lt _ hz
      simp at q

example : partitionBySpreadZoneOf [1, 0, 3, 4, 2, 2] [0, 1, 2, 4, 5, 6] = .ok [[some 0, some 1], [some 2, some 3, some 4]] := by decide

end
end MC
