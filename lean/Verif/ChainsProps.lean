import Verif.Chains
import Verif.SkyOpsProps
import Mathlib.Data.List.Chain
import Mathlib.Logic.Relation

/-! # C25, C38 – theorems -/

namespace MC

/-- Each pair starts where the previous one ends. -/
def Consecutive (l : List Seg) : Prop := l.IsChain fun p q => p.2 = q.1

/-- The pair without orientation. -/
def norm (p : Seg) : Seg := (min p.1 p.2, max p.1 p.2)

/-- The same pairs (with multiplicity), up to order and orientation. -/
def SamePairs (l l' : List Seg) : Prop := (l.map norm).Perm (l'.map norm)

/-- A path from `u` to `v`. -/
def Path : Int → List Seg → Int → Prop
  | u, [], v => u = v
  | u, p :: l, v => p.1 = u ∧ Path p.2 l v

theorem Path.append {u v w : Int} {l l' : List Seg} (h : Path u l v) (h' : Path v l' w) : Path u (l ++ l') w := by
  induction l generalizing u with
  | nil => cases h; exact h'
  | cons p l ih => exact ⟨h.1, ih h.2⟩

theorem Path.reverse {u v : Int} {l : List Seg} (h : Path u l v) : Path v (aggReverse l) u := by
  induction l generalizing u with
  | nil => cases h; rfl
  | cons p l ih =>
    have : aggReverse (p :: l) = aggReverse l ++ [(p.2, p.1)] := by simp [aggReverse]
    rw [this]
    exact (ih h.2).append ⟨rfl, h.1⟩

theorem Path.consecutive {u v : Int} {l : List Seg} (h : Path u l v) : Consecutive l := by
  induction l generalizing u with
  | nil => exact List.IsChain.nil
  | cons p l ih =>
    cases l with
    | nil => exact List.IsChain.singleton p
    | cons q l => exact List.IsChain.cons_cons h.2.1.symm (ih h.2)

theorem path_of_consecutive {l : List Seg} (h : Consecutive l) (p : Seg) : Consecutive (p :: l) → ∃ v, Path p.1 (p :: l) v := by
  induction l generalizing p with
  | nil => intro _; exact ⟨p.2, rfl, rfl⟩
  | cons q l ih =>
    intro hc
    rcases hc with _ | _ | ⟨h1, h2⟩
    obtain ⟨v, hv⟩ := ih (by
      cases l with
      | nil => exact List.IsChain.nil
      | cons r l => rcases h2 with _ | _ | ⟨_, h3⟩; exact h3) q h2
    exact ⟨v, rfl, by rw [h1]; exact hv⟩

theorem Path.front {u v : Int} {l : List Seg} (h : Path u l v) (hne : l ≠ []) : aggFront l = .ok u := by
  cases l with
  | nil => exact absurd rfl hne
  | cons p l => simp [aggFront, h.1]

theorem Path.back {u v : Int} {l : List Seg} (h : Path u l v) (hne : l ≠ []) : aggBack l = .ok v := by
  induction l generalizing u with
  | nil => exact absurd rfl hne
  | cons p l ih =>
    cases l with
    | nil => simp [aggBack]; exact h.2
    | cons q l =>
      have := ih h.2 (by simp)
      unfold aggBack at this ⊢
      rwa [List.getLast?_cons_cons]

theorem norm_swap (p : Seg) : norm (p.2, p.1) = norm p := by simp [norm, min_comm, max_comm]

theorem samePairs_reverse (l : List Seg) : SamePairs (aggReverse l) l := by
  unfold SamePairs aggReverse
  rw [List.map_map, show (norm ∘ fun p : Seg => (p.2, p.1)) = norm from funext norm_swap]
  exact (List.reverse_perm l).map _

theorem SamePairs.append {a b c d : List Seg} (h : SamePairs a b) (h' : SamePairs c d) : SamePairs (a ++ c) (b ++ d) := by
  unfold SamePairs at *; rw [List.map_append, List.map_append]; exact h.append h'

theorem samePairs_comm (a b : List Seg) : SamePairs (a ++ b) (b ++ a) := by
  unfold SamePairs; rw [List.map_append, List.map_append]; exact List.perm_append_comm

theorem SamePairs.refl (a : List Seg) : SamePairs a a := List.Perm.refl _
theorem SamePairs.trans {a b c : List Seg} (h : SamePairs a b) (h' : SamePairs b c) : SamePairs a c := List.Perm.trans h h'
theorem SamePairs.symm {a b : List Seg} (h : SamePairs a b) : SamePairs b a := List.Perm.symm h

/-- A chain: non-empty and consecutive. -/
def Chain (l : List Seg) : Prop := l ≠ [] ∧ ∃ u v, Path u l v

/-- The two chains have no common extremity. -/
def NoCommonEnd (a b : List Seg) : Prop :=
  ∀ u v u' v', Path u a v → Path u' b v' → u ≠ u' ∧ u ≠ v' ∧ v ≠ u' ∧ v ≠ v'

theorem path_unique {l : List Seg} (hne : l ≠ []) {u v u' v' : Int} (h : Path u l v) (h' : Path u' l v') : u = u' ∧ v = v' := by
  have h1 := h.front hne
  have h2 := h.back hne
  rw [h'.front hne] at h1
  rw [h'.back hne] at h2
  injection h1 with h1
  injection h2 with h2
  exact ⟨h1.symm, h2.symm⟩

theorem tryToAggregate_spec {a o : List Seg} (ha : Chain a) (ho : Chain o) :
    (∃ d, tryToAggregate a o = .ok (some d) ∧ Chain d ∧ SamePairs d (a ++ o)) ∨ (tryToAggregate a o = .ok none ∧ NoCommonEnd a o) := by
  obtain ⟨hna, u, v, hp⟩ := ha
  obtain ⟨hno, u', v', hp'⟩ := ho
  unfold tryToAggregate
  rw [hp.front hna, hp.back hna, hp'.front hno, hp'.back hno]
  simp only [ok_bind]
  by_cases h1 : v = u'
  · rw [if_pos h1]; subst h1
    exact Or.inl ⟨_, rfl, ⟨by simp [hna], _, _, hp.append hp'⟩, SamePairs.refl _⟩
  rw [if_neg h1]
  by_cases h2 : u = v'
  · rw [if_pos h2]; subst h2
    exact Or.inl ⟨_, rfl, ⟨by simp [hna], _, _, hp'.append hp⟩, samePairs_comm _ _⟩
  rw [if_neg h2]
  by_cases h3 : u = u'
  · rw [if_pos h3]; subst h3
    exact Or.inl ⟨_, rfl, ⟨by simp [hna], _, _, hp'.reverse.append hp⟩,
      ((samePairs_reverse o).append (SamePairs.refl a)).trans (samePairs_comm _ _)⟩
  rw [if_neg h3]
  by_cases h4 : v = v'
  · rw [if_pos h4]; subst h4
    exact Or.inl ⟨_, rfl, ⟨by simp [hna], _, _, hp.append hp'.reverse⟩, (SamePairs.refl a).append (samePairs_reverse o)⟩
  rw [if_neg h4]
  refine Or.inr ⟨rfl, ?_⟩
  intro x y x' y' g g'
  obtain ⟨rfl, rfl⟩ := path_unique hna hp g
  obtain ⟨rfl, rfl⟩ := path_unique hno hp' g'
  exact ⟨h3, h2, h1, h4⟩

theorem mergeInto_spec (base : List Seg) (rest : List (List Seg)) (hb : Chain base) (hr : ∀ c ∈ rest, Chain c) :
    ∃ r, mergeInto base rest = .ok r ∧ Chain r.1 ∧ (∀ c ∈ r.2.1, Chain c) ∧ SamePairs (r.1 ++ r.2.1.flatten) (base ++ rest.flatten) ∧
      r.2.1.length ≤ rest.length ∧ (r.2.2 = true → r.2.1.length < rest.length) ∧
      (r.2.2 = false → r.1 = base ∧ r.2.1 = rest ∧ ∀ c ∈ rest, NoCommonEnd base c) := by
  induction rest generalizing base with
  | nil => exact ⟨_, rfl, hb, by simp, SamePairs.refl _, by simp, by simp, by simp⟩
  | cons o rest ih =>
    unfold mergeInto
    have hr' : ∀ c ∈ rest, Chain c := fun c hc => hr c (List.mem_cons_of_mem _ hc)
    rcases tryToAggregate_spec hb (hr o (by simp)) with ⟨d, hd, hcd, hsp⟩ | ⟨hn, hnc⟩
    · rw [hd]
      obtain ⟨r, h1, h2, h3, h4, h5, _, _⟩ := ih d hcd hr'
      simp only [ok_bind, h1]
      refine ⟨_, rfl, h2, h3, ?_, by simp; omega, fun _ => by simp; omega, by simp⟩
      refine h4.trans ?_
      rw [List.flatten_cons, ← List.append_assoc]
      exact hsp.append (SamePairs.refl _)
    · rw [hn]
      obtain ⟨r, h1, h2, h3, h4, h5, h6, h7⟩ := ih base hb hr'
      simp only [ok_bind, h1]
      refine ⟨_, rfl, h2, ?_, ?_, by simp; omega, fun h => by simp; exact h6 h, fun h => ?_⟩
      · intro c hc
        rcases List.mem_cons.mp hc with rfl | hc
        · exact hr _ (by simp)
        · exact h3 c hc
      · simp only [List.flatten_cons]
        have e1 : SamePairs (r.1 ++ (o ++ r.2.1.flatten)) (o ++ (r.1 ++ r.2.1.flatten)) := by
          rw [← List.append_assoc, ← List.append_assoc]
          exact (samePairs_comm _ _).append (SamePairs.refl _)
        have e2 : SamePairs (o ++ (base ++ rest.flatten)) (base ++ (o ++ rest.flatten)) := by
          rw [← List.append_assoc, ← List.append_assoc]
          exact (samePairs_comm _ _).append (SamePairs.refl _)
        exact e1.trans (((SamePairs.refl o).append h4).trans e2)
      · obtain ⟨g1, g2, g3⟩ := h7 h
        refine ⟨g1, by rw [g2], ?_⟩
        intro c hc
        rcases List.mem_cons.mp hc with rfl | hc
        · exact hnc
        · exact g3 c hc

theorem mergePass_spec (fuel : Nat) (tab : List (List Seg)) (hne : tab ≠ []) (hf : tab.length ≤ fuel) (hc : ∀ c ∈ tab, Chain c) :
    ∃ r, mergePass fuel tab = .ok r ∧ r.1 ≠ [] ∧ (∀ c ∈ r.1, Chain c) ∧ SamePairs r.1.flatten tab.flatten ∧
      r.1.length ≤ tab.length ∧ (r.2 = true → r.1.length < tab.length) ∧
      (r.2 = false → r.1 = tab ∧ tab.Pairwise NoCommonEnd) := by
  induction fuel generalizing tab with
  | zero => cases tab with
    | nil => exact absurd rfl hne
    | cons a l => simp at hf
  | succ fuel ih =>
    cases tab with
    | nil => exact absurd rfl hne
    | cons base rest =>
      obtain ⟨r, h1, h2, h3, h4, h5, h6, h7⟩ := mergeInto_spec base rest (hc base (by simp)) fun c hc' => hc c (List.mem_cons_of_mem _ hc')
      unfold mergePass
      rw [h1, ok_bind]
      by_cases he : r.2.1 = []
      · rw [if_pos he]
        refine ⟨_, rfl, by simp, by simpa using h2, ?_, by simp, ?_, ?_⟩
        · simpa [he] using h4
        · intro h; have := h6 h; simp; omega
        · intro h
          obtain ⟨g1, g2, g3⟩ := h7 h
          rw [he] at g2
          subst g2
          exact ⟨by simp [g1], by simp⟩
      · rw [if_neg he]
        obtain ⟨t, k1, k2, k3, k4, k5, k6, k7⟩ := ih r.2.1 he (by simp at hf; omega) h3
        rw [k1, ok_bind]
        refine ⟨_, rfl, by simp, ?_, ?_, by simp; omega, ?_, ?_⟩
        · intro c hc'
          rcases List.mem_cons.mp hc' with rfl | hc'
          · exact h2
          · exact k3 c hc'
        · simp only [List.flatten_cons]
          exact ((SamePairs.refl _).append k4).trans h4
        · intro h
          simp only [Bool.or_eq_true] at h
          simp only [List.length_cons]
          rcases h with h | h
          · have := h6 h; omega
          · have := k6 h; omega
        · intro h
          simp only [Bool.or_eq_false_iff] at h
          obtain ⟨g1, g2, g3⟩ := h7 h.1
          obtain ⟨l1, l2⟩ := k7 h.2
          simp only
          rw [g2] at l1 l2
          exact ⟨by rw [g1, l1], List.pairwise_cons.mpr ⟨g3, l2⟩⟩

theorem findMaxLengthLines_spec (fuel : Nat) (tab : List (List Seg)) (hf : tab.length < fuel) (hc : ∀ c ∈ tab, Chain c) :
    ∃ r, findMaxLengthLines fuel tab = .ok r ∧ (∀ c ∈ r, Chain c) ∧ SamePairs r.flatten tab.flatten ∧ r.Pairwise NoCommonEnd := by
  induction fuel generalizing tab with
  | zero => omega
  | succ fuel ih =>
    unfold findMaxLengthLines
    by_cases hne : tab = []
    · rw [if_neg (by simpa using hne)]
      subst hne
      exact ⟨_, rfl, by simp, SamePairs.refl _, List.Pairwise.nil⟩
    · rw [if_pos hne]
      obtain ⟨r, h1, h2, h3, h4, h5, h6, h7⟩ := mergePass_spec tab.length tab hne (Nat.le_refl _) hc
      rw [h1, ok_bind]
      cases hb : r.2 with
      | true =>
        have := h6 hb
        obtain ⟨r', g1, g2, g3, g4⟩ := ih r.1 (by omega) h3
        refine ⟨r', ?_, g2, g3.trans h4, g4⟩
        simpa using g1
      | false =>
        obtain ⟨e, hp⟩ := h7 hb
        refine ⟨r.1, by simp, h3, h4, ?_⟩
        rw [e]; exact hp

theorem chain_singletons (l : List Seg) : (∀ c ∈ l.map fun p => [p], Chain c) ∧ (l.map fun p => [p]).flatten = l := by
  constructor
  · intro c hc
    obtain ⟨p, _, rfl⟩ := List.mem_map.mp hc
    exact ⟨by simp, p.1, p.2, rfl, rfl⟩
  · induction l with
    | nil => rfl
    | cons p l ih => simp only [List.map_cons, List.flatten_cons, ih]; rfl

theorem split_spec (l : List Seg) :
    ∃ cs, findMaxLengthLines (l.length + 1) (l.map fun p => [p]) = .ok cs ∧ (∀ c ∈ cs, Chain c) ∧ SamePairs cs.flatten l ∧ cs.Pairwise NoCommonEnd := by
  obtain ⟨h1, h2⟩ := chain_singletons l
  obtain ⟨r, g1, g2, g3, g4⟩ := findMaxLengthLines_spec (l.length + 1) (l.map fun p => [p]) (by simp) h1
  rw [h2] at g3
  exact ⟨r, g1, g2, g3, g4⟩

/-- First and last node of a list of pairs. -/
def ends : List Seg → List Int
  | [] => []
  | p :: l => [p.1, ((p :: l).getLast (by simp)).2]

theorem path_ends {u v : Int} {l : List Seg} (h : Path u l v) (hne : l ≠ []) : ends l = [u, v] := by
  have h1 := h.front hne
  have h2 := h.back hne
  cases l with
  | nil => exact absurd rfl hne
  | cons p l =>
    simp only [aggFront, Except.ok.injEq] at h1
    unfold aggBack at h2
    rw [List.getLast?_eq_getLast_of_ne_nil (by simp)] at h2
    simp only [Except.ok.injEq] at h2
    simp only [ends, h1, h2]

/-- **C25 (chains).** `splitPairsIntoChains` never fails: it cuts the pairs into non-empty chains, each pair being used exactly once
(up to its orientation), and two different chains never have a common extremity. -/
theorem C25_split (l : List Seg) :
    ∃ cs, splitPairsIntoChains l = .ok cs ∧ (∀ c ∈ cs, c ≠ [] ∧ Consecutive c) ∧ SamePairs cs.flatten l ∧
      cs.Pairwise fun c d => ∀ x ∈ ends c, x ∉ ends d := by
  have key : ∀ cs : List (List Seg), (∀ c ∈ cs, Chain c) → cs.Pairwise NoCommonEnd →
      (∀ c ∈ cs, c ≠ [] ∧ Consecutive c) ∧ cs.Pairwise fun c d => ∀ x ∈ ends c, x ∉ ends d := by
    intro cs h1 h2
    refine ⟨fun c hc => ?_, ?_⟩
    · obtain ⟨hne, u, v, hp⟩ := h1 c hc
      exact ⟨hne, hp.consecutive⟩
    · refine h2.imp_of_mem ?_
      intro c d hc hd hn x hx hx'
      obtain ⟨hne, u, v, hp⟩ := h1 c hc
      obtain ⟨hne', u', v', hp'⟩ := h1 d hd
      rw [path_ends hp hne] at hx
      rw [path_ends hp' hne'] at hx'
      obtain ⟨n1, n2, n3, n4⟩ := hn u v u' v' hp hp'
      simp at hx hx'
      rcases hx with rfl | rfl <;> rcases hx' with rfl | rfl <;> contradiction
  unfold splitPairsIntoChains
  by_cases h : l = []
  · rw [if_pos h]; subst h
    exact ⟨[], rfl, by simp, SamePairs.refl _, List.Pairwise.nil⟩
  · rw [if_neg h]
    obtain ⟨cs, h1, h2, h3, h4⟩ := split_spec l
    exact ⟨cs, h1, (key cs h2 h4).1, h3, (key cs h2 h4).2⟩

example : splitPairsIntoChains [(1, 2), (7, 8), (3, 2), (4, 3)] = .ok [[(1, 2), (2, 3), (3, 4)], [(7, 8)]] := by rfl

/-- **C25 (`sortToHaveConsecutivePairs`).** On success the result is a chain made of the same pairs; otherwise it throws. -/
theorem C25_sort_consecutive (l : List Seg) :
    wp (sortToHaveConsecutivePairs l) (fun r => Consecutive r ∧ SamePairs r l) (¬ ∃ c, splitPairsIntoChains l = .ok [c]) := by
  unfold sortToHaveConsecutivePairs splitPairsIntoChains
  by_cases h : l = []
  · rw [if_pos h, wp_ok]; subst h
    exact ⟨List.IsChain.nil, SamePairs.refl _⟩
  · rw [if_neg h, if_neg h]
    obtain ⟨cs, h1, h2, h3, h4⟩ := split_spec l
    rw [h1, ok_bind]
    match cs with
    | [] => rw [wp_throwX]; simp
    | [c] =>
      rw [wp_ok]
      obtain ⟨_, u, v, hp⟩ := h2 c (by simp)
      exact ⟨hp.consecutive, by simpa using h3⟩
    | c :: d :: cs => rw [wp_throwX]; simp

example : sortToHaveConsecutivePairs [(1, 2), (3, 4), (3, 2)] = .ok [(1, 2), (2, 3), (3, 4)] ∧
    sortToHaveConsecutivePairs [(1, 2), (3, 4)] = .error Err.exn := ⟨rfl, rfl⟩

/-! ### Completeness -/

/-- Number of ends of pairs at node `x` (a pair `(x,x)` counts twice). -/
def degree (l : List Seg) (x : Int) : Nat := (l.map Prod.fst).count x + (l.map Prod.snd).count x

theorem degree_norm (l : List Seg) (x : Int) : degree (l.map norm) x = degree l x := by
  induction l with
  | nil => rfl
  | cons p l ih =>
    unfold degree at ih ⊢
    simp only [List.map_cons, List.count_cons]
    have : (if (norm p).1 == x then 1 else 0) + (if (norm p).2 == x then 1 else 0) = (if p.1 == x then 1 else 0) + (if p.2 == x then 1 else 0) := by
      unfold norm
      rcases le_total p.1 p.2 with h | h
      · simp [h]
      · simp [h]; omega
    omega

theorem SamePairs.degree {l l' : List Seg} (h : SamePairs l l') (x : Int) : degree l x = degree l' x := by
  rw [← degree_norm l, ← degree_norm l']
  unfold MC.degree
  rw [(h.map Prod.fst).count_eq, (h.map Prod.snd).count_eq]

theorem degree_append (l l' : List Seg) (x : Int) : degree (l ++ l') x = degree l x + degree l' x := by
  unfold degree; simp only [List.map_append, List.count_append]; omega

theorem degree_pos {l : List Seg} {x : Int} : 0 < degree l x ↔ ∃ p ∈ l, x = p.1 ∨ x = p.2 := by
  unfold degree
  constructor
  · intro h
    by_cases h1 : 0 < (l.map Prod.fst).count x
    · rw [List.count_pos_iff] at h1
      obtain ⟨p, hp, rfl⟩ := List.mem_map.mp h1
      exact ⟨p, hp, Or.inl rfl⟩
    · have h2 : 0 < (l.map Prod.snd).count x := by omega
      rw [List.count_pos_iff] at h2
      obtain ⟨p, hp, rfl⟩ := List.mem_map.mp h2
      exact ⟨p, hp, Or.inr rfl⟩
  · rintro ⟨p, hp, rfl | rfl⟩
    · have := List.count_pos_iff.mpr (List.mem_map_of_mem (f := Prod.fst) hp); omega
    · have := List.count_pos_iff.mpr (List.mem_map_of_mem (f := Prod.snd) hp); omega

theorem Path.parity {u v : Int} {l : List Seg} (h : Path u l v) (x : Int) :
    (l.map Prod.fst).count x + (if v = x then 1 else 0) = (l.map Prod.snd).count x + (if u = x then 1 else 0) := by
  induction l generalizing u with
  | nil => cases h; simp
  | cons p l ih =>
    have := ih h.2
    simp only [List.map_cons, List.count_cons]
    have h1 := h.1
    subst h1
    simp only [beq_iff_eq]
    omega

/-- A node with an odd degree in a path is one of its extremities. -/
theorem Path.odd_end {u v : Int} {l : List Seg} (h : Path u l v) {x : Int} (hx : MC.degree l x = 1) : x = u ∨ x = v := by
  have := h.parity x
  unfold MC.degree at hx
  by_cases h1 : v = x
  · exact Or.inr h1.symm
  · by_cases h2 : u = x
    · exact Or.inl h2.symm
    · rw [if_neg h1, if_neg h2] at this; omega

theorem degree_flatten_le {cs : List (List Seg)} {c : List Seg} (h : c ∈ cs) (x : Int) : degree c x ≤ degree cs.flatten x := by
  induction cs with
  | nil => simp at h
  | cons d cs ih =>
    rw [List.flatten_cons, degree_append]
    rcases List.mem_cons.mp h with rfl | h
    · omega
    · have := ih h; omega

/-- Nodes linked by the pairs. -/
def LinkedBy (l : List Seg) : Int → Int → Prop := Relation.EqvGen fun u v => (u, v) ∈ l

/-- **C25 (completeness).** If every node belongs to at most two pair ends and the pairs are connected (an open or closed polyline given
in any order and orientation), `sortToHaveConsecutivePairs` succeeds. -/
theorem C25_sort_complete (l : List Seg) (hdeg : ∀ x, degree l x ≤ 2) (hcon : ∀ p ∈ l, ∀ q ∈ l, LinkedBy l p.1 q.1) :
    ∃ r, sortToHaveConsecutivePairs l = .ok r ∧ Consecutive r ∧ SamePairs r l := by
  unfold sortToHaveConsecutivePairs
  by_cases h : l = []
  · rw [if_pos h]; subst h
    exact ⟨[], rfl, List.IsChain.nil, SamePairs.refl _⟩
  · rw [if_neg h]
    obtain ⟨cs, h1, h2, h3, h4⟩ := split_spec l
    rw [h1, ok_bind]
    match cs with
    | [] =>
      exfalso
      have := h3.length_eq
      simp at this
      exact h (List.length_eq_zero_iff.mp this.symm)
    | [c] =>
      obtain ⟨_, u, v, hp⟩ := h2 c (by simp)
      exact ⟨c, rfl, hp.consecutive, by simpa using h3⟩
    | c :: d :: cs =>
      exfalso
      -- the nodes of the first chain are not nodes of the other ones
      have hdisj : ∀ x, 0 < degree c x → ∀ e ∈ d :: cs, ¬ 0 < degree e x := by
        intro x hx e he hex
        have hle := hdeg x
        rw [← h3.degree x, List.flatten_cons, degree_append] at hle
        have := degree_flatten_le he x
        obtain ⟨hne, u, v, hp⟩ := h2 c (by simp)
        obtain ⟨hne', u', v', hp'⟩ := h2 e (List.mem_cons_of_mem _ he)
        obtain ⟨n1, n2, n3, n4⟩ := (List.pairwise_cons.mp h4).1 e he u v u' v' hp hp'
        rcases hp.odd_end (x := x) (by omega) with g | g <;> rcases hp'.odd_end (x := x) (by omega) with g' | g' <;> subst g <;>
          [exact n1 g'; exact n2 g'; exact n3 g'; exact n4 g']
      -- every pair lies in the first chain or in another one
      have hpair : ∀ a b, (a, b) ∈ l → (0 < degree c a ↔ 0 < degree c b) := by
        intro a b hab
        have hm : norm (a, b) ∈ ((c :: d :: cs).flatten).map norm := h3.mem_iff.mpr (List.mem_map_of_mem hab)
        obtain ⟨q, hq, hqe⟩ := List.mem_map.mp hm
        obtain ⟨e, he, hqe'⟩ := List.mem_flatten.mp hq
        have hnodes : (a = q.1 ∧ b = q.2) ∨ (a = q.2 ∧ b = q.1) := by
          unfold norm at hqe
          simp only [Prod.mk.injEq] at hqe
          omega
        have ha : 0 < degree e a := degree_pos.mpr ⟨q, hqe', by omega⟩
        have hb : 0 < degree e b := degree_pos.mpr ⟨q, hqe', by omega⟩
        rcases List.mem_cons.mp he with rfl | he
        · exact ⟨fun _ => hb, fun _ => ha⟩
        · exact ⟨fun hh => absurd ha (hdisj a hh e he), fun hh => absurd hb (hdisj b hh e he)⟩
      have hlink : ∀ a b, LinkedBy l a b → (0 < degree c a ↔ 0 < degree c b) := by
        intro a b hab
        induction hab with
        | rel x y hxy => exact hpair x y hxy
        | refl x => exact Iff.rfl
        | symm x y _ ih => exact ih.symm
        | trans x y z _ _ ih1 ih2 => exact ih1.trans ih2
      have horig : ∀ e ∈ c :: d :: cs, ∃ p ∈ l, 0 < degree e p.1 := by
        intro e he
        obtain ⟨hne, _⟩ := h2 e he
        obtain ⟨q, hq⟩ := List.exists_mem_of_ne_nil _ hne
        have hm : norm q ∈ l.map norm := h3.mem_iff.mp (List.mem_map_of_mem (List.mem_flatten.mpr ⟨e, he, hq⟩))
        obtain ⟨p, hp, hpe⟩ := List.mem_map.mp hm
        refine ⟨p, hp, degree_pos.mpr ⟨q, hq, ?_⟩⟩
        unfold norm at hpe
        simp only [Prod.mk.injEq] at hpe
        omega
      obtain ⟨p, hp, hpc⟩ := horig c (by simp)
      obtain ⟨q, hq, hqd⟩ := horig d (by simp)
      exact hdisj q.1 ((hlink p.1 q.1 (hcon p hp q hq)).mp hpc) d (by simp) hqd

example : sortToHaveConsecutivePairs [(1, 2), (3, 4), (1, 4), (3, 2)] = .ok [(4, 1), (1, 2), (2, 3), (3, 4)] := rfl

/-- Without the degree hypothesis a path using every pair may exist and still not be found. -/
theorem C25_sort_incomplete : ∃ l r, Consecutive r ∧ SamePairs r l ∧ sortToHaveConsecutivePairs l = .error Err.exn := by
  refine ⟨[(1, 2), (2, 3), (4, 5), (5, 2), (2, 4)], [(1, 2), (2, 4), (4, 5), (5, 2), (2, 3)], ?_, ?_, rfl⟩
  · unfold Consecutive; decide
  · unfold SamePairs; decide

/-! ### `fromLinkedListOfPairToList` -/

/-- **C25 (nodes of the path).** `fromLinkedListOfPairToList` succeeds exactly on non-empty lists of consecutive pairs, and then lists the
first node followed by the second node of every pair. -/
theorem C25_linked_list_to_list (l : List Seg) :
    (∀ p t, l = p :: t → Consecutive l → fromLinkedListOfPairToList l = .ok ((p.1 :: l.map Prod.snd).map some)) ∧
    (l = [] ∨ ¬ Consecutive l → fromLinkedListOfPairToList l = .error Err.exn) := by
  have hcons : Consecutive l ↔ ∀ i : Nat, ∀ (h : i + 1 < l.length), (l[i]'(by omega)).2 = (l[i + 1]).1 := by
    unfold Consecutive
    rw [List.isChain_iff_getElem]
  unfold fromLinkedListOfPairToList
  by_cases hl : l.length < 1
  · have hnil : l = [] := List.length_eq_zero_iff.mp (by omega)
    rw [if_pos hl]
    exact ⟨fun p t h => by rw [hnil] at h; simp at h, fun _ => rfl⟩
  · rw [if_neg hl]
    have h0 : 0 < l.length := by omega
    have hr0 : rd l 0 = .ok l[0] := rd_natCast (i := 0) h0
    rw [hr0, ok_bind]
    have hw : wr (mallocN Int (l.length + 1)) 0 (some (l[0]).1) = .ok (filled [(l[0]).1] (l.length + 1)).1 := by
      have := emit_filled (l := ([] : List Int)) (n := l.length + 1) (by simp) (l[0]).1
      rw [← newCur_eq] at this
      unfold emit newCur at this
      simp only at this
      split at this
      · rename_i b hb
        rw [hb]; injection this with this
        exact congrArg (fun p : Cur Int => (Except.ok p.1 : M (List (Option Int)))) this
      · simp at this
    rw [hw, ok_bind]
    have hloop : wp (loop l.length (filled [(l[0]).1] (l.length + 1)).1 fun i r => do
        let p ← rd l (i : Int)
        let r' ← wr r ((i : Int) + 1) (some p.2)
        if (i : Int) < (l.length : Int) - 1 then do
          let q ← rd l ((i : Int) + 1)
          if p.2 ≠ q.1 then throwX else .ok r'
        else .ok r')
        (fun r => (∀ i : Nat, i < l.length → ∀ (h : i + 1 < l.length), (l[i]'(by omega)).2 = (l[i + 1]).1) ∧
          r = (filled ((l[0]).1 :: (l.take l.length).map Prod.snd) (l.length + 1)).1) (¬ Consecutive l) := by
      refine wp_loop (fun k r => (∀ i : Nat, i < k → ∀ (h : i + 1 < l.length), (l[i]'(by omega)).2 = (l[i + 1]).1) ∧
          r = (filled ((l[0]).1 :: (l.take k).map Prod.snd) (l.length + 1)).1) ⟨by intro i h; omega, by simp⟩ ?_
      rintro k hk r ⟨hc, rfl⟩
      rw [rd_natCast hk, ok_bind]
      have hw : wr (filled ((l[0]).1 :: (l.take k).map Prod.snd) (l.length + 1)).1 ((k : Int) + 1) (some (l[k]).2) =
          .ok (filled ((l[0]).1 :: (l.take (k + 1)).map Prod.snd) (l.length + 1)).1 := by
        have hlen : ((l[0]).1 :: (l.take k).map Prod.snd).length = k + 1 := by simp; omega
        have := emit_filled (l := (l[0]).1 :: (l.take k).map Prod.snd) (n := l.length + 1) (by omega) (l[k]).2
        unfold emit at this
        have e2 : (filled ((l[0]).1 :: (l.take k).map Prod.snd) (l.length + 1)).2 = (k : Int) + 1 := by
          simp only [filled, hlen]; push_cast; rfl
        rw [e2] at this
        split at this
        · rename_i b hb
          rw [hb]; injection this with this
          rw [List.take_succ_eq_append_getElem hk, List.map_append, ← List.cons_append]
          exact congrArg (fun p : Cur Int => (Except.ok p.1 : M (List (Option Int)))) this
        · simp at this
      rw [hw, ok_bind]
      by_cases hlast : (k : Int) < (l.length : Int) - 1
      · rw [if_pos hlast]
        have hk1 : k + 1 < l.length := by omega
        have : rd l ((k : Int) + 1) = .ok l[k + 1] := by exact_mod_cast rd_natCast hk1
        rw [this, ok_bind]
        by_cases he : (l[k]).2 = (l[k + 1]).1
        · rw [if_neg (by simpa using he), wp_ok]
          refine ⟨fun i hi h => ?_, rfl⟩
          rcases Nat.lt_succ_iff_lt_or_eq.mp hi with hi | rfl
          · exact hc i hi h
          · exact he
        · rw [if_pos he, wp_throwX, hcons]
          intro hh; exact he (hh k hk1)
      · rw [if_neg hlast, wp_ok]
        refine ⟨fun i hi h => ?_, rfl⟩
        rcases Nat.lt_succ_iff_lt_or_eq.mp hi with hi | rfl
        · exact hc i hi h
        · omega
    constructor
    · intro p t hpt hcc
      have h' := wp_mono hloop (Q' := _) (E' := False) (fun a h => h) (fun h => h hcc)
      obtain ⟨r, hr, _, he⟩ := wp_exists h'
      rw [hr, he, filled_full (by simp)]
      simp [hpt]
    · rintro (h | h)
      · rw [h] at h0; simp at h0
      · apply wp_throws
        refine wp_mono hloop (fun a ha => h (hcons.mpr fun i hi => ha.1 i (by omega) hi)) (fun _ => trivial)

example : fromLinkedListOfPairToList [(1, 2), (2, 5)] = .ok [some 1, some 2, some 5] ∧ fromLinkedListOfPairToList [(1, 2), (3, 5)] = .error Err.exn :=
  ⟨rfl, rfl⟩

/-! ### `sortEachPairToMakeALinkedList` -/

/-- Same pair, possibly flipped. -/
def Flip (p q : Seg) : Prop := q = p ∨ q = (p.2, p.1)

/-- `r` orients the pairs of `l`, in the same order, as a walk which never degenerates nor turns back immediately. -/
def Oriented (l r : List Seg) : Prop :=
  List.Forall₂ Flip l r ∧ (∀ p ∈ r, p.1 ≠ p.2) ∧ r.IsChain fun p q => p.2 = q.1 ∧ q.2 ≠ p.1

theorem linkNext_spec (p q : Seg) :
    (∀ q', linkNext p q = .ok q' ↔ (Flip q q' ∧ q'.1 ≠ q'.2 ∧ p.2 = q'.1 ∧ q'.2 ≠ p.1)) ∧ linkNext p q ≠ .error Err.ub := by
  obtain ⟨a, b⟩ := p
  obtain ⟨c, d⟩ := q
  unfold linkNext linkSwap Flip
  simp only
  by_cases h1 : c = d
  · rw [if_pos h1]
    refine ⟨fun q' => ?_, by simp [throwX]⟩
    constructor
    · intro h; simp [throwX] at h
    · rintro ⟨rfl | rfl, h2, _⟩
      · exact absurd h1 h2
      · exact absurd h1.symm h2
  rw [if_neg h1]
  by_cases h2 : c ≠ b ∧ d ≠ b
  · rw [if_pos h2]
    refine ⟨fun q' => ?_, by simp [throwX]⟩
    constructor
    · intro h; simp [throwX] at h
    · rintro ⟨rfl | rfl, _, h3, _⟩
      · exact absurd h3.symm h2.1
      · exact absurd h3.symm h2.2
  rw [if_neg h2]
  by_cases h3 : c ≠ b ∧ d = b ∧ c ≠ a
  · rw [if_pos h3]
    simp only
    rw [if_neg (by push Not; exact ⟨h3.2.1, h3.1, h3.2.2⟩)]
    refine ⟨fun q' => ?_, by simp⟩
    constructor
    · intro h
      injection h with h; subst h
      exact ⟨Or.inr rfl, Ne.symm h1, h3.2.1.symm, h3.2.2⟩
    · rintro ⟨rfl | rfl, _, h4, _⟩
      · exact absurd h4.symm h3.1
      · rfl
  rw [if_neg h3]
  by_cases h4 : c ≠ b ∨ d = b ∨ d = a
  · rw [if_pos h4]
    refine ⟨fun q' => ?_, by simp [throwX]⟩
    constructor
    · intro h; simp [throwX] at h
    · rintro ⟨rfl | rfl, h5, h6, h7⟩ <;> simp only at h5 h6 h7 <;> omega
  · rw [if_neg h4]
    refine ⟨fun q' => ?_, by simp⟩
    constructor
    · intro h
      injection h with h; subst h
      exact ⟨Or.inl rfl, h1, by simp only; omega, by simp only; omega⟩
    · rintro ⟨rfl | rfl, h5, h6, h7⟩
      · rfl
      · simp only at h5 h6 h7; omega

theorem linkRest_spec (p : Seg) (l : List Seg) :
    (∀ r, linkRest p l = .ok r ↔ (List.Forall₂ Flip l r ∧ (∀ q ∈ r, q.1 ≠ q.2) ∧ (p :: r).IsChain fun p q => p.2 = q.1 ∧ q.2 ≠ p.1)) ∧
    linkRest p l ≠ .error Err.ub := by
  induction l generalizing p with
  | nil =>
    refine ⟨fun r => ?_, by simp [linkRest]⟩
    constructor
    · intro h; simp [linkRest] at h; subst h
      exact ⟨List.Forall₂.nil, by simp, List.IsChain.singleton p⟩
    · rintro ⟨h, _⟩; cases h; rfl
  | cons q l ih =>
    obtain ⟨hn, hu⟩ := linkNext_spec p q
    unfold linkRest
    cases hq : linkNext p q with
    | error e =>
      rw [err_bind]
      refine ⟨fun r => ?_, by intro h; apply hu; rw [hq]; injection h with h; rw [h]⟩
      constructor
      · intro h; simp at h
      · rintro ⟨h1, h2, h3⟩
        cases h1 with
        | cons hf ht =>
          rename_i q' r'
          rcases h3 with _ | _ | ⟨h4, h5⟩
          have := (hn q').mpr ⟨hf, h2 q' (by simp), h4⟩
          rw [hq] at this; simp at this
    | ok q' =>
      rw [ok_bind]
      obtain ⟨g1, g2, g3⟩ := (hn q').mp hq
      obtain ⟨ih1, ih2⟩ := ih q'
      have key : ∀ r : List Seg, (∃ r', linkRest q' l = .ok r' ∧ r = q' :: r') ↔
          (List.Forall₂ Flip (q :: l) r ∧ (∀ q ∈ r, q.1 ≠ q.2) ∧ (p :: r).IsChain fun p q => p.2 = q.1 ∧ q.2 ≠ p.1) := by
        intro r
        constructor
        · rintro ⟨r', hr', rfl⟩
          obtain ⟨k1, k2, k3⟩ := (ih1 r').mp hr'
          refine ⟨List.Forall₂.cons g1 k1, ?_, List.IsChain.cons_cons g3 k3⟩
          intro x hx
          rcases List.mem_cons.mp hx with rfl | hx
          · exact g2
          · exact k2 x hx
        · rintro ⟨h1, h2, h3⟩
          cases h1 with
          | cons hf ht =>
            rename_i q'' r'
            rcases h3 with _ | _ | ⟨h4, h5⟩
            have := (hn q'').mpr ⟨hf, h2 q'' (by simp), h4⟩
            rw [hq] at this
            injection this with this
            subst this
            exact ⟨r', (ih1 r').mpr ⟨ht, fun x hx => h2 x (List.mem_cons_of_mem _ hx), h5⟩, rfl⟩
      cases hl : linkRest q' l with
      | error e =>
        rw [err_bind]
        refine ⟨fun r => ?_, by intro h; apply ih2; rw [hl]; injection h with h; rw [h]⟩
        rw [← key]
        constructor
        · intro h; simp at h
        · rintro ⟨r', hr', _⟩; rw [hl] at hr'; simp at hr'
      | ok r' =>
        rw [ok_bind]
        refine ⟨fun r => ?_, by simp⟩
        rw [← key]
        constructor
        · intro h; injection h with h; exact ⟨r', hl, h.symm⟩
        · rintro ⟨r'', hr'', rfl⟩
          rw [hl] at hr''; injection hr'' with hr''; rw [hr'']

theorem set4_length (a b c d : Int) (h1 : a ≠ b) (h2 : c ≠ d) :
    (setInsertAll [] [a, b, c, d]).length = 3 ↔ ((a = c ∨ a = d ∨ b = c ∨ b = d) ∧ ¬ (a = c ∧ b = d) ∧ ¬ (a = d ∧ b = c)) := by
  have hlen : (setInsertAll [] [a, b, c, d]).length = ([a, b, c, d].toFinset).card := by
    have hs := sorted_setInsertAll (s := ([] : List Int)) (l := [a, b, c, d]) List.Pairwise.nil
    rw [← List.toFinset_card_of_nodup hs.nodup]
    congr 1
    ext x
    simp [mem_setInsertAll]
  rw [hlen]
  by_cases e1 : a = c <;> by_cases e2 : a = d <;> by_cases e3 : b = c <;> by_cases e4 : b = d
  all_goals (try subst e1) <;> (try subst e2) <;> (try subst e3) <;> (try subst e4) <;> simp_all [Finset.card_insert_of_notMem, eq_comm]

theorem linkFirst_spec (p q : Seg) :
    (∀ p' q', linkFirst p q = .ok (p', q') ↔ (Flip p p' ∧ Flip q q' ∧ p'.1 ≠ p'.2 ∧ q'.1 ≠ q'.2 ∧ p'.2 = q'.1 ∧ q'.2 ≠ p'.1)) ∧
    linkFirst p q ≠ .error Err.ub := by
  obtain ⟨a, b⟩ := p
  obtain ⟨c, d⟩ := q
  unfold linkFirst Flip
  simp only
  by_cases h1 : a = b ∨ c = d
  · rw [if_pos h1]
    refine ⟨fun p' q' => ?_, by simp [throwX]⟩
    constructor
    · intro h; simp [throwX] at h
    · rintro ⟨rfl | rfl, rfl | rfl, h2, h3, _⟩ <;> simp only at h2 h3 <;> omega
  rw [if_neg h1]
  push Not at h1
  have h3' := set4_length a b c d h1.1 h1.2
  by_cases h2 : (a = c ∨ a = d ∨ b = c ∨ b = d) ∧ ¬ (a = c ∧ b = d) ∧ ¬ (a = d ∧ b = c)
  · rw [if_neg (not_not.mpr (h3'.mpr h2))]
    have hcount : [a, b, c, d].count a = 2 ↔ a = c ∨ a = d := by
      simp only [List.count_cons, List.count_nil, beq_iff_eq]
      rw [if_neg (show ¬ b = a from fun h => h1.1 h.symm)]
      by_cases e1 : c = a <;> by_cases e2 : d = a <;> simp [e1, e2] <;> omega
    by_cases h3 : [a, b, c, d].count a = 2
    · rw [if_pos h3]
      rw [hcount] at h3
      refine ⟨fun p' q' => ?_, by simp⟩
      obtain ⟨p1, p2⟩ := p'
      obtain ⟨q1, q2⟩ := q'
      simp only [Except.ok.injEq, Prod.mk.injEq]
      by_cases e : c = a
      · rw [if_pos e]; omega
      · rw [if_neg e]; omega
    · rw [if_neg h3]
      rw [hcount] at h3
      refine ⟨fun p' q' => ?_, by simp⟩
      obtain ⟨p1, p2⟩ := p'
      obtain ⟨q1, q2⟩ := q'
      by_cases e : b = d
      · rw [if_pos e]
        simp only [Except.ok.injEq, Prod.mk.injEq]
        omega
      · rw [if_neg e]
        simp only [Except.ok.injEq, Prod.mk.injEq]
        omega
  · rw [if_pos (fun h => h2 (h3'.mp h))]
    refine ⟨fun p' q' => ?_, by simp [throwX]⟩
    constructor
    · intro h; simp [throwX] at h
    · obtain ⟨p1, p2⟩ := p'
      obtain ⟨q1, q2⟩ := q'
      simp only [Prod.mk.injEq]
      omega

/-- **C25 (`sortEachPairToMakeALinkedList`).** For at least two pairs the call succeeds exactly when the pairs can be oriented, in the given
order, into such a walk; the orientation is then unique and it is the result.  It never leaves the buffer. -/
theorem C25_sort_each_pair (l : List Seg) (hl : 2 ≤ l.length) :
    (∀ r, sortEachPairToMakeALinkedList l = .ok r ↔ Oriented l r) ∧
    ((¬ ∃ r, Oriented l r) → sortEachPairToMakeALinkedList l = .error Err.exn) := by
  have key : (∀ r, sortEachPairToMakeALinkedList l = .ok r ↔ Oriented l r) ∧ sortEachPairToMakeALinkedList l ≠ .error Err.ub := by
    match l with
    | [] => simp at hl
    | [_] => simp at hl
    | p :: q :: l =>
      unfold sortEachPairToMakeALinkedList Oriented
      simp only
      obtain ⟨hn, hu⟩ := linkFirst_spec p q
      cases hq : linkFirst p q with
      | error e =>
        rw [err_bind]
        refine ⟨fun r => ?_, by intro h; apply hu; rw [hq]; injection h with h; rw [h]⟩
        constructor
        · intro h; simp at h
        · rintro ⟨h1, h2, h3⟩
          cases h1 with
          | cons hf ht =>
            rename_i p' r'
            cases ht with
            | cons hf' ht =>
              rename_i q' r'
              rcases h3 with _ | _ | ⟨h4, h5⟩
              have := (hn p' q').mpr ⟨hf, hf', h2 p' (by simp), h2 q' (by simp), h4⟩
              rw [hq] at this; simp at this
      | ok pq =>
        obtain ⟨p', q'⟩ := pq
        rw [ok_bind]
        obtain ⟨g1, g1', g2, g2', g3⟩ := (hn p' q').mp hq
        obtain ⟨ih1, ih2⟩ := linkRest_spec q' l
        have key : ∀ r : List Seg, (∃ r', linkRest q' l = .ok r' ∧ r = p' :: q' :: r') ↔
            (List.Forall₂ Flip (p :: q :: l) r ∧ (∀ q ∈ r, q.1 ≠ q.2) ∧ r.IsChain fun p q => p.2 = q.1 ∧ q.2 ≠ p.1) := by
          intro r
          constructor
          · rintro ⟨r', hr', rfl⟩
            obtain ⟨k1, k2, k3⟩ := (ih1 r').mp hr'
            refine ⟨List.Forall₂.cons g1 (List.Forall₂.cons g1' k1), ?_, List.IsChain.cons_cons g3 k3⟩
            intro x hx
            rcases List.mem_cons.mp hx with rfl | hx
            · exact g2
            rcases List.mem_cons.mp hx with rfl | hx
            · exact g2'
            · exact k2 x hx
          · rintro ⟨h1, h2, h3⟩
            cases h1 with
            | cons hf ht =>
              rename_i p'' r'
              cases ht with
              | cons hf' ht =>
                rename_i q'' r'
                rcases h3 with _ | _ | ⟨h4, h5⟩
                have := (hn p'' q'').mpr ⟨hf, hf', h2 p'' (by simp), h2 q'' (by simp), h4⟩
                rw [hq] at this
                injection this with this
                obtain ⟨rfl, rfl⟩ := Prod.mk.inj this
                exact ⟨r', (ih1 r').mpr ⟨ht, fun x hx => h2 x (by simp [hx]), h5⟩, rfl⟩
        simp only
        cases hl : linkRest q' l with
        | error e =>
          rw [err_bind]
          refine ⟨fun r => ?_, by intro h; apply ih2; rw [hl]; injection h with h; rw [h]⟩
          rw [← key]
          constructor
          · intro h; simp at h
          · rintro ⟨r', hr', _⟩; rw [hl] at hr'; simp at hr'
        | ok r' =>
          rw [ok_bind]
          refine ⟨fun r => ?_, by simp⟩
          rw [← key]
          constructor
          · intro h; injection h with h; exact ⟨r', hl, h.symm⟩
          · rintro ⟨r'', hr'', rfl⟩
            rw [hl] at hr''; injection hr'' with hr''; rw [hr'']
  refine ⟨key.1, fun h => ?_⟩
  cases hh : sortEachPairToMakeALinkedList l with
  | ok r => exact absurd ⟨r, (key.1 r).mp hh⟩ h
  | error e => cases e with
    | exn => rfl
    | ub => exact absurd hh key.2

example : sortEachPairToMakeALinkedList [(2, 1), (2, 3), (4, 3)] = .ok [(1, 2), (2, 3), (3, 4)] := rfl

/-- With at most one pair nothing is checked: a degenerate pair is accepted. -/
theorem C25_sort_each_pair_short (l : List Seg) (hl : l.length ≤ 1) : sortEachPairToMakeALinkedList l = .ok l := by
  match l with
  | [] => rfl
  | [_] => rfl
  | _ :: _ :: _ => simp at hl

/-! ## C38 -/

theorem mapFind_erase (m : List (Int × List Int)) (k k' : Int) : mapFind (mapErase m k) k' = if k' = k then none else mapFind m k' := by
  induction m with
  | nil => simp [mapErase, mapFind]
  | cons p m ih =>
    obtain ⟨a, b⟩ := p
    unfold mapErase at ih ⊢
    by_cases h : a = k
    · rw [List.filter_cons_of_neg (by simpa using h), ih]
      by_cases h' : k' = k
      · rw [if_pos h', if_pos h']
      · rw [if_neg h', if_neg h', mapFind, if_neg (by omega)]
    · rw [List.filter_cons_of_pos (by simpa using h), mapFind, ih, mapFind]
      by_cases h' : k' = k
      · rw [if_pos h', if_pos h', if_neg (by omega)]
      · rw [if_neg h', if_neg h']

theorem sorted_mapErase {m : List (Int × List Int)} (h : StrictSorted (mapKeys m)) (k : Int) : StrictSorted (mapKeys (mapErase m k)) := by
  unfold mapErase mapKeys
  exact List.Pairwise.sublist (List.Sublist.map _ List.filter_sublist) h

theorem LinkedBy.mono {l l' : List Seg} (h : ∀ p ∈ l, p ∈ l') {x y : Int} (hxy : LinkedBy l x y) : LinkedBy l' x y := by
  induction hxy with
  | rel x y hxy => exact Relation.EqvGen.rel _ _ (h _ hxy)
  | refl x => exact Relation.EqvGen.refl x
  | symm x y _ ih => exact Relation.EqvGen.symm _ _ ih
  | trans x y z _ _ ih1 ih2 => exact Relation.EqvGen.trans _ _ _ ih1 ih2

/-- What is known of an entry `(key, set)` after the pairs `l`. -/
structure GoodEntry (l : List Seg) (k : Int) (s : List Int) : Prop where
  key : k ∈ s
  sorted : StrictSorted s
  linked : ∀ x ∈ s, LinkedBy l k x
  node : ∀ x ∈ s, ∃ p ∈ l, x = p.1 ∨ x = p.2

theorem GoodEntry.mono {l l' : List Seg} (h : ∀ p ∈ l, p ∈ l') {k : Int} {s : List Int} (g : GoodEntry l k s) : GoodEntry l' k s :=
  ⟨g.key, g.sorted, fun x hx => (g.linked x hx).mono h, fun x hx => by
    obtain ⟨p, hp, e⟩ := g.node x hx; exact ⟨p, h p hp, e⟩⟩

/-- The state after the pairs `l`. -/
structure GoodMap (l : List Seg) (m : List (Int × List Int)) : Prop where
  keys : StrictSorted (mapKeys m)
  entry : ∀ k s, mapFind m k = some s → GoodEntry l k s
  cover : ∀ p ∈ l, ∃ k s, mapFind m k = some s ∧ p.1 ∈ s ∧ p.2 ∈ s

theorem pairStep_good {l : List Seg} {m : List (Int × List Int)} (h : GoodMap l m) (p : Seg) : GoodMap (l ++ [p]) (pairStep m p) := by
  have hsub : ∀ q ∈ l, q ∈ l ++ [p] := fun q hq => List.mem_append_left _ hq
  have hlk : LinkedBy (l ++ [p]) (min p.1 p.2) (max p.1 p.2) := by
    have h0 : LinkedBy (l ++ [p]) p.1 p.2 := Relation.EqvGen.rel _ _ (by simp)
    rcases le_total p.1 p.2 with hh | hh
    · rw [min_eq_left hh, max_eq_right hh]; exact h0
    · rw [min_eq_right hh, max_eq_left hh]; exact Relation.EqvGen.symm _ _ h0
  have hmm : ∀ s : List Int, min p.1 p.2 ∈ s → max p.1 p.2 ∈ s → p.1 ∈ s ∧ p.2 ∈ s := by
    intro s h1 h2
    rcases le_total p.1 p.2 with hh | hh
    · rw [min_eq_left hh] at h1; rw [max_eq_right hh] at h2; exact ⟨h1, h2⟩
    · rw [min_eq_right hh] at h1; rw [max_eq_left hh] at h2; exact ⟨h2, h1⟩
  have hnode : ∀ x, x = min p.1 p.2 ∨ x = max p.1 p.2 → ∃ q ∈ l ++ [p], x = q.1 ∨ x = q.2 := by
    intro x hx; exact ⟨p, by simp, by omega⟩
  unfold pairStep
  simp only
  generalize hmin : min p.1 p.2 = zmin at *
  generalize hmax : max p.1 p.2 = zmax at *
  cases h1 : mapFind m zmin with
  | some s =>
    simp only
    have g := (h.entry _ _ h1).mono hsub
    refine ⟨sorted_mapSet h.keys _ _, ?_, ?_⟩
    · intro k t hk
      rw [mapFind_set] at hk
      by_cases hkz : k = zmin
      · rw [if_pos hkz] at hk
        injection hk with hk
        subst hk hkz
        refine ⟨mem_setInsert.mpr (Or.inr g.key), sorted_setInsert g.sorted, ?_, ?_⟩
        · intro x hx
          rcases mem_setInsert.mp hx with rfl | hx
          · exact hlk
          · exact g.linked x hx
        · intro x hx
          rcases mem_setInsert.mp hx with rfl | hx
          · exact hnode _ (Or.inr rfl)
          · exact g.node x hx
      · rw [if_neg hkz] at hk
        exact (h.entry k t hk).mono hsub
    · intro q hq
      rcases List.mem_append.mp hq with hq | hq
      · obtain ⟨k, t, hk, h2, h3⟩ := h.cover q hq
        by_cases hkz : k = zmin
        · subst hkz
          rw [h1] at hk; injection hk with hk; subst hk
          exact ⟨k, _, by rw [mapFind_set, if_pos rfl], mem_setInsert.mpr (Or.inr h2), mem_setInsert.mpr (Or.inr h3)⟩
        · exact ⟨k, t, by rw [mapFind_set, if_neg hkz, hk], h2, h3⟩
      · rw [List.mem_singleton] at hq; subst hq
        refine ⟨zmin, _, by rw [mapFind_set, if_pos rfl], ?_⟩
        exact hmm _ (mem_setInsert.mpr (Or.inr g.key)) (mem_setInsert.mpr (Or.inl rfl))
  | none =>
    simp only
    cases h2 : mapFind m zmax with
    | none =>
      simp only
      refine ⟨sorted_mapSet h.keys _ _, ?_, ?_⟩
      · intro k t hk
        rw [mapFind_set] at hk
        by_cases hkz : k = zmin
        · rw [if_pos hkz] at hk
          injection hk with hk
          subst hk hkz
          refine ⟨mem_setInsertAll.mpr (Or.inr (by simp)), sorted_setInsertAll List.Pairwise.nil, ?_, ?_⟩
          · intro x hx
            have : x = k ∨ x = zmax := by simpa [mem_setInsertAll] using hx
            rcases this with rfl | rfl
            · exact Relation.EqvGen.refl _
            · exact hlk
          · intro x hx
            exact hnode x (by simpa [mem_setInsertAll] using hx)
        · rw [if_neg hkz] at hk
          exact (h.entry k t hk).mono hsub
      · intro q hq
        rcases List.mem_append.mp hq with hq | hq
        · obtain ⟨k, t, hk, h3, h4⟩ := h.cover q hq
          have hkz : k ≠ zmin := by rintro rfl; rw [h1] at hk; simp at hk
          exact ⟨k, t, by rw [mapFind_set, if_neg hkz, hk], h3, h4⟩
        · rw [List.mem_singleton] at hq; subst hq
          refine ⟨zmin, _, by rw [mapFind_set, if_pos rfl], ?_⟩
          exact hmm _ (mem_setInsertAll.mpr (Or.inr (by simp))) (mem_setInsertAll.mpr (Or.inr (by simp)))
    | some s =>
      simp only
      have g := (h.entry _ _ h2).mono hsub
      have hne : zmax ≠ zmin := by rintro rfl; rw [h1] at h2; simp at h2
      refine ⟨sorted_mapSet (sorted_mapErase h.keys _) _ _, ?_, ?_⟩
      · intro k t hk
        rw [mapFind_set] at hk
        by_cases hkz : k = zmin
        · rw [if_pos hkz] at hk
          injection hk with hk
          subst hk hkz
          refine ⟨mem_setInsert.mpr (Or.inl rfl), sorted_setInsert g.sorted, ?_, ?_⟩
          · intro x hx
            rcases mem_setInsert.mp hx with rfl | hx
            · exact Relation.EqvGen.refl _
            · exact Relation.EqvGen.trans _ _ _ hlk (g.linked x hx)
          · intro x hx
            rcases mem_setInsert.mp hx with rfl | hx
            · exact hnode _ (Or.inl rfl)
            · exact g.node x hx
        · rw [if_neg hkz, mapFind_erase] at hk
          by_cases hkm : k = zmax
          · rw [if_pos hkm] at hk; simp at hk
          · rw [if_neg hkm] at hk
            exact (h.entry k t hk).mono hsub
      · intro q hq
        rcases List.mem_append.mp hq with hq | hq
        · obtain ⟨k, t, hk, h3, h4⟩ := h.cover q hq
          have hkz : k ≠ zmin := by rintro rfl; rw [h1] at hk; simp at hk
          by_cases hkm : k = zmax
          · subst hkm
            rw [h2] at hk; injection hk with hk; subst hk
            exact ⟨zmin, _, by rw [mapFind_set, if_pos rfl], mem_setInsert.mpr (Or.inr h3), mem_setInsert.mpr (Or.inr h4)⟩
          · exact ⟨k, t, by rw [mapFind_set, if_neg hkz, mapFind_erase, if_neg hkm, hk], h3, h4⟩
        · rw [List.mem_singleton] at hq; subst hq
          refine ⟨zmin, _, by rw [mapFind_set, if_pos rfl], ?_⟩
          exact hmm _ (mem_setInsert.mpr (Or.inl rfl)) (mem_setInsert.mpr (Or.inr g.key))

theorem pairs_good (l : List Seg) : GoodMap l (l.foldl pairStep []) := by
  have : ∀ (l pre : List Seg) (m : List (Int × List Int)), GoodMap pre m → GoodMap (pre ++ l) (l.foldl pairStep m) := by
    intro l
    induction l with
    | nil => intro pre m h; simpa using h
    | cons p l ih =>
      intro pre m h
      rw [List.foldl_cons, show pre ++ p :: l = (pre ++ [p]) ++ l by simp]
      exact ih _ _ (pairStep_good h p)
  have := this l [] [] ⟨List.Pairwise.nil, by intro k s h; simp [mapFind] at h, by simp⟩
  simpa using this

theorem mapFind_labelAll (z : List (Int × Int)) (s : List Int) (g x : Int) :
    mapFind (labelAll z s g) x = if x ∈ s then some g else mapFind z x := by
  unfold labelAll
  induction s generalizing z with
  | nil => simp
  | cons a s ih =>
    rw [List.foldl_cons, ih, mapFind_set]
    by_cases h1 : x ∈ s
    · simp [h1]
    · by_cases h2 : x = a <;> simp [h1, h2]

/-- The second phase: no entry is lost, entries stay connected. -/
theorem fuse_spec {l : List Seg} {m : List (Int × List Int)} (hm : GoodMap l m) :
    ∃ w, m.foldlM fuseStep ([], []) = .ok w ∧ StrictSorted (mapKeys w.1) ∧
      (∀ k s, (k, s) ∈ w.1 → GoodEntry l k s) ∧ ∀ k s, (k, s) ∈ m → ∃ k' s', (k', s') ∈ w.1 ∧ ∀ x ∈ s, x ∈ s' := by
  have h : wp (m.foldlM fuseStep ([], [])) (fun w => StrictSorted (mapKeys w.1) ∧
      (∀ k s, mapFind w.1 k = some s → GoodEntry l k s) ∧
      (∀ x g, mapFind w.2 x = some g → ∃ s, mapFind w.1 g = some s ∧ x ∈ s) ∧
      (∀ k, k ∈ mapKeys w.1 → k ∈ mapKeys m) ∧
      ∀ k s, (k, s) ∈ m → ∃ k' s', mapFind w.1 k' = some s' ∧ ∀ x ∈ s, x ∈ s') False := by
    refine wp_foldlM (fun pre (w : List (Int × List Int) × List (Int × Int)) => StrictSorted (mapKeys w.1) ∧
      (∀ k s, mapFind w.1 k = some s → GoodEntry l k s) ∧
      (∀ x g, mapFind w.2 x = some g → ∃ s, mapFind w.1 g = some s ∧ x ∈ s) ∧
      (∀ k, k ∈ mapKeys w.1 → k ∈ mapKeys pre) ∧
      ∀ k s, (k, s) ∈ pre → ∃ k' s', mapFind w.1 k' = some s' ∧ ∀ x ∈ s, x ∈ s') ?_ ?_
    · exact ⟨List.Pairwise.nil, by intro k s h; simp [mapFind] at h, by intro k s h; simp [mapFind] at h, by simp, by simp⟩
    · rintro pre ⟨k, s⟩ suf hsplit w ⟨h1, h2, h3, h4, h5⟩
      have hks : mapFind m k = some s := mapFind_of_mem hm.keys (by rw [hsplit]; simp)
      have ge := hm.entry k s hks
      have hknew : k ∉ mapKeys w.1 := by
        intro hk
        have hkp := h4 k hk
        have := hm.keys.nodup
        rw [hsplit, mapKeys, List.map_append, List.map_cons] at this
        exact (List.nodup_append.mp this).2.2 k hkp k (by simp) rfl
      unfold fuseStep
      cases hf : s.findSome? (mapFind w.2) with
      | none =>
        simp only
        rw [wp_ok]
        refine ⟨sorted_mapSet h1 _ _, ?_, ?_, ?_, ?_⟩
        · intro k' s' hk'
          simp only [mapFind_set] at hk'
          by_cases e : k' = k
          · rw [if_pos e] at hk'; injection hk' with hk'; subst e hk'; exact ge
          · rw [if_neg e] at hk'; exact h2 k' s' hk'
        · intro x g hx
          simp only [mapFind_labelAll] at hx
          simp only [mapFind_set]
          by_cases e : x ∈ s
          · rw [if_pos e] at hx; injection hx with hx; subst hx
            exact ⟨s, by rw [if_pos rfl], e⟩
          · rw [if_neg e] at hx
            obtain ⟨t, ht, hxt⟩ := h3 x g hx
            have : g ≠ k := by
              rintro rfl; exact hknew (mapFind_isSome.mp ⟨t, ht⟩)
            exact ⟨t, by rw [if_neg this, ht], hxt⟩
        · intro k' hk'
          rcases mem_mapKeys_set.mp hk' with rfl | hk'
          · simp [mapKeys]
          · simp only [mapKeys, List.map_append, List.mem_append]; exact Or.inl (h4 k' hk')
        · intro k' s' hk'
          simp only [mapFind_set]
          rcases List.mem_append.mp hk' with hk' | hk'
          · obtain ⟨k'', s'', g1, g2⟩ := h5 k' s' hk'
            have : k'' ≠ k := by
              rintro rfl; exact hknew (mapFind_isSome.mp ⟨_, g1⟩)
            exact ⟨k'', s'', by rw [if_neg this, g1], g2⟩
          · simp only [List.mem_singleton, Prod.mk.injEq] at hk'
            obtain ⟨rfl, rfl⟩ := hk'
            exact ⟨k', s', by rw [if_pos rfl], fun x hx => hx⟩
      | some g =>
        simp only
        obtain ⟨x0, hx0, hxg⟩ := List.exists_of_findSome?_eq_some hf
        obtain ⟨t, ht, hxt⟩ := h3 x0 g hxg
        have gt := h2 g t ht
        rw [ht]
        simp only
        rw [wp_ok]
        refine ⟨sorted_mapSet h1 _ _, ?_, ?_, ?_, ?_⟩
        · intro k' s' hk'
          simp only [mapFind_set] at hk'
          by_cases e : k' = g
          · rw [if_pos e] at hk'; injection hk' with hk'; subst e hk'
            refine ⟨mem_setInsertAll.mpr (Or.inl gt.key), sorted_setInsertAll gt.sorted, ?_, ?_⟩
            · intro x hx
              rcases mem_setInsertAll.mp hx with hx | hx
              · exact gt.linked x hx
              · exact Relation.EqvGen.trans _ _ _ (gt.linked x0 hxt)
                  (Relation.EqvGen.trans _ _ _ (Relation.EqvGen.symm _ _ (ge.linked x0 hx0)) (ge.linked x hx))
            · intro x hx
              rcases mem_setInsertAll.mp hx with hx | hx
              · exact gt.node x hx
              · exact ge.node x hx
          · rw [if_neg e] at hk'; exact h2 k' s' hk'
        · intro x g' hx
          simp only [mapFind_labelAll] at hx
          simp only [mapFind_set]
          by_cases e : x ∈ s
          · rw [if_pos e] at hx; injection hx with hx; subst hx
            exact ⟨_, by rw [if_pos rfl], mem_setInsertAll.mpr (Or.inr e)⟩
          · rw [if_neg e] at hx
            obtain ⟨t', ht', hxt'⟩ := h3 x g' hx
            by_cases e' : g' = g
            · subst e'
              rw [ht] at ht'; injection ht' with ht'; subst ht'
              exact ⟨_, by rw [if_pos rfl], mem_setInsertAll.mpr (Or.inl hxt')⟩
            · exact ⟨t', by rw [if_neg e', ht'], hxt'⟩
        · intro k' hk'
          simp only [mapKeys, List.map_append, List.mem_append]
          rcases mem_mapKeys_set.mp hk' with rfl | hk'
          · exact Or.inl (h4 _ (mapFind_isSome.mp ⟨_, ht⟩))
          · exact Or.inl (h4 k' hk')
        · intro k' s' hk'
          simp only [mapFind_set]
          rcases List.mem_append.mp hk' with hk' | hk'
          · obtain ⟨k'', s'', g1, g2⟩ := h5 k' s' hk'
            by_cases e' : k'' = g
            · subst e'
              rw [ht] at g1; injection g1 with g1; subst g1
              exact ⟨_, _, by rw [if_pos rfl], fun x hx => mem_setInsertAll.mpr (Or.inl (g2 x hx))⟩
            · exact ⟨k'', s'', by rw [if_neg e', g1], g2⟩
          · simp only [List.mem_singleton, Prod.mk.injEq] at hk'
            obtain ⟨rfl, rfl⟩ := hk'
            exact ⟨g, _, by rw [if_pos rfl], fun x hx => mem_setInsertAll.mpr (Or.inr hx)⟩
  obtain ⟨w, hw, h1, h2, h3, h4, h5⟩ := wp_exists h
  refine ⟨w, hw, h1, fun k s hks => h2 k s (mapFind_of_mem h1 hks), fun k s hks => ?_⟩
  obtain ⟨k', s', g1, g2⟩ := h5 k s hks
  exact ⟨k', s', mem_of_mapFind g1, g2⟩

/-- **C38.** `fromListOfPairsToIndexArray` returns an indexed array of increasing non-empty groups: the two ends of every pair are together
in some group, and the elements of a group are linked by the pairs. -/
theorem C38_pairs_to_groups (l : List Seg) :
    ∃ arr arrI groups, fromListOfPairsToIndexArray l = .ok (arr.map some, arrI.map some) ∧ IsSky arr arrI groups ∧
      (∀ g ∈ groups, g ≠ [] ∧ StrictSorted g ∧ ∀ x ∈ g, (∃ p ∈ l, x = p.1 ∨ x = p.2) ∧ ∀ y ∈ g, LinkedBy l x y) ∧
      ∀ p ∈ l, ∃ g ∈ groups, p.1 ∈ g ∧ p.2 ∈ g := by
  obtain ⟨w, hw, h1, h2, h3⟩ := fuse_spec (pairs_good l)
  have hm := pairs_good l
  refine ⟨(w.1.map Prod.snd).flatten, skyIdx (w.1.map Prod.snd), w.1.map Prod.snd, ?_, ⟨rfl, rfl⟩, ?_, ?_⟩
  · unfold fromListOfPairsToIndexArray
    rw [hw, ok_bind, newCur_eq, emit_filled (by simp), ok_bind]
    have hidx : wp (w.1.foldlM groupIdxStep (filled ([] ++ [0]) (w.1.length + 1), 0))
        (fun s => s = (filled (skyIdx (w.1.map Prod.snd)) (w.1.length + 1), ((w.1.map Prod.snd).flatten.length : Int))) False := by
      refine wp_foldlM (fun pre (s : Cur Int × Int) =>
        s = (filled (skyIdx (pre.map Prod.snd)) (w.1.length + 1), ((pre.map Prod.snd).flatten.length : Int))) rfl ?_
      rintro pre e suf hs s rfl
      unfold groupIdxStep
      simp only
      rw [emit_filled (by rw [skyIdx_length, List.length_map, hs]; simp), ok_bind, wp_ok]
      rw [List.map_append, List.map_cons, List.map_nil, skyIdx_snoc]
      simp
    obtain ⟨ci, hci, rfl⟩ := wp_exists hidx
    rw [hci, ok_bind]
    simp only [Int.toNat_natCast]
    rw [emitCopy_foldl _ _ (Nat.le_refl _), ok_bind, filled_full rfl, filled_full (by simp)]
  · intro g hg
    obtain ⟨⟨k, s⟩, hks, rfl⟩ := List.mem_map.mp hg
    have ge := h2 k s hks
    refine ⟨List.ne_nil_of_mem ge.key, ge.sorted, fun x hx => ⟨ge.node x hx, fun y hy => ?_⟩⟩
    exact Relation.EqvGen.trans _ _ _ (Relation.EqvGen.symm _ _ (ge.linked x hx)) (ge.linked y hy)
  · intro p hp
    obtain ⟨k, s, g1, g2, g3⟩ := hm.cover p hp
    obtain ⟨k', s', g4, g5⟩ := h3 k s (mem_of_mapFind g1)
    exact ⟨s', List.mem_map_of_mem (f := Prod.snd) g4, g5 _ g2, g5 _ g3⟩

example : fromListOfPairsToIndexArray [(0, 3), (5, 4), (0, 7)] =
    .ok ([some 0, some 3, some 7, some 4, some 5], [some 0, some 3, some 5]) := rfl

/-- **C38 (negative).** The groups are not always disjoint: on these pairs, which are all linked together, node 6 is listed in two different
groups (the merge loop stops at the first already labelled element).  `ConvertIndexArrayToO2N` needs disjoint groups. -/
theorem C38_groups_overlap :
    fromListOfPairsToIndexArray [(1, 5), (2, 6), (3, 5), (3, 6)] =
      .ok ([some 1, some 3, some 5, some 6, some 2, some 6], [some 0, some 4, some 6]) := rfl

end MC
