import Verif.BlockTopoProps
import Mathlib.Algebra.BigOperators.Intervals
import Mathlib.Algebra.Order.BigOperators.Group.Finset

/-!
# C85: elements and components shared by processors

The topologies a user can build (`Built`), and what `globalToLocal`, `localToGlobal`, `getNbLocalElements`, `serialize` and `unserialize` do on them.
-/

namespace MC

/-- component topologies -/
inductive CBuilt : CTopo → Prop
  | group {n : Nat} {g : List Nat} {c : CTopo} (hg : g ≠ []) (h : CTopo.ofGroup n g = .ok c) : CBuilt c
  | blocks {n p : Nat} {c : CTopo} (hp : 0 < p) (h : CTopo.ofBlocks n p = .ok c) : CBuilt c
  | one (n : Nat) : CBuilt (CTopo.one n)

/-- topologies: over a grid, from the number of elements of each processor, or with components -/
inductive Built : BTopo → Prop
  | grid {group dims : List Nat} {t : BTopo} (hg : group ≠ []) (h : BTopo.ofGrid group dims = .ok t) : Built t
  | counts {group counts : List Nat} {t : BTopo} (hg : group ≠ []) (hc : counts.length = group.length)
      (h : BTopo.ofCounts group counts = .ok t) : Built t
  | combine {g t : BTopo} {c : CTopo} (hg : Built g) (hc : CBuilt c) (h : g.combine c = .ok t) : Built t

theorem CBuilt.form {c : CTopo} (h : CBuilt c) : ∃ n p, CForm c n p := by
  cases h with
  | @group n g _ hg h =>
    unfold CTopo.ofGroup at h
    split at h
    · simp [throwX] at h
    · have hp : 0 < g.length := List.length_pos_iff.2 hg
      rw [splitAxis_ok n hp, ok_bind] at h
      cases h
      exact ⟨n, g.length, offs_split n hp, hp, by simp⟩
  | @blocks n p _ hp h =>
    unfold CTopo.ofBlocks at h
    split at h
    · simp [throwX] at h
    · rw [splitAxis_ok n hp, ok_bind] at h
      cases h
      exact ⟨n, p, offs_split n hp, hp, by simp⟩
  | one n => exact ⟨n, 1, offs_oneAxis n, Nat.one_pos, by simp [CTopo.one]⟩

theorem Built.form {t : BTopo} (h : Built t) : ∃ pre A n post, BForm t pre A n post := by
  induction h with
  | @grid group dims t hg h =>
    cases dims with
    | nil => simp [BTopo.ofGrid, vget, err_bind, undef] at h
    | cons n rest =>
      obtain ⟨t', h1, _, h3⟩ := ofGrid_form hg n rest
      rw [h1] at h; cases h
      exact ⟨_, _, _, _, h3⟩
  | counts hg hc h =>
    obtain ⟨t', h1, _, h3⟩ := ofCounts_form hg hc
    rw [h1] at h; cases h
    exact ⟨_, _, _, _, h3⟩
  | @combine g t c hg hc h ih =>
    obtain ⟨pre, A, n, post, hf⟩ := ih
    obtain ⟨m, p, hcf⟩ := hc.form
    by_cases hm : m = 1
    · unfold BTopo.combine at h
      split at h
      · simp [throwX] at h
      · rw [hcf.comps, ok_bind, if_pos hm] at h
        cases h
        exact ⟨_, _, _, _, hf⟩
    · by_cases hp : p = 1
      · subst hp
        obtain ⟨t', h1, _, h3⟩ := combine_keep hf hcf hm
        rw [h1] at h; cases h
        exact ⟨_, _, _, _, h3⟩
      · have hp1 : 1 < p := by have := hcf.pos; omega
        have h0 := h
        unfold BTopo.combine at h
        rw [hcf.comps, ok_bind, if_neg hm, hcf.blocks] at h
        split at h
        · simp [throwX] at h
        · rename_i hnot
          have h1 : g.group.length = 1 := by have := hf.size; omega
          cases hgr : c.group with
          | none => rw [hgr] at h; simp [undef, err_bind] at h
          | some grp =>
            obtain ⟨t', h2, _, h3⟩ := combine_split hf h1 hcf hp1 hm hgr
            rw [h2] at h0; cases h0
            exact ⟨_, _, _, _, h3⟩

/-- **Elements and pairs (processor, local number) correspond one to one.**  Every processor knows how many elements it has; these numbers add up to the
number of elements; every element is on exactly one processor, with a local number below the number of elements of the processor, and
`localToGlobal` called there gives it back; every local number of every processor is reached; and the local order is the global order. -/
theorem C85_inverse {t : BTopo} (h : Built t) : ∃ cnt : Nat → Nat,
    (∀ p < t.group.length, t.nbLocal p = .ok (cnt p)) ∧
    (Finset.range t.group.length).sum cnt = t.nbElems ∧
    (∀ g < t.nbElems, ∃ p l, p < t.group.length ∧ l < cnt p ∧ t.globalToLocal g = .ok (p, l) ∧ t.localToGlobal p p l = .ok g) ∧
    (∀ p < t.group.length, ∀ l < cnt p, ∃ g < t.nbElems, t.localToGlobal p p l = .ok g ∧ t.globalToLocal g = .ok (p, l)) ∧
    (∀ p < t.group.length, ∀ l l' g g', l < l' → l' < cnt p → t.localToGlobal p p l = .ok g → t.localToGlobal p p l' = .ok g' → g < g') := by
  obtain ⟨pre, A, n, post, hf⟩ := h.form
  have hget : ∀ p ≤ t.group.length, A[p]? = some (A.getD p 0) := by
    intro p hp
    obtain ⟨x, hx⟩ := hf.offs.get hp
    simp [List.getD, hx]
  have hmono : ∀ p < t.group.length, A.getD p 0 ≤ A.getD (p + 1) 0 := fun p hp => hf.offs.mono p _ _ (hget p (by omega)) (hget (p + 1) hp)
  -- an element of processor `p`, decomposed
  have hloc : ∀ p < t.group.length, ∀ l < pre.prod * ((A.getD (p + 1) 0 - A.getD p 0) * post.prod), ∃ e a r, e < pre.prod ∧ A.getD p 0 ≤ a ∧
      a < A.getD (p + 1) 0 ∧ r < post.prod ∧ l = (e * (A.getD (p + 1) 0 - A.getD p 0) + (a - A.getD p 0)) * post.prod + r := by
    intro p hp l hl
    set w := A.getD (p + 1) 0 - A.getD p 0 with hw
    have hR : 0 < post.prod := by
      rcases Nat.eq_zero_or_pos post.prod with h0 | h0
      · rw [h0] at hl; simp at hl
      · exact h0
    have hw0 : 0 < w := by
      rcases Nat.eq_zero_or_pos w with h0 | h0
      · rw [h0] at hl; simp at hl
      · exact h0
    have hm := Nat.mod_lt (l / post.prod) hw0
    refine ⟨l / post.prod / w, A.getD p 0 + l / post.prod % w, l % post.prod, ?_, by omega, by omega, Nat.mod_lt _ hR, ?_⟩
    · rw [Nat.div_div_eq_div_mul, Nat.div_lt_iff_lt_mul (Nat.mul_pos hR hw0), Nat.mul_comm post.prod w]; exact hl
    · rw [Nat.add_sub_cancel_left, Nat.mul_comm (l / post.prod / w) w, Nat.div_add_mod, Nat.mul_comm (l / post.prod) post.prod, Nat.div_add_mod]
  have hbound : ∀ p < t.group.length, ∀ e a r, e < pre.prod → a < A.getD (p + 1) 0 → r < post.prod → (e * n + a) * post.prod + r < t.nbElems := by
    intro p hp e a r he ha hr
    have hhi : A.getD (p + 1) 0 ≤ n := hf.offs.le (i := p + 1) (j := t.group.length) hp (hget _ hp) hf.offs.last
    rw [hf.nb]
    have h1 : e * n + a + 1 ≤ pre.prod * n := by
      have := Nat.mul_le_mul_right n (show e + 1 ≤ pre.prod from he)
      rw [Nat.add_mul] at this; omega
    have h2 := Nat.mul_le_mul_right post.prod h1
    rw [Nat.add_mul, Nat.mul_assoc] at h2
    omega
  refine ⟨fun p => pre.prod * ((A.getD (p + 1) 0 - A.getD p 0) * post.prod), ?_, ?_, ?_, ?_, ?_⟩
  · intro p hp
    exact hf.nbl (hget p (by omega)) (hget (p + 1) hp)
  · have key : ∀ k ≤ t.group.length, (Finset.range k).sum (fun p => pre.prod * ((A.getD (p + 1) 0 - A.getD p 0) * post.prod))
        = pre.prod * (A.getD k 0 * post.prod) := by
      intro k
      induction k with
      | zero =>
        intro _
        have h0 := hget 0 (by omega)
        rw [hf.offs.zero] at h0
        simp only [Option.some.injEq] at h0
        rw [← h0]; simp
      | succ k ih =>
        intro hk
        rw [Finset.sum_range_succ, ih (by omega), ← Nat.mul_add, ← Nat.add_mul]
        have := hmono k (by omega)
        congr 2
        omega
    rw [key _ le_rfl, hf.nb]
    have hl := hget t.group.length le_rfl
    rw [hf.offs.last] at hl
    simp only [Option.some.injEq] at hl
    rw [← hl]
  · intro g hg
    rw [hf.nb] at hg
    have hR : 0 < post.prod := by
      rcases Nat.eq_zero_or_pos post.prod with h0 | h0
      · rw [h0] at hg; simp at hg
      · exact h0
    have hn : 0 < n := by
      rcases Nat.eq_zero_or_pos n with h0 | h0
      · rw [h0] at hg; simp at hg
      · exact h0
    have hm := Nat.mod_lt (g / post.prod) hn
    obtain ⟨p, lo, hi, hp, h1, h2, h3, h4⟩ := hf.offs.block hm
    have hlo : A.getD p 0 = lo := by simp [List.getD, h1]
    have hhi : A.getD (p + 1) 0 = hi := by simp [List.getD, h2]
    have he : g / post.prod / n < pre.prod := by
      rw [Nat.div_div_eq_div_mul, Nat.div_lt_iff_lt_mul (Nat.mul_pos hR hn), Nat.mul_comm post.prod n]; exact hg
    have hr := Nat.mod_lt g hR
    have hgd : (g / post.prod / n * n + g / post.prod % n) * post.prod + g % post.prod = g := by
      rw [Nat.mul_comm (g / post.prod / n) n, Nat.div_add_mod, Nat.mul_comm, Nat.div_add_mod]
    refine ⟨p, (g / post.prod / n * (hi - lo) + (g / post.prod % n - lo)) * post.prod + g % post.prod, hp, ?_, ?_, ?_⟩
    · have h5 : g / post.prod / n * (hi - lo) + (g / post.prod % n - lo) + 1 ≤ pre.prod * (hi - lo) := by
        have := Nat.mul_le_mul_right (hi - lo) (show g / post.prod / n + 1 ≤ pre.prod from he)
        rw [Nat.add_mul] at this; omega
      have h6 := Nat.mul_le_mul_right post.prod h5
      rw [Nat.add_mul, Nat.mul_assoc] at h6
      simp only [hlo, hhi]
      omega
    · have := hf.gtl he h1 h2 h3 h4 hr
      rwa [hgd] at this
    · have := hf.ltg he h1 h2 h3 h4 hr
      rwa [hgd] at this
  · intro p hp l hl
    obtain ⟨e, a, r, he, ha1, ha2, hr, rfl⟩ := hloc p hp l hl
    exact ⟨_, hbound p hp e a r he ha2 hr, hf.ltg he (hget p (by omega)) (hget (p + 1) hp) ha1 ha2 hr,
      hf.gtl he (hget p (by omega)) (hget (p + 1) hp) ha1 ha2 hr⟩
  · intro p hp l l' g g' hll hl' h1 h2
    obtain ⟨e, a, r, he, ha1, ha2, hr, rfl⟩ := hloc p hp l (lt_trans hll hl')
    obtain ⟨e', a', r', he', ha1', ha2', hr', rfl⟩ := hloc p hp l' hl'
    rw [hf.ltg he (hget p (by omega)) (hget (p + 1) hp) ha1 ha2 hr] at h1
    rw [hf.ltg he' (hget p (by omega)) (hget (p + 1) hp) ha1' ha2' hr'] at h2
    cases h1; cases h2
    have hhi : A.getD (p + 1) 0 ≤ n := hf.offs.le (i := p + 1) (j := t.group.length) hp (hget _ hp) hf.offs.last
    have lex : ∀ {k x y x' y' : Nat}, y < k → y' < k → (x * k + y < x' * k + y' ↔ x < x' ∨ (x = x' ∧ y < y')) := by
      intro k x y x' y' hy hy'
      constructor
      · intro h
        rcases Nat.lt_trichotomy x x' with hx | hx | hx
        · exact Or.inl hx
        · subst hx; exact Or.inr ⟨rfl, by omega⟩
        · have := Nat.mul_le_mul_right k (show x' + 1 ≤ x from hx)
          rw [Nat.add_mul] at this; omega
      · rintro (hx | ⟨rfl, hy⟩)
        · have := Nat.mul_le_mul_right k (show x + 1 ≤ x' from hx)
          rw [Nat.add_mul] at this; omega
        · omega
    rw [lex hr hr', lex (by omega) (by omega)] at hll ⊢
    rcases hll with (h | ⟨h, h'⟩) | ⟨h, h'⟩
    · exact Or.inl (Or.inl h)
    · exact Or.inl (Or.inr ⟨h, by omega⟩)
    · refine Or.inr ⟨?_, h'⟩
      have hw0 : 0 < A.getD (p + 1) 0 - A.getD p 0 := by omega
      have h8 : a - A.getD p 0 < A.getD (p + 1) 0 - A.getD p 0 := by omega
      have h9 : a' - A.getD p 0 < A.getD (p + 1) 0 - A.getD p 0 := by omega
      have e1 : (e * (A.getD (p + 1) 0 - A.getD p 0) + (a - A.getD p 0)) / (A.getD (p + 1) 0 - A.getD p 0) = e := by
        rw [Nat.mul_comm, Nat.mul_add_div hw0, Nat.div_eq_of_lt h8]; rfl
      have e2 : (e' * (A.getD (p + 1) 0 - A.getD p 0) + (a' - A.getD p 0)) / (A.getD (p + 1) 0 - A.getD p 0) = e' := by
        rw [Nat.mul_comm, Nat.mul_add_div hw0, Nat.div_eq_of_lt h9]; rfl
      rw [h, e2] at e1
      subst e1
      have : a = a' := by omega
      rw [this]

/-- **A grid is cut along its first axis**, in slices which differ by one row at most: with `n` coordinates along the first axis and `R` elements per row,
processor `i` has the rows from `i * (n / p) + min i (n % p)` on, and its elements are numbered from the first one. -/
theorem C85_grid {group : List Nat} (hg : group ≠ []) (n : Nat) (rest : List Nat) : ∃ t, BTopo.ofGrid group (n :: rest) = .ok t ∧
    t.group = group ∧ t.nbElems = n * rest.prod ∧
    ∀ i < group.length, ∀ S S', S = i * (n / group.length) + min i (n % group.length) →
      S' = S + n / group.length + (if i < n % group.length then 1 else 0) →
      t.nbLocal i = .ok ((S' - S) * rest.prod) ∧
      ∀ g, S * rest.prod ≤ g → g < S' * rest.prod → t.globalToLocal g = .ok (i, g - S * rest.prod) ∧
        t.localToGlobal i i (g - S * rest.prod) = .ok g := by
  obtain ⟨t, h1, h2, hf⟩ := ofGrid_form hg n rest
  refine ⟨t, h1, h2, by simpa using hf.nb, ?_⟩
  intro i hi S S' hS hS'
  have hS'' : S = blockStart n group.length i := hS
  have e1 : ((List.range (group.length + 1)).map (blockStart n group.length))[i]? = some S := by
    rw [hS'', List.getElem?_map, List.getElem?_range (by omega)]; rfl
  have e2 : ((List.range (group.length + 1)).map (blockStart n group.length))[i + 1]? = some S' := by
    rw [hS', hS'', ← blockStart_succ, List.getElem?_map, List.getElem?_range (by omega)]; rfl
  refine ⟨by simpa using hf.nbl e1 e2, ?_⟩
  intro g hg1 hg2
  have hR : 0 < rest.prod := by
    rcases Nat.eq_zero_or_pos rest.prod with h0 | h0
    · rw [h0] at hg2; simp at hg2
    · exact h0
  have ha1 : S ≤ g / rest.prod := (Nat.le_div_iff_mul_le hR).2 hg1
  have ha2 : g / rest.prod < S' := (Nat.div_lt_iff_lt_mul hR).2 hg2
  have k1 := hf.gtl (e := 0) (by simp) e1 e2 ha1 ha2 (Nat.mod_lt g hR)
  have k2 := hf.ltg (e := 0) (by simp) e1 e2 ha1 ha2 (Nat.mod_lt g hR)
  have hd := Nat.div_add_mod' g rest.prod
  have hd2 : (g / rest.prod - S) * rest.prod + g % rest.prod = g - S * rest.prod := by
    rw [Nat.sub_mul]
    have := Nat.mul_le_mul_right rest.prod ha1
    omega
  simp only [Nat.zero_mul, Nat.zero_add, hd, hd2] at k1 k2
  exact ⟨k1, k2⟩

/-- **Each processor gives its number of elements**: the elements of processor `i` come after those of the processors before it. -/
theorem C85_counts {group counts : List Nat} (hg : group ≠ []) (hc : counts.length = group.length) : ∃ t, BTopo.ofCounts group counts = .ok t ∧
    t.group = group ∧ t.nbElems = counts.sum ∧
    ∀ i c, counts[i]? = some c → t.nbLocal i = .ok c ∧
      ∀ l < c, t.globalToLocal ((counts.take i).sum + l) = .ok (i, l) ∧ t.localToGlobal i i l = .ok ((counts.take i).sum + l) := by
  obtain ⟨t, h1, h2, hf⟩ := ofCounts_form hg hc
  refine ⟨t, h1, h2, by simpa using hf.nb, ?_⟩
  intro i c hi
  have hil : i < counts.length := (List.getElem?_eq_some_iff.1 hi).1
  have e1 : ((List.range (group.length + 1)).map (countStart counts))[i]? = some (countStart counts i) := by
    rw [List.getElem?_map, List.getElem?_range (by omega)]; rfl
  have e2 : ((List.range (group.length + 1)).map (countStart counts))[i + 1]? = some (countStart counts i + c) := by
    rw [← countStart_succ hi, List.getElem?_map, List.getElem?_range (by omega)]; rfl
  refine ⟨by simpa using hf.nbl e1 e2, ?_⟩
  intro l hl
  have k1 := hf.gtl (e := 0) (a := countStart counts i + l) (r := 0) (by simp) e1 e2 (by omega) (by omega) (by simp)
  have k2 := hf.ltg (e := 0) (a := countStart counts i + l) (r := 0) (by simp) e1 e2 (by omega) (by omega) (by simp)
  simp at k1 k2
  exact ⟨k1, k2⟩

/-- **Components split over a group.**  On elements which are all on one processor, with `m` components shared by the `p ≤ m` processors of a group:
processor `i` has the components from `S` to `S'`, for all elements; component `c` of element `e` has number `e * m + c` and
its local number is `e * (S' - S) + (c - S)`. -/
theorem C85_components {g : BTopo} (hb : Built g) (h1 : g.group.length = 1) {m : Nat} (hm : m ≠ 1) {grp : List Nat} (hp : 1 < grp.length)
    (hpm : grp.length ≤ m) : ∃ c t, CTopo.ofGroup m grp = .ok c ∧ g.combine c = .ok t ∧ t.group = grp ∧ t.nbElems = g.nbElems * m ∧
    ∀ i < grp.length, ∀ S S', S = i * (m / grp.length) + min i (m % grp.length) →
      S' = S + m / grp.length + (if i < m % grp.length then 1 else 0) →
      c.nbLocalComponents (some i) = .ok (S' - S) ∧ c.firstLocalComponent (some i) = .ok S ∧ t.nbLocal i = .ok (g.nbElems * (S' - S)) ∧
      ∀ e < g.nbElems, ∀ k, S ≤ k → k < S' → t.globalToLocal (e * m + k) = .ok (i, e * (S' - S) + (k - S)) ∧
        t.localToGlobal i i (e * (S' - S) + (k - S)) = .ok (e * m + k) := by
  obtain ⟨pre, A, n, post, hf⟩ := hb.form
  have hp0 : 0 < grp.length := by omega
  set arr := (List.range (grp.length + 1)).map (blockStart m grp.length) with harr
  have hc : CTopo.ofGroup m grp = .ok { arr := arr, group := some grp } := by
    unfold CTopo.ofGroup
    rw [if_neg (by omega), splitAxis_ok m hp0, ok_bind]
    rfl
  have hcf : CForm { arr := arr, group := some grp } m grp.length := ⟨offs_split m hp0, hp0, by simp⟩
  obtain ⟨t, k1, k2, k3⟩ := combine_split hf h1 hcf hp hm rfl
  have hprod : (pre ++ n :: post).prod = g.nbElems := by
    rw [hf.nb, List.prod_append, List.prod_cons]
  refine ⟨_, t, hc, k1, k2, by rw [k3.nb, hprod]; simp, ?_⟩
  intro i hi S S' hS hS'
  have hS'' : S = blockStart m grp.length i := hS
  have e1 : arr[i]? = some S := by
    rw [hS'', harr, List.getElem?_map, List.getElem?_range (by omega)]; rfl
  have e2 : arr[i + 1]? = some S' := by
    rw [hS', hS'', ← blockStart_succ, harr, List.getElem?_map, List.getElem?_range (by omega)]; rfl
  refine ⟨?_, ?_, ?_, ?_⟩
  · simp only [CTopo.nbLocalComponents, vget_ok e1, vget_ok e2, ok_bind]; rfl
  · simp only [CTopo.firstLocalComponent, vget_ok e1, ok_bind]; rfl
  · have := k3.nbl e1 e2
    rw [hprod] at this
    simpa using this
  · intro e he k hk1 hk2
    rw [← hprod] at he
    have q1 := k3.gtl (r := 0) he e1 e2 hk1 hk2 (by simp)
    have q2 := k3.ltg (r := 0) he e1 e2 hk1 hk2 (by simp)
    simp at q1 q2
    exact ⟨q1, q2⟩

/-- **Elements split, all components together.**  The `m` components of an element are on the processor of the element; component `c` of the
element of local number `l` has local number `l * m + c`. -/
theorem C85_whole_components {g : BTopo} (hb : Built g) {m : Nat} (hm : m ≠ 1) : ∃ t, g.combine (CTopo.one m) = .ok t ∧ t.group = g.group ∧
    t.nbElems = g.nbElems * m ∧
    (∀ i < g.group.length, ∀ k, g.nbLocal i = .ok k → t.nbLocal i = .ok (k * m)) ∧
    ∀ e < g.nbElems, ∀ i l, g.globalToLocal e = .ok (i, l) → ∀ c < m,
      t.globalToLocal (e * m + c) = .ok (i, l * m + c) ∧ t.localToGlobal i i (l * m + c) = .ok (e * m + c) := by
  obtain ⟨pre, A, n, post, hf⟩ := hb.form
  obtain ⟨t, k1, k2, k3⟩ := combine_keep (c := CTopo.one m) hf ⟨offs_oneAxis m, Nat.one_pos, by simp [CTopo.one]⟩ hm
  have hprod : (post ++ [m]).prod = post.prod * m := by simp
  refine ⟨t, k1, k2, by rw [k3.nb, hf.nb, hprod]; ring, ?_, ?_⟩
  · intro i hi k hk
    obtain ⟨lo, hlo⟩ := hf.offs.get (i := i) (by omega)
    obtain ⟨hi', hhi⟩ := hf.offs.get (i := i + 1) hi
    rw [hf.nbl hlo hhi] at hk
    cases hk
    rw [k3.nbl hlo hhi, hprod]
    congr 1; ring
  · intro g' hg i l hgl c hc
    rw [hf.nb] at hg
    have hR : 0 < post.prod := by
      rcases Nat.eq_zero_or_pos post.prod with h0 | h0
      · rw [h0] at hg; simp at hg
      · exact h0
    have hn : 0 < n := by
      rcases Nat.eq_zero_or_pos n with h0 | h0
      · rw [h0] at hg; simp at hg
      · exact h0
    have hm' := Nat.mod_lt (g' / post.prod) hn
    obtain ⟨p, lo, hi, hp, h1, h2, h3, h4⟩ := hf.offs.block hm'
    have he : g' / post.prod / n < pre.prod := by
      rw [Nat.div_div_eq_div_mul, Nat.div_lt_iff_lt_mul (Nat.mul_pos hR hn), Nat.mul_comm post.prod n]; exact hg
    have hr := Nat.mod_lt g' hR
    have hgd : (g' / post.prod / n * n + g' / post.prod % n) * post.prod + g' % post.prod = g' := by
      rw [Nat.mul_comm (g' / post.prod / n) n, Nat.div_add_mod, Nat.mul_comm, Nat.div_add_mod]
    have hq := hf.gtl he h1 h2 h3 h4 hr
    rw [hgd, hgl] at hq
    obtain ⟨rfl, hl⟩ : i = p ∧ l = _ := by simpa using hq
    have hr' : g' % post.prod * m + c < (post ++ [m]).prod := by
      rw [hprod]
      have := Nat.mul_le_mul_right m (show g' % post.prod + 1 ≤ post.prod from hr)
      rw [Nat.add_mul] at this; omega
    have q1 := k3.gtl he h1 h2 h3 h4 hr'
    have q2 := k3.ltg he h1 h2 h3 h4 hr'
    have a1 : (g' / post.prod / n * n + g' / post.prod % n) * (post ++ [m]).prod + (g' % post.prod * m + c) = g' * m + c := by
      rw [hprod]
      conv_rhs => rw [← hgd]
      ring
    have a2 : (g' / post.prod / n * (hi - lo) + (g' / post.prod % n - lo)) * (post ++ [m]).prod + (g' % post.prod * m + c) = l * m + c := by
      rw [hprod, hl]
      ring
    rw [a1, a2] at q1 q2
    exact ⟨q1, q2⟩

/-- **Refusals**: more blocks than components; elements and components both split. -/
theorem C85_refused : (∀ (m : Nat) (grp : List Nat), m < grp.length → CTopo.ofGroup m grp = .error .exn) ∧
    (∀ m p, m < p → CTopo.ofBlocks m p = .error .exn) ∧
    (∀ (g : BTopo) (m : Nat) (grp : List Nat) (c : CTopo), 1 < g.group.length → 1 < grp.length → CTopo.ofGroup m grp = .ok c →
      g.combine c = .error .exn) := by
  refine ⟨?_, ?_, ?_⟩
  · intro m grp h; unfold CTopo.ofGroup; rw [if_pos h]; rfl
  · intro m p h; unfold CTopo.ofBlocks; rw [if_pos h]; rfl
  · intro g m grp c hg hp hc
    unfold CTopo.ofGroup at hc
    split at hc
    · simp [throwX] at hc
    · rw [splitAxis_ok m (by omega), ok_bind] at hc
      cases hc
      unfold BTopo.combine
      rw [if_pos]
      · rfl
      · exact ⟨hg, by simp [CTopo.nbBlocks]; omega⟩

/-! ## Sending -/

theorem popN_append (l r : List Nat) : popN l.length (l ++ r) = .ok (l, r) := by
  induction l with
  | nil => rfl
  | cons a l ih => simp only [List.length_cons, List.cons_append, popN, pop, ok_bind, ih]; rfl

theorem popAxes_append (l : List (Nat × Nat × List Nat)) (r : List Nat) :
    popAxes l.length ((l.map fun (np, cy, ax) => np :: cy :: ax.length :: ax).flatten ++ r) = .ok (l, r) := by
  induction l with
  | nil => rfl
  | cons a l ih =>
    obtain ⟨np, cy, ax⟩ := a
    simp only [List.length_cons, List.map_cons, List.flatten_cons, List.cons_append, List.append_assoc, popAxes, pop, ok_bind, popN_append, ih]
    rfl

theorem Built.lens {t : BTopo} (h : Built t) : t.nbProcsPerDim.length = t.axes.length ∧ t.cyc.length = t.axes.length := by
  induction h with
  | @grid group dims t hg h =>
    cases dims with
    | nil => simp [BTopo.ofGrid, vget, err_bind, undef] at h
    | cons n rest =>
      unfold BTopo.ofGrid at h
      simp only [show vget (n :: rest) 0 = .ok n from rfl, ok_bind, splitAxis_ok n (List.length_pos_iff.2 hg)] at h
      cases h
      simp
  | @counts group cts t hg hc h =>
    unfold BTopo.ofCounts at h
    cases hl : loop group.length (([0], 0) : List Nat × Nat) (fun k (arr, nb) => do
      let i := k + 1
      let prev ← vget arr (i - 1)
      let c ← vget cts (i - 1)
      return (arr ++ [prev + c], nb + c)) with
    | error e => rw [hl] at h; simp [err_bind] at h
    | ok r => rw [hl, ok_bind] at h; cases h; simp
  | @combine g t c hg hc h ih =>
    obtain ⟨m, p, hcf⟩ := hc.form
    unfold BTopo.combine at h
    split at h
    · simp [throwX] at h
    · rw [hcf.comps, ok_bind] at h
      split at h
      · cases h; exact ih
      · split at h
        · cases hgr : c.group with
          | none => rw [hgr] at h; simp [undef] at h
          | some l => rw [hgr] at h; cases h; simpa using ih
        · cases h; simpa using ih

/-- **A topology is received as it was sent**, except that the processors of the group are put in the increasing order of their world ranks. -/
theorem C85_sent {t : BTopo} (h : Built t) : ∃ g, BTopo.unserialize t.serialize = .ok { t with group := g } ∧ g.Pairwise (· < ·) ∧
    ∀ x, x ∈ g ↔ x ∈ t.group := by
  obtain ⟨h1, h2⟩ := h.lens
  refine ⟨setInsertAll [] t.group, ?_, sorted_setInsertAll List.Pairwise.nil, fun x => by simp [mem_setInsertAll]⟩
  have hl : (t.nbProcsPerDim.zip (t.cyc.zip t.axes)).length = t.axes.length := by simp [h1, h2]
  unfold BTopo.unserialize BTopo.serialize
  simp only [List.cons_append, List.nil_append, pop, ok_bind]
  have := popAxes_append (t.nbProcsPerDim.zip (t.cyc.zip t.axes)) (t.group.length :: t.group)
  rw [hl] at this
  rw [this]
  simp only [ok_bind, pop]
  have hp := popN_append t.group []
  rw [List.append_nil] at hp
  rw [hp, ok_bind]
  show Except.ok _ = _
  congr 1
  have hm1 : (t.nbProcsPerDim.zip (t.cyc.zip t.axes)).map (fun x => x.1) = t.nbProcsPerDim := by
    apply List.map_fst_zip; simp [h1, h2]
  have hm2 : (t.nbProcsPerDim.zip (t.cyc.zip t.axes)).map (fun x => x.2) = t.cyc.zip t.axes := by
    apply List.map_snd_zip; simp [h1, h2]
  have hm3 : (t.nbProcsPerDim.zip (t.cyc.zip t.axes)).map (fun x => x.2.1) = t.cyc := by
    have : (t.nbProcsPerDim.zip (t.cyc.zip t.axes)).map (fun x => x.2.1) = ((t.nbProcsPerDim.zip (t.cyc.zip t.axes)).map (fun x => x.2)).map (·.1) := by
      simp
    rw [this, hm2]; apply List.map_fst_zip; simp [h2]
  have hm4 : (t.nbProcsPerDim.zip (t.cyc.zip t.axes)).map (fun x => x.2.2) = t.axes := by
    have : (t.nbProcsPerDim.zip (t.cyc.zip t.axes)).map (fun x => x.2.2) = ((t.nbProcsPerDim.zip (t.cyc.zip t.axes)).map (fun x => x.2)).map (·.2) := by
      simp
    rw [this, hm2]; apply List.map_snd_zip; simp [h2]
  rw [hm1, hm3, hm4]

/-- A group whose processors are in the increasing order of their world ranks is received as it is. -/
theorem C85_sent_sorted {t : BTopo} (h : Built t) (hs : t.group.Pairwise (· < ·)) : BTopo.unserialize t.serialize = .ok t := by
  obtain ⟨g, h1, h2, h3⟩ := C85_sent h
  have : g = t.group := StrictSorted.ext h2 hs h3
  rw [h1, this]

/-! ## Examples -/

/-- 5 × 3 coordinates over 2 processors -/
def gridTopo : BTopo := { nbProcsPerDim := [2, 1], axes := [[0, 3, 5], [0, 3]], cyc := [0, 0], group := [0, 1], nbElems := 15 }

example : BTopo.ofGrid [0, 1] [5, 3] = .ok gridTopo := rfl
example : Built gridTopo := .grid (group := [0, 1]) (dims := [5, 3]) (by simp) rfl
example : gridTopo.globalToLocal 10 = .ok (1, 1) ∧ gridTopo.localToGlobal 1 1 1 = .ok 10 ∧ gridTopo.nbLocal 1 = .ok 6 := ⟨rfl, rfl, rfl⟩

/-- 4 elements on one processor, 5 components over 2 processors -/
def compTopo : BTopo := { nbProcsPerDim := [1, 2], axes := [[0, 4], [0, 3, 5]], cyc := [0, 0], group := [0, 1], nbElems := 20 }

theorem compTopo_built : Built compTopo :=
  .combine (.grid (group := [0]) (dims := [4]) (by simp) rfl) (.group (n := 5) (g := [0, 1]) (by simp) rfl) rfl

example : compTopo.globalToLocal 9 = .ok (1, 3) ∧ compTopo.localToGlobal 1 1 3 = .ok 9 := ⟨rfl, rfl⟩
example : BTopo.unserialize gridTopo.serialize = .ok gridTopo := rfl

/-! ## Findings -/

/-- **Finding.**  `localToGlobal` is right only on the processor which is asked about: it starts from the number of elements of the calling processor.
With 7 and 3 elements, processor 0 is told that the last element of processor 1 (global number 9) is number 8. -/
theorem C85_finding_other_rank : ∃ t, BTopo.ofCounts [0, 1] [7, 3] = .ok t ∧ t.localToGlobal 1 1 2 = .ok 9 ∧ t.localToGlobal 0 1 2 = .ok 8 :=
  ⟨_, rfl, rfl, rfl⟩

/-- **Finding.**  `getLocalArrayMinMax` reads outside the offsets when the components are split: it does not divide the rank. -/
theorem C85_finding_min_max : Built compTopo ∧ compTopo.localMinMax 1 = .error .ub ∧ compTopo.nbLocal 1 = .ok 8 :=
  ⟨compTopo_built, rfl, rfl⟩

/-- **Finding.**  A group given in another order than the world ranks is received in another order: the blocks are no longer on the same processors. -/
theorem C85_finding_order : ∃ t t', BTopo.ofCounts [1, 0] [7, 3] = .ok t ∧ BTopo.unserialize t.serialize = .ok t' ∧ t.group = [1, 0] ∧
    t'.group = [0, 1] ∧ t'.axes = t.axes := ⟨_, _, rfl, rfl, rfl, rfl, rfl⟩

/-- **Finding.**  `globalToLocal` divides by zero when there is no element along an axis. -/
theorem C85_finding_empty : ∃ t, BTopo.ofGrid [0] [0, 3] = .ok t ∧ t.globalToLocal 0 = .error .ub := ⟨_, rfl, rfl⟩

end MC
