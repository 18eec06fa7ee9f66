import Verif.BlockTopo
import Mathlib.Tactic.Ring
import Mathlib.Tactic.Linarith
import Mathlib.Algebra.BigOperators.Group.List.Basic

/-!
# Lemmas on `BlockTopology`

All topologies have at most one axis which is split: the loops over the axes are computed before, on and after this axis.
-/

namespace MC

/-- an axis which is not split -/
abbrev oneAxis (n : Nat) : List Nat := [0, n]

theorem vget_ok {α : Type} {l : List α} {i : Nat} {a : α} (h : l[i]? = some a) : vget l i = .ok a := by
  simp [vget, h]

theorem divC_ok {a b : Nat} (h : 0 < b) : divC a b = .ok (a / b) := by simp [divC]; omega
theorem modC_ok {a b : Nat} (h : 0 < b) : modC a b = .ok (a % b) := by simp [modC]; omega

theorem foldlM_append_ok {α σ : Type} {f : σ → α → M σ} {l1 l2 : List α} {s s1 : σ} (h : l1.foldlM f s = .ok s1) :
    (l1 ++ l2).foldlM f s = l2.foldlM f s1 := by
  rw [List.foldlM_append, h, ok_bind]

theorem foldlM_cons_ok {α σ : Type} {f : σ → α → M σ} {a : α} {l : List α} {s s1 : σ} (h : f s a = .ok s1) :
    (a :: l).foldlM f s = l.foldlM f s1 := by
  rw [List.foldlM_cons, h, ok_bind]

theorem prod_pos' {ns : List Nat} (h : ∀ n ∈ ns, 0 < n) : 0 < ns.prod := by
  induction ns with
  | nil => simp
  | cons n ns ih =>
    rw [List.prod_cons]
    exact Nat.mul_pos (h n (by simp)) (ih fun m hm => h m (by simp [hm]))

theorem pos_of_prod {ns : List Nat} (h : 0 < ns.prod) : ∀ n ∈ ns, 0 < n := by
  induction ns with
  | nil => simp
  | cons n ns ih =>
    rw [List.prod_cons] at h
    intro m hm
    rcases List.mem_cons.1 hm with rfl | hm
    · exact Nat.pos_of_mul_pos_right h
    · exact ih (Nat.pos_of_mul_pos_left h) m hm

/-! ## The block of a position -/

/-- The offsets of the blocks of one axis: from 0, increasing. -/
structure Offs (A : List Nat) (p n : Nat) : Prop where
  len : A.length = p + 1
  zero : A[0]? = some 0
  last : A[p]? = some n
  mono : ∀ i x y, A[i]? = some x → A[i + 1]? = some y → x ≤ y

theorem Offs.mono' {A : List Nat} {p n : Nat} (h : Offs A p n) : ∀ (k i x y : Nat), A[i]? = some x → A[i + k]? = some y → x ≤ y := by
  intro k
  induction k with
  | zero => intro i x y hx hy; simp at hy; rw [hx] at hy; simp at hy; omega
  | succ k ih =>
    intro i x y hx hy
    obtain ⟨z, hz⟩ : ∃ z, A[i + k]? = some z := by
      have : i + k < A.length := by
        have := (List.getElem?_eq_some_iff.1 hy).1; omega
      exact ⟨_, List.getElem?_eq_getElem this⟩
    exact le_trans (ih i x z hx hz) (h.mono (i + k) z y hz hy)

theorem Offs.le {A : List Nat} {p n : Nat} (h : Offs A p n) {i j x y : Nat} (hij : i ≤ j) (hx : A[i]? = some x) (hy : A[j]? = some y) : x ≤ y := by
  obtain ⟨k, rfl⟩ := Nat.exists_eq_add_of_le hij
  exact h.mono' k i x y hx hy

theorem Offs.get {A : List Nat} {p n : Nat} (h : Offs A p n) {i : Nat} (hi : i ≤ p) : ∃ x, A[i]? = some x :=
  ⟨_, List.getElem?_eq_getElem (by have := h.len; omega)⟩

/-- every position lies in a block -/
theorem Offs.block {A : List Nat} {p n : Nat} (h : Offs A p n) {a : Nat} (ha : a < n) :
    ∃ b lo hi, b < p ∧ A[b]? = some lo ∧ A[b + 1]? = some hi ∧ lo ≤ a ∧ a < hi := by
  have key : ∀ k, k ≤ p → (∃ x, A[k]? = some x ∧ a < x) → ∃ b lo hi, b < k ∧ A[b]? = some lo ∧ A[b + 1]? = some hi ∧ lo ≤ a ∧ a < hi := by
    intro k
    induction k with
    | zero => rintro _ ⟨x, hx, hax⟩; rw [h.zero] at hx; simp at hx; omega
    | succ k ih =>
      rintro hk ⟨x, hx, hax⟩
      obtain ⟨y, hy⟩ := h.get (i := k) (by omega)
      by_cases hya : y ≤ a
      · exact ⟨k, y, x, by omega, hy, hx, hya, hax⟩
      · obtain ⟨b, lo, hi, hb, r⟩ := ih (by omega) ⟨y, hy, by omega⟩
        exact ⟨b, lo, hi, by omega, r⟩
  exact key p le_rfl ⟨n, h.last, ha⟩

theorem Offs.block_unique {A : List Nat} {p n : Nat} (h : Offs A p n) {a b b' lo hi lo' hi' : Nat} (h1 : A[b]? = some lo) (h2 : A[b + 1]? = some hi)
    (h3 : lo ≤ a) (h4 : a < hi) (h1' : A[b']? = some lo') (h2' : A[b' + 1]? = some hi') (h3' : lo' ≤ a) (h4' : a < hi') : b = b' := by
  rcases Nat.lt_trichotomy b b' with hlt | heq | hgt
  · have := h.le (i := b + 1) (j := b') hlt h2 h1'; omega
  · exact heq
  · have := h.le (i := b' + 1) (j := b) hgt h2' h1; omega

theorem findBlock_ok {A : List Nat} {p n : Nat} (h : Offs A p n) {a b lo hi : Nat} (h1 : A[b]? = some lo) (h2 : A[b + 1]? = some hi)
    (h3 : lo ≤ a) (h4 : a < hi) : ∀ left i, 1 ≤ i → i ≤ b + 1 → b + 1 < i + left → findBlock A a left i = .ok (b + 1) := by
  intro left
  induction left with
  | zero => intro i _ _ _; omega
  | succ left ih =>
    intro i hi1 hib hl
    have hbp : b + 1 < A.length := (List.getElem?_eq_some_iff.1 h2).1
    unfold findBlock
    obtain ⟨x, hx⟩ : ∃ x, A[i]? = some x := ⟨_, List.getElem?_eq_getElem (by omega)⟩
    rw [vget_ok hx, ok_bind]
    by_cases he : i = b + 1
    · subst he
      rw [h2] at hx; cases hx
      rw [if_neg (by omega)]; rfl
    · have := h.le (i := i) (j := b) (by omega) hx h1
      rw [if_pos (by omega)]
      exact ih (i + 1) (by omega) (by omega) (by omega)

/-! ## The loops over axes which are not split -/

theorem divmod_step (x P q : Nat) : q * P * (x / (P * q)) + q * ((x % (P * q)) / q) = q * (x / q) := by
  rw [Nat.mod_mul_left_div_self, Nat.mul_assoc, ← Nat.mul_add, Nat.mul_comm P q, ← Nat.div_div_eq_div_mul]
  rw [Nat.div_add_mod]

theorem gtl_ones (sp : Nat) : ∀ (ns : List Nat) (sub pos q : Nat) (acc : List (List Nat × Nat × Nat)), (∀ n ∈ ns, 0 < n) → 0 < q →
    pos < ns.prod * q →
    ∃ acc2, (ns.map oneAxis).foldlM (gtlAxis sp) (sub, pos, ns.prod * q, acc) = .ok (sub, pos % q, q, acc2 ++ acc) ∧
      ∀ s : Nat × Nat, acc2.foldlM gtlLocal s = .ok (s.1 + (pos / q) * s.2, s.2 * ns.prod) := by
  intro ns
  induction ns with
  | nil =>
    intro sub pos q acc _ hq hp
    simp only [List.prod_nil, Nat.one_mul] at hp
    refine ⟨[], ?_, ?_⟩
    · simp [Nat.mod_eq_of_lt hp]; rfl
    · intro s; simp [Nat.div_eq_of_lt hp]; rfl
  | cons n ns ih =>
    intro sub pos q acc hn hq hp
    have hn0 : 0 < n := hn n (by simp)
    have hP : 0 < ns.prod := prod_pos' fun m hm => hn m (by simp [hm])
    have hPq : 0 < ns.prod * q := Nat.mul_pos hP hq
    rw [List.prod_cons, Nat.mul_assoc] at hp
    have hlt : pos / (ns.prod * q) < n := by
      rw [Nat.div_lt_iff_lt_mul hPq]; exact hp
    have hstep : gtlAxis sp (sub, pos, (n :: ns).prod * q, acc) (oneAxis n)
        = .ok (sub, pos % (ns.prod * q), ns.prod * q, (oneAxis n, pos / (ns.prod * q), 1) :: acc) := by
      have hd : (n :: ns).prod * q / n = ns.prod * q := by
        rw [List.prod_cons, Nat.mul_assoc, Nat.mul_div_cancel_left _ hn0]
      have hf : findBlock [0, n] (pos / (ns.prod * q)) 2 1 = .ok 1 := by
        have hx : vget [0, n] 1 = .ok n := rfl
        unfold findBlock
        rw [hx, ok_bind, if_neg (by omega)]
        rfl
      have h1 : vget [0, n] 1 = .ok n := rfl
      have h0 : vget [0, n] 0 = .ok 0 := rfl
      simp only [gtlAxis, oneAxis, List.length_cons, List.length_nil, Nat.zero_add, Nat.add_sub_cancel, h1, ok_bind, divC_ok hn0,
        divC_ok Nat.one_pos, hd, divC_ok hPq, modC_ok hPq, hf, Nat.sub_self, h0, Nat.sub_zero, Nat.mul_zero, Nat.add_zero]
      rfl
    obtain ⟨acc2, h1, h2⟩ := ih sub (pos % (ns.prod * q)) q ((oneAxis n, pos / (ns.prod * q), 1) :: acc) (fun m hm => hn m (by simp [hm])) hq
      (Nat.mod_lt _ hPq)
    refine ⟨acc2 ++ [(oneAxis n, pos / (ns.prod * q), 1)], ?_, ?_⟩
    · rw [List.map_cons, foldlM_cons_ok hstep, h1, Nat.mod_mod_of_dvd _ (Dvd.intro_left _ rfl)]
      simp
    · intro s
      rw [foldlM_append_ok (h2 s)]
      have hl : gtlLocal (s.1 + pos % (ns.prod * q) / q * s.2, s.2 * ns.prod) (oneAxis n, pos / (ns.prod * q), 1)
          = .ok (s.1 + pos % (ns.prod * q) / q * s.2 + pos / (ns.prod * q) * (s.2 * ns.prod), s.2 * ns.prod * n) := by
        simp [gtlLocal, oneAxis, vget, ok_bind]
      rw [foldlM_cons_ok hl]
      have := divmod_step pos ns.prod q
      have h5 : pos % (ns.prod * q) / q * s.2 + pos / (ns.prod * q) * (s.2 * ns.prod) = pos / q * s.2 := by
        have h6 : ns.prod * (pos / (ns.prod * q)) + (pos % (ns.prod * q)) / q = pos / q := by
          have h7 : q * (ns.prod * (pos / (ns.prod * q)) + (pos % (ns.prod * q)) / q) = q * (pos / q) := by
            rw [← this]; ring
          exact Nat.eq_of_mul_eq_mul_left hq h7
        rw [← h6]; ring
      simp only [List.foldlM_nil]
      rw [Nat.add_assoc, h5, List.prod_cons]
      show Except.ok _ = _
      congr 2; ring

theorem nbLoc_ones : ∀ (ns : List Nat) (pos nb inc : Nat), 0 < inc → (inc = 1 ∨ pos = 0) →
    (ns.map fun n => (oneAxis n, 1)).foldlM nbLocAxis (pos, nb, inc) = .ok (pos, nb * ns.prod, inc) := by
  intro ns
  induction ns with
  | nil => intro pos nb inc _ _; simp; rfl
  | cons n ns ih =>
    intro pos nb inc h h'
    have hs : nbLocAxis (pos, nb, inc) (oneAxis n, 1) = .ok (pos, nb * n, inc) := by
      have hm : pos % inc = 0 := by rcases h' with rfl | rfl <;> simp [Nat.mod_one]
      have hd : pos / inc = pos := by rcases h' with rfl | rfl <;> simp
      simp [nbLocAxis, oneAxis, modC_ok h, divC_ok h, ok_bind, hm, hd, vget]
    rw [List.map_cons, foldlM_cons_ok hs, ih _ _ _ h h', List.prod_cons, Nat.mul_assoc]

theorem ltg_ones : ∀ (ns : List Nat) (sub glob loc q pi q' : Nat), (∀ n ∈ ns, 0 < n) → 0 < q' → sub < pi → loc < ns.prod * q' →
    (ns.map oneAxis).foldlM ltgAxis (sub, glob, loc, ns.prod * q, pi, ns.prod * q')
      = .ok (sub, glob + q * (loc / q'), loc % q', q, pi, q') := by
  intro ns
  induction ns with
  | nil =>
    intro sub glob loc q pi q' _ hq hs hl
    simp only [List.prod_nil, Nat.one_mul] at hl
    simp [Nat.div_eq_of_lt hl, Nat.mod_eq_of_lt hl]; rfl
  | cons n ns ih =>
    intro sub glob loc q pi q' hn hq hs hl
    have hn0 : 0 < n := hn n (by simp)
    have hP : 0 < ns.prod := prod_pos' fun m hm => hn m (by simp [hm])
    have hPq : 0 < ns.prod * q' := Nat.mul_pos hP hq
    have hpi : 0 < pi := by omega
    have hstep : ltgAxis (sub, glob, loc, (n :: ns).prod * q, pi, (n :: ns).prod * q') (oneAxis n)
        = .ok (sub, glob + ns.prod * q * (loc / (ns.prod * q')), loc % (ns.prod * q'), ns.prod * q, pi, ns.prod * q') := by
      have hd : (n :: ns).prod * q / n = ns.prod * q := by
        rw [List.prod_cons, Nat.mul_assoc, Nat.mul_div_cancel_left _ hn0]
      have hd' : (n :: ns).prod * q' / n = ns.prod * q' := by
        rw [List.prod_cons, Nat.mul_assoc, Nat.mul_div_cancel_left _ hn0]
      have h1 : vget [0, n] 1 = .ok n := rfl
      have h0 : vget [0, n] 0 = .ok 0 := rfl
      have hs0 : sub / pi = 0 := Nat.div_eq_of_lt hs
      have hs1 : sub % pi = sub := Nat.mod_eq_of_lt hs
      simp only [ltgAxis, oneAxis, List.length_cons, List.length_nil, Nat.zero_add, Nat.add_sub_cancel, h1, ok_bind, divC_ok Nat.one_pos,
        Nat.div_one, divC_ok hpi, modC_ok hpi, hs0, hs1, h0, hd, hd', Nat.sub_zero, if_neg (Nat.pos_iff_ne_zero.1 hn0),
        if_neg (Nat.pos_iff_ne_zero.1 hPq), Nat.add_zero]
      rfl
    rw [List.map_cons, foldlM_cons_ok hstep, ih _ _ _ _ _ _ (fun m hm => hn m (by simp [hm])) hq hs (Nat.mod_lt _ hPq),
      Nat.mod_mod_of_dvd _ (Dvd.intro_left _ rfl)]
    congr 3
    have h6 : ns.prod * (loc / (ns.prod * q')) + (loc % (ns.prod * q')) / q' = loc / q' := by
      have := divmod_step loc ns.prod q'
      have h7 : q' * (ns.prod * (loc / (ns.prod * q')) + (loc % (ns.prod * q')) / q') = q' * (loc / q') := by
        rw [← this]; ring
      exact Nat.eq_of_mul_eq_mul_left hq h7
    rw [Nat.add_assoc]; congr 1
    rw [← h6]; ring

/-! ## One split axis -/

/-- The form of every topology: the axis `A` of `n` elements is split over the processors; `pre` and `post` are the numbers of elements along the other
axes. -/
structure BForm (t : BTopo) (pre : List Nat) (A : List Nat) (n : Nat) (post : List Nat) : Prop where
  axes : t.axes = pre.map oneAxis ++ A :: post.map oneAxis
  offs : Offs A t.group.length n
  procs : t.nbProcsPerDim = pre.map (fun _ => 1) ++ t.group.length :: post.map fun _ => 1
  nb : t.nbElems = pre.prod * (n * post.prod)
  size : 0 < t.group.length

variable {t : BTopo} {pre A post : List Nat} {n : Nat}

/-- the cell number of element `e`, `a`, `r`: before, on and after the split axis -/
theorem BForm.gtl (h : BForm t pre A n post) {e a r p lo hi : Nat} (he : e < pre.prod) (h1 : A[p]? = some lo) (h2 : A[p + 1]? = some hi)
    (h3 : lo ≤ a) (h4 : a < hi) (hr : r < post.prod) :
    t.globalToLocal ((e * n + a) * post.prod + r) = .ok (p, (e * (hi - lo) + (a - lo)) * post.prod + r) := by
  have hpre : ∀ m ∈ pre, 0 < m := pos_of_prod (by omega)
  have hpost : ∀ m ∈ post, 0 < m := pos_of_prod (by omega)
  have hR : 0 < post.prod := by omega
  have hhi : hi ≤ n := h.offs.le (i := p + 1) (j := t.group.length)
    (by have := (List.getElem?_eq_some_iff.1 h2).1; have := h.offs.len; omega) h2 h.offs.last
  have hn : 0 < n := by omega
  have ha : a < n := by omega
  have hnR : 0 < n * post.prod := Nat.mul_pos hn hR
  have hin : a * post.prod + r < n * post.prod := by
    have : (a + 1) * post.prod ≤ n * post.prod := Nat.mul_le_mul_right _ ha
    rw [Nat.add_mul] at this; omega
  set g := (e * n + a) * post.prod + r with hg
  have hg' : g = (n * post.prod) * e + (a * post.prod + r) := by rw [hg]; ring
  have hgm : g % (n * post.prod) = a * post.prod + r := by
    rw [hg', Nat.mul_add_mod]; exact Nat.mod_eq_of_lt hin
  have hgd : g / (n * post.prod) = e := by
    rw [hg', Nat.mul_add_div hnR, Nat.div_eq_of_lt hin]; omega
  have hglt : g < pre.prod * (n * post.prod) := by
    rw [← Nat.div_lt_iff_lt_mul hnR, hgd]; exact he
  obtain ⟨acc1, e1, l1⟩ := gtl_ones t.group.length pre 0 g (n * post.prod) [] hpre hnR hglt
  have hdiv : (a * post.prod + r) / post.prod = a := by
    rw [Nat.mul_comm, Nat.mul_add_div hR, Nat.div_eq_of_lt hr]; omega
  have hmod : (a * post.prod + r) % post.prod = r := by
    rw [Nat.mul_comm, Nat.mul_add_mod]; exact Nat.mod_eq_of_lt hr
  have hstep : gtlAxis t.group.length (0, g % (n * post.prod), n * post.prod, acc1 ++ []) A
      = .ok (p, r, post.prod, (A, a - lo, p + 1) :: (acc1 ++ [])) := by
    have hl : A.length - 1 = t.group.length := by have := h.offs.len; omega
    have hp : p + 1 < A.length := (List.getElem?_eq_some_iff.1 h2).1
    simp only [gtlAxis, hl, vget_ok h.offs.last, ok_bind, divC_ok hn, divC_ok h.size, Nat.mul_div_cancel_left _ hn, divC_ok hR, modC_ok hR,
      hgm, hdiv, hmod, findBlock_ok h.offs h1 h2 h3 h4 A.length 1 le_rfl (by omega) (by omega), Nat.add_sub_cancel, vget_ok h1, Nat.div_self h.size]
    simp
    rfl
  obtain ⟨acc2, e2, l2⟩ := gtl_ones t.group.length post p r 1 ((A, a - lo, p + 1) :: (acc1 ++ [])) hpost Nat.one_pos (by omega)
  unfold BTopo.globalToLocal
  rw [Nat.mul_one] at e2
  rw [h.axes, h.nb, foldlM_append_ok e1, foldlM_cons_ok hstep, e2, ok_bind]
  simp only [List.append_nil, foldlM_append_ok (l2 (0, 1))]
  have hl2 : gtlLocal (0 + r / 1 * 1, 1 * post.prod) (A, a - lo, p + 1) = .ok (r + (a - lo) * post.prod, post.prod * (hi - lo)) := by
    simp only [gtlLocal, vget_ok h2, Nat.add_sub_cancel, vget_ok h1, ok_bind]
    simp; rfl
  rw [foldlM_cons_ok hl2, l1, ok_bind, hgd]
  show Except.ok _ = _
  congr 2; ring

theorem BForm.nbl (h : BForm t pre A n post) {p lo hi : Nat} (h1 : A[p]? = some lo) (h2 : A[p + 1]? = some hi) :
    t.nbLocal p = .ok (pre.prod * ((hi - lo) * post.prod)) := by
  have hp : p < t.group.length := by
    have := (List.getElem?_eq_some_iff.1 h2).1; have := h.offs.len; omega
  have hz : t.axes.zip t.nbProcsPerDim = (pre.map fun m => (oneAxis m, 1)) ++ (A, t.group.length) :: post.map fun m => (oneAxis m, 1) := by
    rw [h.axes, h.procs, List.zip_append (by simp), List.zip_cons_cons, List.zip_map', List.zip_map']
  unfold BTopo.nbLocal
  rw [hz, List.reverse_append, List.reverse_cons, List.append_assoc, List.singleton_append, ← List.map_reverse, ← List.map_reverse,
    foldlM_append_ok (nbLoc_ones post.reverse p 1 1 Nat.one_pos (Or.inl rfl))]
  have hstep : nbLocAxis (p, 1 * post.reverse.prod, 1) (A, t.group.length) = .ok (0, post.prod * (hi - lo), t.group.length) := by
    simp only [nbLocAxis, Nat.one_mul, modC_ok h.size, divC_ok h.size, Nat.mod_eq_of_lt hp, Nat.div_eq_of_lt hp, vget_ok h1, vget_ok h2, ok_bind,
      List.prod_reverse]
    rfl
  rw [foldlM_cons_ok hstep, nbLoc_ones _ _ _ _ h.size (Or.inr rfl), ok_bind, List.prod_reverse]
  show Except.ok _ = _
  congr 1; ring

theorem BForm.ltg (h : BForm t pre A n post) {e a r p lo hi : Nat} (he : e < pre.prod) (h1 : A[p]? = some lo) (h2 : A[p + 1]? = some hi)
    (h3 : lo ≤ a) (h4 : a < hi) (hr : r < post.prod) :
    t.localToGlobal p p ((e * (hi - lo) + (a - lo)) * post.prod + r) = .ok ((e * n + a) * post.prod + r) := by
  have hp : p < t.group.length := by
    have := (List.getElem?_eq_some_iff.1 h2).1; have := h.offs.len; omega
  have hpre : ∀ m ∈ pre, 0 < m := pos_of_prod (by omega)
  have hpost : ∀ m ∈ post, 0 < m := pos_of_prod (by omega)
  have hR : 0 < post.prod := by omega
  have hhi : hi ≤ n := h.offs.le (i := p + 1) (j := t.group.length) (by omega) h2 h.offs.last
  have hn : 0 < n := by omega
  have hw : 0 < hi - lo := by omega
  have hwR : 0 < (hi - lo) * post.prod := Nat.mul_pos hw hR
  set w := hi - lo with hwd
  have hin : (a - lo) * post.prod + r < w * post.prod := by
    have : (a - lo + 1) * post.prod ≤ w * post.prod := Nat.mul_le_mul_right _ (by omega)
    rw [Nat.add_mul] at this; omega
  set l := (e * w + (a - lo)) * post.prod + r with hl
  have hl' : l = (w * post.prod) * e + ((a - lo) * post.prod + r) := by rw [hl]; ring
  have hlm : l % (w * post.prod) = (a - lo) * post.prod + r := by
    rw [hl', Nat.mul_add_mod]; exact Nat.mod_eq_of_lt hin
  have hld : l / (w * post.prod) = e := by
    rw [hl', Nat.mul_add_div hwR, Nat.div_eq_of_lt hin]; omega
  have hllt : l < pre.prod * (w * post.prod) := by
    rw [← Nat.div_lt_iff_lt_mul hwR, hld]; exact he
  unfold BTopo.localToGlobal
  rw [h.nbl h1 h2, ok_bind, h.axes, h.nb, foldlM_append_ok (ltg_ones pre p 0 l (n * post.prod) t.group.length (w * post.prod) hpre hwR hp hllt)]
  have hdiv : ((a - lo) * post.prod + r) / post.prod = a - lo := by
    rw [Nat.mul_comm, Nat.mul_add_div hR, Nat.div_eq_of_lt hr]; omega
  have hmod : ((a - lo) * post.prod + r) % post.prod = r := by
    rw [Nat.mul_comm, Nat.mul_add_mod]; exact Nat.mod_eq_of_lt hr
  have hstep : ltgAxis (p, 0 + n * post.prod * (l / (w * post.prod)), l % (w * post.prod), n * post.prod, t.group.length, w * post.prod) A
      = .ok (0, n * post.prod * e + post.prod * a, r, post.prod, 1, post.prod) := by
    have hl : A.length - 1 = t.group.length := by have := h.offs.len; omega
    simp only [ltgAxis, hl, vget_ok h.offs.last, ok_bind, if_neg (Nat.pos_iff_ne_zero.1 hn), Nat.mul_div_cancel_left _ hn, divC_ok h.size,
      Nat.div_self h.size, divC_ok Nat.one_pos, modC_ok Nat.one_pos, Nat.div_one, Nat.mod_one, vget_ok h1, vget_ok h2, ← hwd,
      if_neg (Nat.pos_iff_ne_zero.1 hw), Nat.mul_div_cancel_left _ hw, if_neg (Nat.pos_iff_ne_zero.1 hR), hlm, hld, hdiv, hmod]
    have : a - lo + lo = a := by omega
    rw [this, Nat.zero_add]; rfl
  have hlast := ltg_ones post 0 (n * post.prod * e + post.prod * a) r 1 1 1 hpost Nat.one_pos Nat.one_pos (by omega)
  rw [Nat.mul_one] at hlast
  rw [foldlM_cons_ok hstep, hlast, ok_bind]
  show Except.ok _ = _
  congr 1
  simp only [Nat.div_one]; ring

/-! ## The constructors -/

/-- start of block `i` when `n` elements are shared by `p` blocks -/
def blockStart (n p i : Nat) : Nat := i * (n / p) + min i (n % p)

theorem splitAxis_ok (n : Nat) {p : Nat} (hp : 0 < p) : splitAxis n p = .ok ((List.range (p + 1)).map (blockStart n p)) := by
  have key : ∀ k, k ≤ p → loop k [0] (fun k arr => do
      let i := k + 1
      let prev ← vget arr (i - 1)
      let q ← divC n p
      let r ← modC n p
      let x := prev + q
      return arr ++ [if i ≤ r then x + 1 else x]) = (.ok ((List.range (k + 1)).map (blockStart n p)) : M (List Nat)) := by
    intro k
    induction k with
    | zero => intro _; simp [loop, blockStart]
    | succ k ih =>
      intro hk
      unfold loop
      rw [ih (by omega), ok_bind]
      have hg : vget ((List.range (k + 1)).map (blockStart n p)) (k + 1 - 1) = .ok (blockStart n p k) := by
        apply vget_ok; simp
      simp only [hg, ok_bind, divC_ok hp, modC_ok hp]
      show Except.ok _ = _
      rw [List.range_succ (n := k + 1), List.map_append, List.map_singleton]
      congr 3
      unfold blockStart
      rw [Nat.add_mul]
      split <;> omega
  exact key p le_rfl

theorem blockStart_last (n : Nat) {p : Nat} (hp : 0 < p) : blockStart n p p = n := by
  have h1 := Nat.mod_lt n hp
  have h2 := Nat.div_add_mod n p
  unfold blockStart
  rw [Nat.min_eq_right (by omega)]; exact h2

theorem blockStart_succ (n p i : Nat) : blockStart n p (i + 1) = blockStart n p i + n / p + (if i < n % p then 1 else 0) := by
  unfold blockStart
  rw [Nat.add_mul]
  split <;> omega

theorem offs_split (n : Nat) {p : Nat} (hp : 0 < p) : Offs ((List.range (p + 1)).map (blockStart n p)) p n where
  len := by simp
  zero := by simp [blockStart]
  last := by simp [blockStart_last n hp]
  mono := by
    intro i x y hx hy
    rw [List.getElem?_map] at hx hy
    obtain ⟨a, ha, rfl⟩ := Option.map_eq_some_iff.1 hx
    obtain ⟨b, hb, rfl⟩ := Option.map_eq_some_iff.1 hy
    obtain ⟨_, rfl⟩ := List.getElem?_eq_some_iff.1 ha
    obtain ⟨_, rfl⟩ := List.getElem?_eq_some_iff.1 hb
    simp only [List.getElem_range]
    rw [blockStart_succ, Nat.add_assoc]
    exact Nat.le_add_right _ _

theorem foldl_mul_prod (l : List Nat) (x : Nat) : l.foldl (· * ·) x = x * l.prod := by
  induction l generalizing x with
  | nil => simp
  | cons a l ih => rw [List.foldl_cons, ih, List.prod_cons, Nat.mul_assoc]

theorem ofGrid_form {group : List Nat} (hg : group ≠ []) (n : Nat) (rest : List Nat) :
    ∃ t, BTopo.ofGrid group (n :: rest) = .ok t ∧ t.group = group ∧
      BForm t [] ((List.range (group.length + 1)).map (blockStart n group.length)) n rest := by
  have hp : 0 < group.length := List.length_pos_iff.2 hg
  refine ⟨{ nbProcsPerDim := group.length :: rest.map fun _ => 1
            axes := (List.range (group.length + 1)).map (blockStart n group.length) :: rest.map fun n => [0, n]
            cyc := (n :: rest).map fun _ => 0, group := group, nbElems := (n :: rest).foldl (· * ·) 1 }, ?_, rfl, ?_⟩
  · unfold BTopo.ofGrid
    simp only [show vget (n :: rest) 0 = .ok n from rfl, ok_bind, splitAxis_ok n hp]
    rfl
  · exact { axes := by simp, offs := offs_split n hp, procs := by simp, nb := by simp [foldl_mul_prod], size := hp }

/-- number of elements before processor `i` -/
def countStart (counts : List Nat) (i : Nat) : Nat := (counts.take i).sum

theorem countStart_succ {counts : List Nat} {i c : Nat} (h : counts[i]? = some c) : countStart counts (i + 1) = countStart counts i + c := by
  unfold countStart
  rw [List.take_add_one, h, List.sum_append]; simp

theorem ofCounts_form {group counts : List Nat} (hg : group ≠ []) (hc : counts.length = group.length) :
    ∃ t, BTopo.ofCounts group counts = .ok t ∧ t.group = group ∧
      BForm t [] ((List.range (group.length + 1)).map (countStart counts)) counts.sum [] := by
  have hp : 0 < group.length := List.length_pos_iff.2 hg
  have key : ∀ k, k ≤ group.length → loop k (([0], 0) : List Nat × Nat) (fun k (arr, nb) => do
      let i := k + 1
      let prev ← vget arr (i - 1)
      let c ← vget counts (i - 1)
      return (arr ++ [prev + c], nb + c)) = .ok ((List.range (k + 1)).map (countStart counts), countStart counts k) := by
    intro k
    induction k with
    | zero => intro _; simp [loop, countStart]
    | succ k ih =>
      intro hk
      unfold loop
      rw [ih (by omega), ok_bind]
      have hg1 : vget ((List.range (k + 1)).map (countStart counts)) (k + 1 - 1) = .ok (countStart counts k) := by
        apply vget_ok; simp
      have hc1 : counts[k]? = some counts[k] := List.getElem?_eq_getElem (by omega)
      have hg2 : vget counts (k + 1 - 1) = .ok counts[k] := vget_ok hc1
      simp only [hg1, ok_bind, hg2]
      show Except.ok _ = _
      rw [List.range_succ (n := k + 1), List.map_append, List.map_singleton, countStart_succ hc1]
  have hlast : countStart counts group.length = counts.sum := by
    unfold countStart; rw [← hc, List.take_length]
  refine ⟨{ nbProcsPerDim := [group.length], axes := [(List.range (group.length + 1)).map (countStart counts)], cyc := [0], group := group
            nbElems := countStart counts group.length }, ?_, rfl, ?_⟩
  · unfold BTopo.ofCounts
    rw [key _ le_rfl, ok_bind]
    rfl
  · refine { axes := by simp, offs := ?_, procs := by simp, nb := by simp [hlast], size := hp }
    refine { len := by simp, zero := by simp [countStart], last := by simp [hlast], mono := ?_ }
    intro i x y hx hy
    rw [List.getElem?_map] at hx hy
    obtain ⟨a, ha, rfl⟩ := Option.map_eq_some_iff.1 hx
    obtain ⟨b, hb, rfl⟩ := Option.map_eq_some_iff.1 hy
    obtain ⟨_, rfl⟩ := List.getElem?_eq_some_iff.1 ha
    obtain ⟨hb', rfl⟩ := List.getElem?_eq_some_iff.1 hb
    have hb2 : i + 1 < group.length + 1 := by simpa using hb'
    simp only [List.getElem_range]
    rw [countStart_succ (List.getElem?_eq_getElem (by omega : i < counts.length))]; omega

/-- What the constructors of a component topology produce. -/
structure CForm (c : CTopo) (n p : Nat) : Prop where
  offs : Offs c.arr p n
  pos : 0 < p
  group : ∀ l, c.group = some l → l.length = p

theorem CForm.comps {c : CTopo} {n p : Nat} (h : CForm c n p) : c.nbComponents = .ok n := by
  unfold CTopo.nbComponents
  rw [h.offs.len, Nat.add_sub_cancel, vget_ok h.offs.last]

theorem CForm.blocks {c : CTopo} {n p : Nat} (h : CForm c n p) : c.nbBlocks = p := by
  unfold CTopo.nbBlocks
  rw [h.offs.len, Nat.add_sub_cancel]

theorem offs_one {A : List Nat} {n : Nat} (h : Offs A 1 n) : A = oneAxis n := by
  match A, h.len, h.zero, h.last with
  | [a, b], _, h0, h1 => simp at h0 h1; simp [h0, h1]

theorem offs_oneAxis (n : Nat) : Offs (oneAxis n) 1 n where
  len := rfl
  zero := rfl
  last := rfl
  mono := by
    intro i x y hx hy
    match i with
    | 0 => simp at hx; omega
    | i + 1 => simp at hy

/-- the splitting of the elements is kept and the components come last -/
theorem combine_keep {c : CTopo} {m : Nat} (h : BForm t pre A n post) (hc : CForm c m 1) (hm : m ≠ 1) :
    ∃ t', t.combine c = .ok t' ∧ t'.group = t.group ∧ BForm t' pre A n (post ++ [m]) := by
  have hb := hc.blocks
  have harr := offs_one hc.offs
  refine ⟨{ nbProcsPerDim := t.nbProcsPerDim ++ [1], axes := t.axes ++ [c.arr], cyc := t.cyc ++ [0], group := t.group, nbElems := t.nbElems * m },
    ?_, rfl, ?_⟩
  · unfold BTopo.combine
    rw [if_neg (by omega), hc.comps, ok_bind, if_neg hm, if_neg (by omega), ok_bind, hb]
    rfl
  · refine { axes := ?_, offs := h.offs, procs := ?_, nb := ?_, size := h.size }
    · simp [h.axes, harr]
    · simp [h.procs]
    · simp only [h.nb, List.prod_append, List.prod_singleton]; ring

/-- the elements are on one processor and the components are split -/
theorem combine_split {c : CTopo} {m p : Nat} {grp : List Nat} (h : BForm t pre A n post) (h1 : t.group.length = 1) (hc : CForm c m p) (hp : 1 < p)
    (hm : m ≠ 1) (hg : c.group = some grp) :
    ∃ t', t.combine c = .ok t' ∧ t'.group = grp ∧ BForm t' (pre ++ n :: post) c.arr m [] := by
  have hb := hc.blocks
  have hA : A = oneAxis n := offs_one (by rw [← h1]; exact h.offs)
  have hl : grp.length = p := hc.group _ hg
  refine ⟨{ nbProcsPerDim := t.nbProcsPerDim ++ [p], axes := t.axes ++ [c.arr], cyc := t.cyc ++ [0], group := grp, nbElems := t.nbElems * m },
    ?_, rfl, ?_⟩
  · unfold BTopo.combine
    rw [if_neg (by omega), hc.comps, ok_bind, if_neg hm, if_pos (by omega), hg, hb]
    rfl
  · refine { axes := ?_, offs := by rw [hl]; exact hc.offs, procs := ?_, nb := ?_, size := by rw [hl]; omega }
    · simp [h.axes, hA]
    · simp [h.procs, h1, hl]
    · simp only [h.nb, List.prod_append, List.prod_cons, List.prod_nil]; ring

end MC
