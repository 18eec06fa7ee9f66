import Verif.CommonCellsProps
import Verif.UMeshRev
import Verif.UMeshParts
import Verif.PartitionProps

/-!
# C58: search of common cells
-/

namespace MC
section

/-! ## Candidates -/

theorem mem_dropWhile_lt_le {t : List Int} (ht : t.Pairwise (· ≤ ·)) {a x : Int} : x ∈ t.dropWhile (· < a) ↔ x ∈ t ∧ a ≤ x := by
  induction t with
  | nil => simp
  | cons b t ih =>
    rw [List.pairwise_cons] at ht
    by_cases h : b < a
    · rw [List.dropWhile_cons_of_pos (by simpa using h), ih ht.2, List.mem_cons]
      constructor
      · rintro ⟨h1, h2⟩; exact ⟨Or.inr h1, h2⟩
      · rintro ⟨rfl | h1, h2⟩
        · omega
        · exact ⟨h1, h2⟩
    · rw [List.dropWhile_cons_of_neg (by simpa using h)]
      constructor
      · intro hx
        refine ⟨hx, ?_⟩
        rcases List.mem_cons.mp hx with rfl | hx
        · omega
        · have := ht.1 x hx; omega
      · exact fun h => h.1

/-- `std::set_intersection` on sorted ranges which may hold equal values -/
theorem mem_setIntersection_le {s t : List Int} (hs : s.Pairwise (· ≤ ·)) (ht : t.Pairwise (· ≤ ·)) {x : Int} :
    x ∈ setIntersection s t ↔ x ∈ s ∧ x ∈ t := by
  induction s generalizing t with
  | nil => simp [setIntersection]
  | cons a s ih =>
    rw [List.pairwise_cons] at hs
    have hd : (t.dropWhile (· < a)).Pairwise (· ≤ ·) := ht.sublist (List.dropWhile_sublist _)
    have hm := fun y => mem_dropWhile_lt_le (a := a) (x := y) ht
    have hge : ∀ y, y ∈ a :: s → a ≤ y := fun y hy => by
      rcases List.mem_cons.mp hy with rfl | hy
      · exact le_refl _
      · exact hs.1 y hy
    have key : x ∈ a :: s ∧ x ∈ t ↔ x ∈ a :: s ∧ x ∈ t.dropWhile (· < a) := by
      rw [hm]
      constructor
      · rintro ⟨h1, h2⟩; exact ⟨h1, h2, hge x h1⟩
      · rintro ⟨h1, h2, -⟩; exact ⟨h1, h2⟩
    rw [key]
    unfold setIntersection
    cases hdw : t.dropWhile (· < a) with
    | nil => simp
    | cons b t' =>
      rw [hdw] at hd
      have hab : a ≤ b := ((hm b).mp (by rw [hdw]; simp)).2
      rw [List.pairwise_cons] at hd
      simp only
      split
      · rename_i h
        rw [ih hs.2 (by rw [List.pairwise_cons]; exact hd)]
        constructor
        · rintro ⟨h1, h2⟩
          exact ⟨List.mem_cons_of_mem _ h1, h2⟩
        · rintro ⟨h1, h2⟩
          refine ⟨?_, h2⟩
          rcases List.mem_cons.mp h1 with rfl | h1
          · rcases List.mem_cons.mp h2 with rfl | h3
            · omega
            · have := hd.1 _ h3; omega
          · exact h1
      · rename_i h
        have hab' : a = b := by omega
        subst hab'
        rw [List.mem_cons, ih hs.2 hd.2, List.mem_cons, List.mem_cons]
        tauto

theorem dropWhile_ne_spec {l : List Int} (hl : l.Pairwise (· ≤ ·)) {i : Int} (hi : i ∈ l) (x : Int) :
    x ∈ l.dropWhile (· ≠ i) ↔ x ∈ l ∧ i ≤ x := by
  induction l with
  | nil => simp at hi
  | cons b l ih =>
    rw [List.pairwise_cons] at hl
    by_cases h : b = i
    · subst h
      rw [List.dropWhile_cons_of_neg (by simp)]
      constructor
      · intro hx
        refine ⟨hx, ?_⟩
        rcases List.mem_cons.mp hx with rfl | hx
        · exact le_refl _
        · exact hl.1 x hx
      · exact fun h => h.1
    · rw [List.dropWhile_cons_of_pos (by simpa using h)]
      have hi' : i ∈ l := by
        rcases List.mem_cons.mp hi with e | e
        · exact absurd e.symm h
        · exact e
      rw [ih hl.2 hi', List.mem_cons]
      have := hl.1 i hi'
      constructor
      · rintro ⟨h1, h2⟩; exact ⟨Or.inr h1, h2⟩
      · rintro ⟨rfl | h1, h2⟩
        · omega
        · exact ⟨h1, h2⟩

theorem candLoop_spec {grp : Int → M (List Int)} {G : Int → List Int} {i : Int} {ns : List Int}
    (hg : ∀ n ∈ ns, 0 ≤ n → grp n = .ok (G n)) (hs : ∀ n ∈ ns, 0 ≤ n → (G n).Pairwise (· ≤ ·)) (hi : ∀ n ∈ ns, 0 ≤ n → i ∈ G n)
    {v2 : List Int} (hv : v2.Pairwise (· ≤ ·)) (hiv : i ∈ v2) :
    ∃ v, candLoop grp ns v2 = .ok v ∧ v.Sublist v2 ∧ i ∈ v ∧ ∀ x, x ∈ v ↔ x ∈ v2 ∧ ∀ n ∈ ns, 0 ≤ n → x ∈ G n := by
  induction ns generalizing v2 with
  | nil => exact ⟨v2, rfl, List.Sublist.refl _, hiv, by simp⟩
  | cons n ns ih =>
    unfold candLoop
    by_cases h1 : v2.length > 1
    · rw [if_pos h1]
      by_cases h0 : n ≥ 0
      · rw [if_pos h0, hg n (by simp) h0, ok_bind]
        have hm := fun x => mem_setIntersection_le (x := x) hv (hs n (by simp) h0)
        obtain ⟨v, e1, e2, e3, e4⟩ := ih (fun m hm => hg m (by simp [hm])) (fun m hm => hs m (by simp [hm]))
          (fun m hm => hi m (by simp [hm])) (hv.sublist (setIntersection_sublist v2 (G n)))
          ((hm i).mpr ⟨hiv, hi n (by simp) h0⟩)
        refine ⟨v, e1, e2.trans (setIntersection_sublist _ _), e3, fun x => ?_⟩
        rw [e4, hm]
        simp only [List.mem_cons, forall_eq_or_imp]
        constructor
        · rintro ⟨⟨a, b⟩, c⟩; exact ⟨a, fun _ => b, c⟩
        · rintro ⟨a, b, c⟩; exact ⟨⟨a, b h0⟩, c⟩
      · rw [if_neg h0]
        obtain ⟨v, e1, e2, e3, e4⟩ := ih (fun m hm => hg m (by simp [hm])) (fun m hm => hs m (by simp [hm]))
          (fun m hm => hi m (by simp [hm])) hv hiv
        refine ⟨v, e1, e2, e3, fun x => ?_⟩
        rw [e4]
        simp only [List.mem_cons, forall_eq_or_imp]
        constructor
        · rintro ⟨a, c⟩; exact ⟨a, fun h => absurd h h0, c⟩
        · rintro ⟨a, -, c⟩; exact ⟨a, c⟩
    · rw [if_neg h1]
      refine ⟨v2, rfl, List.Sublist.refl _, hiv, fun x => ⟨fun hx => ⟨hx, fun m hm h0 => ?_⟩, fun h => h.1⟩⟩
      have : x = i := by
        match v2, h1, hx, hiv with
        | [y], _, hx, hiv => simp at hx hiv; rw [hx, hiv]
        | _ :: _ :: _, h1, _, _ => simp at h1
      rw [this]
      exact hi m hm h0

theorem candidatesOf_spec {grp : Int → M (List Int)} {G : Int → List Int} {i : Int} {nodes : List Int} (hn : ∀ n ∈ nodes, -1 ≤ n)
    (he : ∃ n ∈ nodes, 0 ≤ n) (hg : ∀ n ∈ nodes, 0 ≤ n → grp n = .ok (G n)) (hs : ∀ n ∈ nodes, 0 ≤ n → (G n).Pairwise (· ≤ ·))
    (hi : ∀ n ∈ nodes, 0 ≤ n → i ∈ G n) :
    ∃ v, candidatesOf grp nodes = .ok v ∧ (∃ n ∈ nodes, 0 ≤ n ∧ v.Sublist (G n)) ∧ i ∈ v ∧ ∀ x, x ∈ v ↔ ∀ n ∈ nodes, 0 ≤ n → x ∈ G n := by
  have hmem : ∀ n, 0 ≤ n → (n ∈ nodes ↔ n ∈ nodes.dropWhile (· = -1)) := by
    intro n h0
    conv_lhs => rw [← List.takeWhile_append_dropWhile (p := (· = -1)) (l := nodes)]
    rw [List.mem_append]
    constructor
    · rintro (h | h)
      · have := List.all_takeWhile (p := fun x : Int => decide (x = -1)) (l := nodes)
        rw [List.all_eq_true] at this
        have := this n h
        simp at this
        omega
      · exact h
    · exact Or.inr
  unfold candidatesOf
  cases hd : nodes.dropWhile (· = -1) with
  | nil =>
    obtain ⟨n, h1, h2⟩ := he
    rw [hmem n h2, hd] at h1
    simp at h1
  | cons n ns =>
    have hsub := List.dropWhile_sublist (fun x : Int => decide (x = -1)) (l := nodes)
    rw [hd] at hsub
    have hns : ∀ m ∈ ns, m ∈ nodes := fun m hm => hsub.subset (by simp [hm])
    have hnn : n ∈ nodes := hsub.subset (by simp)
    have hn1 : n ≠ -1 := by
      have := List.head_dropWhile_not (fun x : Int => decide (x = -1)) (l := nodes) (by rw [hd]; simp)
      simpa [hd] using this
    have hn0 : 0 ≤ n := by have := hn n hnn; omega
    simp only
    rw [hg n hnn hn0, ok_bind]
    obtain ⟨v, e1, e2, e3, e4⟩ := candLoop_spec (fun m hm => hg m (hns m hm)) (fun m hm => hs m (hns m hm))
      (fun m hm => hi m (hns m hm)) (hs n hnn hn0) (hi n hnn hn0)
    refine ⟨v, e1, ⟨n, hnn, hn0, e2⟩, e3, fun x => ?_⟩
    rw [e4]
    constructor
    · rintro ⟨a, b⟩ m hm h0
      rw [hmem m h0, hd, List.mem_cons] at hm
      rcases hm with rfl | hm
      · exact a
      · exact b m hm h0
    · intro h
      exact ⟨h n hnn hn0, fun m hm h0 => h m (hns m hm) h0⟩

/-! ## Groups of the reverse connectivity -/

theorem cellsOfNode_le (cells : List Cell) (n : Int) : (cellsOfNode cells n).Pairwise (· ≤ ·) ∧
    ∀ x : Int, x ∈ cellsOfNode cells n ↔ ∃ j c, x = ((j : Nat) : Int) ∧ cells[j]? = some c ∧ n ∈ c.nodes := by
  have key : ∀ (l : List Cell) (k : Nat),
      ((l.zipIdx k).flatMap fun p => List.replicate (p.1.nodes.count n) (p.2 : Int)).Pairwise (· ≤ ·) ∧
      ∀ x : Int, x ∈ ((l.zipIdx k).flatMap fun p => List.replicate (p.1.nodes.count n) (p.2 : Int)) ↔
        ∃ j c, x = ((k + j : Nat) : Int) ∧ l[j]? = some c ∧ n ∈ c.nodes := by
    intro l
    induction l with
    | nil => intro k; simp
    | cons c l ih =>
      intro k
      obtain ⟨i1, i2⟩ := ih (k + 1)
      rw [List.zipIdx_cons, List.flatMap_cons]
      constructor
      · rw [List.pairwise_append]
        refine ⟨?_, i1, ?_⟩
        · rw [List.pairwise_replicate]; right; exact le_refl _
        · intro a ha b hb
          have ha := List.eq_of_mem_replicate ha
          obtain ⟨j, c', e, -, -⟩ := (i2 b).mp hb
          simp only at ha
          omega
      · intro x
        rw [List.mem_append, i2 x]
        constructor
        · rintro (h | ⟨j, c', e, h1, h2⟩)
          · refine ⟨0, c, by simpa using List.eq_of_mem_replicate h, rfl, ?_⟩
            have : List.count n c.nodes ≠ 0 := by
              intro h0; simp [h0] at h
            exact List.count_pos_iff.mp (by omega)
          · exact ⟨j + 1, c', by omega, by simpa using h1, h2⟩
        · rintro ⟨j, c', e, h1, h2⟩
          cases j with
          | zero =>
            left
            simp only [List.length_cons, Nat.zero_lt_succ, getElem?_pos, List.getElem_cons_zero, Option.some.injEq] at h1
            subst h1
            rw [List.mem_replicate]
            have := List.count_pos_iff.mpr h2
            exact ⟨by simp only; omega, by simpa using e⟩
          | succ j => right; exact ⟨j, c', by omega, by simpa using h1, h2⟩
  have := key cells 0
  simpa [cellsOfNode] using this

theorem revGroup_ok {rev revI : List Int} {cells : List Cell} {nbNodes : Nat}
    (h : IsSky rev revI ((List.range nbNodes).map fun n : Nat => cellsOfNode cells n)) {n : Int} (h0 : 0 ≤ n) (h1 : n < nbNodes) :
    revGroup rev revI n = .ok (cellsOfNode cells n) := by
  lift n to Nat using h0
  obtain ⟨a1, a2, a3, a4⟩ := h.get (k := n) (by simp; omega)
  have hgn : ((List.range nbNodes).map fun n : Nat => cellsOfNode cells n)[n]'(by simp; omega) = cellsOfNode cells n := by simp
  rw [hgn] at a2 a3 a4
  unfold revGroup
  rw [rd_of_getElem? (by omega) (by rw [Int.toNat_natCast]; exact a1), ok_bind,
    rd_of_getElem? (by omega) (by rw [show ((n : Int) + 1).toNat = n + 1 by omega]; exact a2), ok_bind, if_pos ⟨by omega, by omega, a3⟩, a4]

/-! ## Equal cells among the candidates -/

/-- Cells `i` and `x` exist and are the same for the policy. -/
def InClass (p : Int) (cells : List Cell) (i : Nat) (x : Int) : Prop :=
  ∃ j c c', x = ((j : Nat) : Int) ∧ cells[i]? = some c ∧ cells[j]? = some c' ∧ SameCell p c c'

theorem InClass.refl {p : Int} {cells : List Cell} {i : Nat} (hi : i < cells.length) : InClass p cells i (i : Int) :=
  ⟨i, cells[i], cells[i], rfl, by simp [hi], by simp [hi], (C57_equivalence p).refl _⟩

theorem InClass.symm {p : Int} {cells : List Cell} {i j : Nat} (h : InClass p cells i (j : Int)) : InClass p cells j (i : Int) := by
  obtain ⟨k, c, c', e, h1, h2, h3⟩ := h
  have : j = k := by omega
  subst this
  exact ⟨i, c', c, rfl, h2, h1, (C57_equivalence p).symm h3⟩

theorem InClass.trans {p : Int} {cells : List Cell} {i j : Nat} {x : Int} (h : InClass p cells i (j : Int)) (h' : InClass p cells j x) :
    InClass p cells i x := by
  obtain ⟨k, c, c', e, h1, h2, h3⟩ := h
  obtain ⟨l, d, d', e', g1, g2, g3⟩ := h'
  have : j = k := by omega
  subst this
  rw [h2] at g1
  simp only [Option.some.injEq] at g1
  subst g1
  exact ⟨l, c, d', e', h1, g2, (C57_equivalence p).trans h3 g3⟩

theorem areCellsEqual_ok {conn connI : List Int} {cells : List Cell} (h : IsMesh conn connI cells) {p : Int} (hp : ∀ c ∈ cells, PolicyOk p c)
    {i : Nat} (hi : i < cells.length) {x : Int} (hx : ∃ j : Nat, x = j ∧ j < cells.length) [Decidable (InClass p cells i x)] :
    areCellsEqual p conn connI i x = .ok (if InClass p cells i x then 1 else 0) := by
  classical
  obtain ⟨j, rfl, hj⟩ := hx
  unfold areCellsEqual
  rw [rdCell_ok h hi, ok_bind, rdCell_ok h hj, ok_bind, C57_policies (hp _ (List.getElem_mem hi))]
  have : SameCell p cells[i] cells[j] ↔ InClass p cells i (j : Int) := by
    constructor
    · intro h'
      exact ⟨j, _, _, rfl, List.getElem?_eq_getElem hi, List.getElem?_eq_getElem hj, h'⟩
    · rintro ⟨k, c, c', e, h1, h2, h3⟩
      have : j = k := by omega
      subst this
      rw [List.getElem?_eq_getElem hi, Option.some.injEq] at h1
      rw [List.getElem?_eq_getElem hj, Option.some.injEq] at h2
      subst h1; subst h2
      exact h3
  by_cases hs : SameCell p cells[i] cells[j]
  · rw [if_pos hs, if_pos (this.mp hs)]
  · rw [if_neg hs, if_neg (fun h => hs (this.mpr h))]

open Classical in
theorem pool_spec {conn connI : List Int} {cells : List Cell} (h : IsMesh conn connI cells) {p : Int} (hp : ∀ c ∈ cells, PolicyOk p c)
    {i : Nat} (hi : i < cells.length) {l : List Int} (hl : ∀ x ∈ l, ∃ j : Nat, x = j ∧ j < cells.length) :
    areCellsEqualInPool p conn connI ((i : Int) :: l) =
      .ok (if l.filter (fun x => decide (InClass p cells i x)) = [] then [] else (i : Int) :: l.filter fun x => decide (InClass p cells i x)) := by
  unfold areCellsEqualInPool
  simp only
  induction l using List.reverseRecOn with
  | nil => rfl
  | append_singleton l x ih =>
    rw [List.foldlM_append, ih fun y hy => hl y (by simp [hy])]
    show poolStep p conn connI i _ x >>= (fun s => .ok s) = _
    unfold poolStep
    rw [areCellsEqual_ok h hp hi (hl x (by simp)), ok_bind, List.filter_append]
    by_cases hc : InClass p cells i x
    · rw [if_pos hc, if_pos (by decide)]
      have : [x].filter (fun x => decide (InClass p cells i x)) = [x] := by simp [hc]
      rw [this, if_neg (show ¬ l.filter (fun x => decide (InClass p cells i x)) ++ [x] = [] by simp)]
      by_cases he : l.filter (fun x => decide (InClass p cells i x)) = []
      · rw [if_pos he, he]; simp [ok_bind]
      · rw [if_neg he]; simp [ok_bind]
    · rw [if_neg hc, if_neg (by decide)]
      have : [x].filter (fun x => decide (InClass p cells i x)) = [] := by simp [hc]
      rw [this, List.append_nil]
      rfl

/-! ## The groups -/

/-- Specification of the groups of common cells: the cells from `start` on are compared to all the others. -/
structure CommonGroups (p : Int) (cells : List Cell) (start : Nat) (gs : List (List Int)) : Prop where
  /-- groups are sorted, strictly when no cell repeats a node -/
  sorted : ∀ g ∈ gs, g.Pairwise (· ≤ ·)
  strict : (∀ c ∈ cells, c.nodes.Nodup) → ∀ g ∈ gs, StrictSorted g
  size : ∀ g ∈ gs, 2 ≤ g.length
  /-- a group holds exactly the cells that are the same as one of the compared cells -/
  cls : ∀ g ∈ gs, ∃ i, start ≤ i ∧ i < cells.length ∧ ∀ x, x ∈ g ↔ InClass p cells i x
  disj : gs.Pairwise List.Disjoint
  /-- a compared cell which is the same as another cell is in a group -/
  complete : ∀ i j : Nat, start ≤ i → i ≠ j → InClass p cells i (j : Int) → ∃ g ∈ gs, (i : Int) ∈ g
  /-- when all the cells are compared the groups are in the order of their least cells -/
  ord : start = 0 → gs.Pairwise fun g g' => ∃ a ∈ g, ∀ b ∈ g', a < b

/-- Invariant of the main loop before cell `i`. -/
structure CommonInv (p : Int) (cells : List Cell) (start i : Nat) (s : Common) (gs : List (List Int)) : Prop where
  sky : IsSky s.cc s.ci gs
  flen : s.fetched.length = cells.length
  fet : ∀ j : Nat, s.fetched[j]? = some true ↔ ∃ g ∈ gs, (j : Int) ∈ g
  sorted : ∀ g ∈ gs, g.Pairwise (· ≤ ·)
  strict : (∀ c ∈ cells, c.nodes.Nodup) → ∀ g ∈ gs, StrictSorted g
  size : ∀ g ∈ gs, 2 ≤ g.length
  cls : ∀ g ∈ gs, ∃ i, start ≤ i ∧ i < cells.length ∧ ∀ x, x ∈ g ↔ InClass p cells i x
  disj : gs.Pairwise List.Disjoint
  complete : ∀ a b : Nat, start ≤ a → a < i → a ≠ b → InClass p cells a (b : Int) → ∃ g ∈ gs, (a : Int) ∈ g
  ordLt : start = 0 → ∀ g ∈ gs, ∃ a ∈ g, a < (i : Int)
  ord : start = 0 → gs.Pairwise fun g g' => ∃ a ∈ g, ∀ b ∈ g', a < b

theorem mark_all {g : List Int} {f : List Bool} (hg : ∀ x ∈ g, ∃ j : Nat, x = j ∧ j < f.length) :
    ∃ f', g.foldlM (fun f x => wr f x true) f = .ok f' ∧ f'.length = f.length ∧
      ∀ j : Nat, f'[j]? = some true ↔ f[j]? = some true ∨ (j : Int) ∈ g := by
  induction g generalizing f with
  | nil => exact ⟨f, rfl, rfl, by simp⟩
  | cons x g ih =>
    obtain ⟨k, rfl, hk⟩ := hg x (by simp)
    rw [List.foldlM_cons, wr_natCast hk, ok_bind]
    obtain ⟨f', e1, e2, e3⟩ := ih (f := f.set k true) (fun y hy => by simpa using hg y (by simp [hy]))
    refine ⟨f', e1, by simpa using e2, fun j => ?_⟩
    rw [e3, List.mem_cons]
    by_cases hjk : j = k
    · subst hjk; simp [hk]
    · rw [List.getElem?_set_ne (by omega)]
      have : ¬ ((j : Int) = (k : Int)) := by omega
      simp [this]

theorem addGroup_spec {p : Int} {cells : List Cell} {start i : Nat} {s : Common} {gs : List (List Int)} (hI : CommonInv p cells start i s gs)
    {g : List Int} (hs : g.Pairwise (· ≤ ·)) (hst : (∀ c ∈ cells, c.nodes.Nodup) → StrictSorted g) (hsz : 2 ≤ g.length)
    (hsi : start ≤ i) (hi : i < cells.length) (hc : ∀ x, x ∈ g ↔ InClass p cells i x)
    (hnf : s.fetched[i]? ≠ some true) :
    ∃ s', addGroup s g = .ok s' ∧ CommonInv p cells start (i + 1) s' (gs ++ [g]) := by
  have hidx := hI.sky.idx_length
  have hlast : rd s.ci ((s.ci.length : Int) - 1) = .ok (s.cc.length : Int) := by
    apply rd_of_getElem? (by omega)
    rw [hI.sky.1, hI.sky.2]
    rw [skyIdx_length]
    rw [show (((gs.length + 1 : Nat) : Int) - 1).toNat = gs.length by omega, skyIdx_getElem? _ (le_refl _), List.take_length]
  unfold addGroup
  rw [hlast, ok_bind]
  simp only
  have hsl : slice (s.cc ++ g) (s.cc.length : Int) ((s.cc ++ g).length : Int) = g := by
    unfold slice
    simp
  rw [hsl]
  have hin : ∀ x ∈ g, ∃ j : Nat, x = j ∧ j < s.fetched.length := by
    intro x hx
    obtain ⟨j, c, c', e, -, h2, -⟩ := (hc x).mp hx
    refine ⟨j, e, ?_⟩
    rw [hI.flen]
    by_contra hcon
    rw [List.getElem?_eq_none (by omega)] at h2
    simp at h2
  obtain ⟨f', e1, e2, e3⟩ := mark_all hin
  rw [e1, ok_bind]
  refine ⟨_, rfl, ⟨?_, by rw [e2, hI.flen], ?_, ?_, ?_, ?_, ?_, ?_, ?_, ?_, ?_⟩⟩
  · refine ⟨by simp [hI.sky.1], ?_⟩
    rw [skyIdx_snoc, ← hI.sky.2]
    rw [hI.sky.1]
    simp
  · intro j
    rw [e3, hI.fet]
    simp only [List.mem_append, List.mem_singleton]
    constructor
    · rintro (⟨g', h1, h2⟩ | h)
      · exact ⟨g', Or.inl h1, h2⟩
      · exact ⟨g, Or.inr rfl, h⟩
    · rintro ⟨g', h1 | rfl, h2⟩
      · exact Or.inl ⟨g', h1, h2⟩
      · exact Or.inr h2
  · intro g' hg'
    rcases List.mem_append.mp hg' with h | h
    · exact hI.sorted g' h
    · rw [List.mem_singleton] at h; rw [h]; exact hs
  · intro hnd g' hg'
    rcases List.mem_append.mp hg' with h | h
    · exact hI.strict hnd g' h
    · rw [List.mem_singleton] at h; rw [h]; exact hst hnd
  · intro g' hg'
    rcases List.mem_append.mp hg' with h | h
    · exact hI.size g' h
    · rw [List.mem_singleton] at h; rw [h]; exact hsz
  · intro g' hg'
    rcases List.mem_append.mp hg' with h | h
    · exact hI.cls g' h
    · rw [List.mem_singleton] at h; rw [h]; exact ⟨i, hsi, hi, hc⟩
  · rw [List.pairwise_append]
    refine ⟨hI.disj, List.pairwise_singleton _ _, ?_⟩
    intro g1 h1 g2 h2
    rw [List.mem_singleton] at h2
    subst h2
    intro x hx1 hx2
    obtain ⟨k, hk1, hk2, hk3⟩ := hI.cls g1 h1
    obtain ⟨j, c, c', e, -⟩ := (hc x).mp hx2
    subst e
    have hki : InClass p cells k (i : Int) := ((hk3 _).mp hx1).trans ((hc _).mp hx2).symm
    exact hnf ((hI.fet i).mpr ⟨g1, h1, (hk3 _).mpr hki⟩)
  · intro a b h1 h2 h3 h4
    by_cases hai : a = i
    · subst hai
      exact ⟨g, by simp, (hc _).mpr (InClass.refl hi)⟩
    · obtain ⟨g', hg', hg''⟩ := hI.complete a b h1 (by omega) h3 h4
      exact ⟨g', by simp [hg'], hg''⟩
  · intro h0 g' hg'
    rcases List.mem_append.mp hg' with h | h
    · obtain ⟨a, ha, hlt⟩ := hI.ordLt h0 g' h
      exact ⟨a, ha, by omega⟩
    · rw [List.mem_singleton] at h
      subst h
      exact ⟨(i : Int), (hc _).mpr (InClass.refl hi), by omega⟩
  · intro h0
    rw [List.pairwise_append]
    refine ⟨hI.ord h0, List.pairwise_singleton _ _, ?_⟩
    intro g1 h1 g2 h2
    rw [List.mem_singleton] at h2
    subst h2
    obtain ⟨a, ha, hlt⟩ := hI.ordLt h0 g1 h1
    refine ⟨a, ha, fun b hb => ?_⟩
    obtain ⟨j, c, c', e, -⟩ := (hc b).mp hb
    subst e
    by_contra hcon
    have hji : InClass p cells j (i : Int) := ((hc _).mp hb).symm
    obtain ⟨g3, hg3, hj3⟩ := hI.complete j i (by omega) (by omega) (by omega) hji
    obtain ⟨k, hk1, hk2, hk3⟩ := hI.cls g3 hg3
    exact hnf ((hI.fet i).mpr ⟨g3, hg3, (hk3 _).mpr (((hk3 _).mp hj3).trans hji)⟩)

/-- Nothing to add: the cell is already in a group, or is the same as no other cell. -/
theorem CommonInv.next {p : Int} {cells : List Cell} {start i : Nat} {s : Common} {gs : List (List Int)} (hI : CommonInv p cells start i s gs)
    (h : ∀ b : Nat, i ≠ b → InClass p cells i (b : Int) → ∃ g ∈ gs, (i : Int) ∈ g) : CommonInv p cells start (i + 1) s gs := by
  refine { hI with complete := ?_, ordLt := fun h0 g hg => ?_ }
  swap
  · obtain ⟨a, ha, hlt⟩ := hI.ordLt h0 g hg
    exact ⟨a, ha, by omega⟩
  intro a b h1 h2 h3 h4
  by_cases hai : a = i
  · subst hai; exact h b h3 h4
  · exact hI.complete a b h1 (by omega) h3 h4

/-- The nodes of the cells: existing nodes, or separators; at least one node per cell. -/
def GoodNodes (nbNodes : Nat) (c : Cell) : Prop := (∀ n ∈ c.nodes, -1 ≤ n ∧ n < nbNodes) ∧ ∃ n ∈ c.nodes, 0 ≤ n

theorem toFront_spec {v : List Int} {i : Int} (hi : i ∈ v) : ∃ t, toFront v i = .ok (i :: t) ∧ (i :: t).Perm v := by
  cases v with
  | nil => simp at hi
  | cons x v =>
    unfold toFront
    rw [show rd (x :: v) 0 = .ok x from rfl, ok_bind]
    by_cases hx : x = i
    · subst hx
      rw [if_neg (by simp)]
      exact ⟨v, rfl, List.Perm.refl _⟩
    · rw [if_pos hx, if_pos hi]
      have hiv : i ∈ v := by
        rcases List.mem_cons.mp hi with e | e
        · exact absurd e.symm hx
        · exact e
      have hidx : (x :: v).idxOf i = v.idxOf i + 1 := by
        rw [List.idxOf_cons_ne _ hx]
      rw [hidx]
      simp only [List.set_cons_zero, List.set_cons_succ]
      refine ⟨_, rfl, ?_⟩
      have hlt : v.idxOf i < v.length := List.idxOf_lt_length_iff.mpr hiv
      have hsplit : v = v.take (v.idxOf i) ++ i :: v.drop (v.idxOf i + 1) := by
        have := List.take_append_drop (v.idxOf i) v
        rw [List.drop_eq_getElem_cons hlt, List.getElem_idxOf hlt] at this
        exact this.symm
      rw [List.set_eq_take_append_cons_drop, if_pos hlt]
      conv_rhs => rw [hsplit]
      refine List.Perm.trans (List.Perm.cons i List.perm_middle) ?_
      refine List.Perm.trans (List.Perm.swap x i _) ?_
      exact List.Perm.cons x List.perm_middle.symm

/-- The facts on the data of the search. -/
structure SearchData (p : Int) (nbNodes : Nat) (conn connI rev revI : List Int) (cells : List Cell) : Prop where
  mesh : IsMesh conn connI cells
  sky : IsSky rev revI ((List.range nbNodes).map fun n : Nat => cellsOfNode cells n)
  pol : ∀ c ∈ cells, PolicyOk p c
  nodes : ∀ c ∈ cells, GoodNodes nbNodes c

theorem functorNodes_ok {p : Int} {c : Cell} (h : PolicyOk p c) : functorNodes p c = .ok c.nodes := by
  unfold functorNodes
  rw [if_neg]
  rcases h.1 with rfl | rfl | rfl | rfl <;> decide

theorem inClass_nodes {p : Int} {cells : List Cell} {i : Nat} {x : Int} (hp : p = 0 ∨ p = 1 ∨ p = 2 ∨ p = 3) (hi : i < cells.length)
    (h : InClass p cells i x) {n : Int} (hn : n ∈ cells[i].nodes) : x ∈ cellsOfNode cells n := by
  obtain ⟨j, c, c', e, h1, h2, h3⟩ := h
  rw [List.getElem?_eq_getElem hi, Option.some.injEq] at h1
  subst h1
  rw [(cellsOfNode_le cells n).2]
  exact ⟨j, c', e, h2, (h3.nodes hp n).mp hn⟩

theorem mem_cells_lt {cells : List Cell} {n x : Int} (h : x ∈ cellsOfNode cells n) : ∃ j : Nat, x = j ∧ j < cells.length := by
  obtain ⟨j, c, e, h1, -⟩ := ((cellsOfNode_le cells n).2 x).mp h
  exact ⟨j, e, (List.getElem?_eq_some_iff.mp h1).1⟩

open Classical in
theorem commonStep0_spec {p : Int} {nbNodes : Nat} {conn connI rev revI : List Int} {cells : List Cell}
    (hd : SearchData p nbNodes conn connI rev revI cells) {i : Nat} (hi : i < cells.length) {s : Common} {gs : List (List Int)}
    (hI : CommonInv p cells 0 i s gs) :
    ∃ s' gs', commonStep0 p conn connI rev revI i s = .ok s' ∧ CommonInv p cells 0 (i + 1) s' gs' := by
  have hfi : i < s.fetched.length := by rw [hI.flen]; exact hi
  have hmi := List.getElem_mem hi
  unfold commonStep0
  rw [rd_natCast hfi, ok_bind]
  by_cases hf : s.fetched[i] = true
  · rw [hf]
    refine ⟨s, gs, rfl, hI.next fun b _ _ => ?_⟩
    exact (hI.fet i).mp (by rw [List.getElem?_eq_getElem hfi, hf])
  · rw [if_neg hf, rdCell_ok hd.mesh hi, ok_bind, functorNodes_ok (hd.pol _ hmi), ok_bind]
    have hnf : s.fetched[i]? ≠ some true := by rw [List.getElem?_eq_getElem hfi]; simpa using hf
    have hgn := hd.nodes _ hmi
    have hin : ∀ n ∈ cells[i].nodes, (i : Int) ∈ cellsOfNode cells n := fun n hn => by
      rw [(cellsOfNode_le cells n).2]; exact ⟨i, _, rfl, List.getElem?_eq_getElem hi, hn⟩
    obtain ⟨v, e1, ⟨n0, hn0, hn0', e2⟩, e3, e4⟩ := candidatesOf_spec (i := (i : Int)) (nodes := cells[i].nodes)
      (grp := fun n => do let g ← revGroup rev revI n; .ok (g.dropWhile (· ≠ (i : Int))))
      (G := fun n => (cellsOfNode cells n).dropWhile (· ≠ (i : Int)))
      (fun n hn => (hgn.1 n hn).1) hgn.2
      (fun n hn h0 => by
        show (revGroup rev revI n >>= _) = _
        rw [revGroup_ok hd.sky h0 (hgn.1 n hn).2]; rfl)
      (fun n hn h0 => (cellsOfNode_le cells n).1.sublist (List.dropWhile_sublist _))
      (fun n hn h0 => by rw [dropWhile_ne_spec (cellsOfNode_le cells n).1 (hin n hn)]; exact ⟨hin n hn, le_refl _⟩)
    rw [e1, ok_bind]
    have e2' : v.Sublist (cellsOfNode cells n0) := e2.trans (List.dropWhile_sublist _)
    have hvs : v.Pairwise (· ≤ ·) := (cellsOfNode_le cells n0).1.sublist e2'
    have hvi : ∀ x ∈ v, (i : Int) ≤ x := fun x hx =>
      ((dropWhile_ne_spec (cellsOfNode_le cells n0).1 (hin n0 hn0) x).mp (e2.subset hx)).2
    -- candidates hold the whole class
    have hcls : ∀ x, InClass p cells i x → x ∈ v := by
      intro x hx
      have hx' := hx
      obtain ⟨j, c, c', e, -⟩ := hx'
      subst e
      have hij : i ≤ j := by
        by_contra hlt
        obtain ⟨g, hg, hjg⟩ := hI.complete j i (by omega) (by omega) (by omega) hx.symm
        obtain ⟨k, -, -, hk⟩ := hI.cls g hg
        exact hnf ((hI.fet i).mpr ⟨g, hg, (hk _).mpr (((hk _).mp hjg).trans hx.symm)⟩)
      rw [e4]
      intro n hn h0
      rw [dropWhile_ne_spec (cellsOfNode_le cells n).1 (hin n hn)]
      exact ⟨inClass_nodes (hd.pol _ hmi).1 hi hx hn, by omega⟩
    obtain ⟨t, rfl⟩ : ∃ t, v = (i : Int) :: t := by
      cases v with
      | nil => simp at e3
      | cons y t =>
        have h1 := hvi y (by simp)
        rw [List.pairwise_cons] at hvs
        rcases List.mem_cons.mp e3 with e | e
        · exact ⟨t, by rw [e]⟩
        · have := hvs.1 _ e
          exact ⟨t, by rw [show y = (i : Int) by omega]⟩
    have hself := InClass.refl (p := p) hi
    have nothing : t.filter (fun x => decide (InClass p cells i x)) = [] → CommonInv p cells 0 (i + 1) s gs := by
      intro he
      refine hI.next fun b hb hc => ?_
      have := hcls _ hc
      rcases List.mem_cons.mp this with e | e
      · omega
      · have : (b : Int) ∈ t.filter (fun x => decide (InClass p cells i x)) := by simp [e, hc]
        rw [he] at this
        simp at this
    by_cases hl : ((i : Int) :: t).length > 1
    · rw [if_pos hl, pool_spec hd.mesh hd.pol hi fun x hx => mem_cells_lt (e2'.subset (List.mem_cons_of_mem _ hx)), ok_bind]
      by_cases he : t.filter (fun x => decide (InClass p cells i x)) = []
      · rw [if_pos he, if_neg (by simp)]
        exact ⟨s, gs, rfl, nothing he⟩
      · rw [if_neg he, if_pos (by simp)]
        have hsubl : ((i : Int) :: t.filter (fun x => decide (InClass p cells i x))).Sublist ((i : Int) :: t) :=
          List.Sublist.cons_cons _ List.filter_sublist
        have hgc : ∀ x, x ∈ (i : Int) :: t.filter (fun x => decide (InClass p cells i x)) ↔ InClass p cells i x := by
          intro x
          rw [List.mem_cons, List.mem_filter]
          constructor
          · rintro (rfl | ⟨-, h⟩)
            · exact hself
            · simpa using h
          · intro hx
            rcases List.mem_cons.mp (hcls x hx) with e | e
            · exact Or.inl e
            · exact Or.inr ⟨e, by simpa using hx⟩
        obtain ⟨s', h1, h2⟩ := addGroup_spec hI (g := (i : Int) :: t.filter (fun x => decide (InClass p cells i x)))
          (hvs.sublist hsubl)
          (fun hnd => (C53_reverse_nodup hnd n0).1.sublist (hsubl.trans e2'))
          (by have := List.length_pos_of_ne_nil he; simp only [List.length_cons]; omega)
          (by omega) hi hgc hnf
        exact ⟨s', _, h1, h2⟩
    · rw [if_neg hl]
      refine ⟨s, gs, rfl, nothing ?_⟩
      cases t with
      | nil => rfl
      | cons y t => simp at hl

open Classical in
theorem commonStep_spec {p : Int} {nbNodes : Nat} {conn connI rev revI : List Int} {cells : List Cell}
    (hd : SearchData p nbNodes conn connI rev revI cells) {start i : Nat} (hsi : start ≤ i) (hi : i < cells.length) {s : Common}
    {gs : List (List Int)} (hI : CommonInv p cells start i s gs) :
    ∃ s' gs', commonStep p conn connI rev revI i s = .ok s' ∧ CommonInv p cells start (i + 1) s' gs' := by
  have hfi : i < s.fetched.length := by rw [hI.flen]; exact hi
  have hmi := List.getElem_mem hi
  unfold commonStep
  rw [rd_natCast hfi, ok_bind]
  by_cases hf : s.fetched[i] = true
  · rw [hf]
    refine ⟨s, gs, rfl, hI.next fun b _ _ => ?_⟩
    exact (hI.fet i).mp (by rw [List.getElem?_eq_getElem hfi, hf])
  · rw [if_neg hf, rdCell_ok hd.mesh hi, ok_bind, functorNodes_ok (hd.pol _ hmi), ok_bind]
    have hnf : s.fetched[i]? ≠ some true := by rw [List.getElem?_eq_getElem hfi]; simpa using hf
    have hgn := hd.nodes _ hmi
    have hin : ∀ n ∈ cells[i].nodes, (i : Int) ∈ cellsOfNode cells n := fun n hn => by
      rw [(cellsOfNode_le cells n).2]; exact ⟨i, _, rfl, List.getElem?_eq_getElem hi, hn⟩
    obtain ⟨v, e1, ⟨n0, hn0, hn0', e2⟩, e3, e4⟩ := candidatesOf_spec (i := (i : Int)) (nodes := cells[i].nodes)
      (grp := revGroup rev revI) (G := fun n => cellsOfNode cells n)
      (fun n hn => (hgn.1 n hn).1) hgn.2
      (fun n hn h0 => revGroup_ok hd.sky h0 (hgn.1 n hn).2)
      (fun n hn h0 => (cellsOfNode_le cells n).1)
      (fun n hn h0 => hin n hn)
    rw [e1, ok_bind]
    have hcls : ∀ x, InClass p cells i x → x ∈ v := by
      intro x hx
      rw [e4]
      intro n hn h0
      exact inClass_nodes (hd.pol _ hmi).1 hi hx hn
    have hself := InClass.refl (p := p) hi
    by_cases hl : v.length > 1
    · obtain ⟨t, ht, hperm⟩ := toFront_spec e3
      have hcls' : ∀ x, InClass p cells i x → x ∈ (i : Int) :: t := fun x hx => hperm.mem_iff.mpr (hcls x hx)
      rw [if_pos hl, ht, ok_bind,
        pool_spec hd.mesh hd.pol hi fun x hx => mem_cells_lt (e2.subset (hperm.mem_iff.mp (List.mem_cons_of_mem _ hx))), ok_bind]
      by_cases he : t.filter (fun x => decide (InClass p cells i x)) = []
      · rw [if_pos he, if_neg (by simp)]
        refine ⟨s, gs, rfl, hI.next fun b hb hc => ?_⟩
        rcases List.mem_cons.mp (hcls' _ hc) with e | e
        · omega
        · have : (b : Int) ∈ t.filter (fun x => decide (InClass p cells i x)) := by simp [e, hc]
          rw [he] at this
          simp at this
      · rw [if_neg he, if_pos (by simp)]
        have hsubl : ((i : Int) :: t.filter (fun x => decide (InClass p cells i x))).Sublist ((i : Int) :: t) :=
          List.Sublist.cons_cons _ List.filter_sublist
        have hgc : ∀ x, x ∈ stdSort ((i : Int) :: t.filter (fun x => decide (InClass p cells i x))) ↔ InClass p cells i x := by
          intro x
          rw [mem_stdSort, List.mem_cons, List.mem_filter]
          constructor
          · rintro (rfl | ⟨-, h⟩)
            · exact hself
            · simpa using h
          · intro hx
            rcases List.mem_cons.mp (hcls' x hx) with e | e
            · exact Or.inl e
            · exact Or.inr ⟨e, by simpa using hx⟩
        obtain ⟨s', h1, h2⟩ := addGroup_spec hI (g := stdSort ((i : Int) :: t.filter (fun x => decide (InClass p cells i x))))
          (stdSort_sorted _)
          (fun hnd => by
            have hnd1 : v.Nodup := ((C53_reverse_nodup hnd n0).1.sublist e2).nodup
            have hnd2 : (stdSort ((i : Int) :: t.filter (fun x => decide (InClass p cells i x)))).Nodup :=
              (stdSort_perm _).nodup_iff.mpr ((hperm.nodup_iff.mpr hnd1).sublist hsubl)
            exact ((stdSort_sorted _).and hnd2).imp fun ⟨h1, h2⟩ => lt_of_le_of_ne h1 h2)
          (by have := List.length_pos_of_ne_nil he; rw [stdSort_length]; simp only [List.length_cons]; omega)
          hsi hi hgc hnf
        exact ⟨s', _, h1, h2⟩
    · rw [if_neg hl]
      refine ⟨s, gs, rfl, hI.next fun b hb hc => ?_⟩
      have h1 := hcls _ hc
      match v, hl, h1, e3 with
      | [y], _, h1, e3 => simp at h1 e3; omega
      | _ :: _ :: _, hl, _, _ => simp at hl

/-- The search on the data prepared by its callers. -/
theorem findCommonCellsAlg_spec {p : Int} {nbNodes : Nat} {conn connI rev revI : List Int} {cells : List Cell}
    (hd : SearchData p nbNodes conn connI rev revI cells) (start : Nat) :
    ∃ cc ci gs, findCommonCellsAlg p start conn connI rev revI = .ok (cc, ci) ∧ IsSky cc ci gs ∧ CommonGroups p cells start gs := by
  have hl := hd.mesh.length
  have main : wp (findCommonCellsAlg p start conn connI rev revI) (fun r => ∃ gs, IsSky r.1 r.2 gs ∧ CommonGroups p cells start gs) False := by
    unfold findCommonCellsAlg
    simp only
    rw [if_neg (by omega), wp_bind]
    refine wp_mono (wp_loop (E := False) (fun k (s : Common) => ∃ gs, CommonInv p cells start (start + k) s gs) ?_ ?_) ?_ id
    · refine ⟨[], ⟨⟨rfl, rfl⟩, by simp [hl], ?_, by simp, by simp, by simp, by simp, List.Pairwise.nil, ?_, by simp, fun _ => List.Pairwise.nil⟩⟩
      · intro j
        simp only [List.not_mem_nil, false_and, exists_false, iff_false]
        intro hj
        have := List.mem_of_getElem? hj
        rw [List.mem_replicate] at this
        simp at this
      · intro a b h1 h2 _ _; omega
    · rintro k hk s ⟨gs, hI⟩
      have hki : start + k < cells.length := by omega
      by_cases hs0 : (start : Int) = 0
      · have hs0' : start = 0 := by omega
        rw [if_pos hs0]
        subst hs0'
        obtain ⟨s', gs', a1, a2⟩ := commonStep0_spec hd hki hI
        rw [show (((0 : Nat) : Int) + (k : Int)) = ((0 + k : Nat) : Int) by omega, a1]
        exact ⟨gs', a2⟩
      · rw [if_neg hs0]
        obtain ⟨s', gs', a1, a2⟩ := commonStep_spec hd (Nat.le_add_right start k) hki hI
        rw [show ((start : Int) + (k : Int)) = ((start + k : Nat) : Int) by omega, a1]
        exact ⟨gs', a2⟩
    · rintro s ⟨gs, hI⟩
      refine ⟨gs, hI.sky, hI.sorted, hI.strict, hI.size, hI.cls, hI.disj, ?_, hI.ord⟩
      intro i j h1 h2 h3
      have hi : i < cells.length := by
        obtain ⟨_, c, _, _, h4, _⟩ := h3
        exact (List.getElem?_eq_some_iff.mp h4).1
      exact hI.complete i j h1 (by omega) h2 h3
  obtain ⟨⟨cc, ci⟩, a1, gs, a2, a3⟩ := wp_exists main
  exact ⟨cc, ci, gs, a1, a2, a3⟩

/-- C58: for the policies 0 to 3, `findCommonCells(compType, start)` returns the classes of the cells `≥ start` which are the same as
another cell: each class once, sorted, complete; no other group. -/
theorem C58_findCommonCells {conn connI : List Int} {cells : List Cell} (h : IsMesh conn connI cells) {p : Int} {nbNodes : Nat} {dim : Int}
    (hdim : dim ≠ -2) (hp : ∀ c ∈ cells, PolicyOk p c) (hp' : p = 0 ∨ p = 1 ∨ p = 2 ∨ p = 3)
    (hn : ∀ c ∈ cells, GoodNodes nbNodes c) (start : Nat) :
    ∃ cc ci gs, findCommonCells dim nbNodes p start conn connI = .ok (cc, ci) ∧ IsSky cc ci gs ∧ CommonGroups p cells start gs := by
  obtain ⟨rev, revI, e1, e2⟩ := C53_reverse h (nbNodes := nbNodes) fun c hc n hnn => ((hn c hc).1 n hnn).2
  obtain ⟨cc, ci, gs, a1, a2, a3⟩ := findCommonCellsAlg_spec ⟨h, e2, hp, hn⟩ start
  refine ⟨cc, ci, gs, ?_, a2, a3⟩
  unfold findCommonCells
  rw [e1, ok_bind, if_neg hdim, if_neg (by rcases hp' with rfl | rfl | rfl | rfl <;> simp)]
  exact a1

example : (∀ c ∈ ([⟨3, [0, 1, 2]⟩, ⟨3, [2, 3, 4]⟩, ⟨3, [1, 2, 0]⟩] : List Cell), GoodNodes 5 c) ∧
    IsMesh [3, 0, 1, 2, 3, 2, 3, 4, 3, 1, 2, 0] [0, 4, 8, 12] [⟨3, [0, 1, 2]⟩, ⟨3, [2, 3, 4]⟩, ⟨3, [1, 2, 0]⟩] ∧
    findCommonCells 2 5 1 0 [3, 0, 1, 2, 3, 2, 3, 4, 3, 1, 2, 0] [0, 4, 8, 12] = .ok ([0, 2], [0, 2]) ∧
    findCommonCells 2 5 1 2 [3, 0, 1, 2, 3, 2, 3, 4, 3, 1, 2, 0] [0, 4, 8, 12] = .ok ([0, 2], [0, 2]) ∧
    findCommonCells 2 5 0 0 [3, 0, 1, 2, 3, 2, 3, 4, 3, 1, 2, 0] [0, 4, 8, 12] = .ok ([], [0]) := by
  refine ⟨by unfold GoodNodes; decide, by decide, by decide, by decide, by decide⟩

/-- C58: an oriented comparison of two cells of dimension 3 which share their nodes stops the search. -/
theorem C58_policy1_3D : findCommonCells 3 4 1 0 [14, 0, 1, 2, 3, 14, 0, 1, 2, 3] [0, 5, 10] = .error .exn := by decide

/-- C58, finding: a cell which uses each of its nodes several times (any closed polyhedron) is reported as equal to itself, though
it has no duplicate. -/
theorem C58_lone_polyhedron :
    findCommonCells 3 4 2 0 [31, 0, 1, 2, -1, 0, 1, 3, -1, 1, 2, 3, -1, 0, 2, 3] [0, 16] = .ok ([0, 0, 0], [0, 3]) := by decide

/-- C58, finding: policy 7 stores `id + 1` for a cell found with the other orientation: the cell reported as equal to cell 0 is
cell 2, though it is cell 1; and with two cells only, the search writes outside of its array of flags. -/
theorem C58_policy7_wrong_id :
    findCommonCells 1 4 7 0 [1, 0, 1, 1, 1, 0, 1, 2, 3] [0, 3, 6, 9] = .ok ([0, 2], [0, 2]) ∧
    findCommonCells 1 2 7 0 [1, 0, 1, 1, 1, 0] [0, 3, 6] = .error .ub := by decide

end
end MC
