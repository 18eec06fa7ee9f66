import Verif.StructConnProps

/-!
# Structured grids: reverse connectivity and faces (C44, C45) – proofs
-/

namespace MC

/-! ## Reverse connectivity -/

/-- The state after the groups `gs` have been written. -/
def mkRev (gs : List (List Int)) (nrev nidx : Nat) : RevSt :=
  { rev := (filled gs.flatten nrev).1, rn := gs.flatten.length, idx := (filled (skyIdx gs) nidx).1, rni := gs.length }

theorem revStart_eq {nrev nidx : Int} (h : 1 ≤ nidx) : revStart nrev nidx = .ok (mkRev [] nrev.toNat nidx.toNat) := by
  unfold revStart
  have : wr (mallocN Int nidx.toNat) 0 (some 0) = .ok (filled (skyIdx ([] : List (List Int))) nidx.toNat).1 := by
    have := writeAt_filled (n := nidx.toNat) [(0 : Int)] [] (by simp; omega)
    simp only [writeAt, List.length_nil, filled, mallocN] at this ⊢
    cases hw : wr (List.replicate nidx.toNat (none : Option Int)) 0 (some 0) with
    | error e =>
      simp only [List.map_nil, List.nil_append, Nat.sub_zero, Int.natCast_zero] at this
      rw [hw] at this
      cases this
    | ok b =>
      simp only [List.map_nil, List.nil_append, Nat.sub_zero, Int.natCast_zero] at this
      rw [hw] at this
      exact this
  rw [this, ok_bind]
  simp [mkRev, filled, mallocN]

theorem revPush_eq {gs : List (List Int)} {nrev nidx : Nat} (cells : List Int) (h1 : gs.flatten.length + cells.length ≤ nrev)
    (h2 : gs.length + 1 < nidx) : revPush (mkRev gs nrev nidx) cells = .ok (mkRev (gs ++ [cells]) nrev nidx) := by
  unfold revPush
  have e1 := writeAt_filled (n := nrev) cells gs.flatten h1
  have hl := skyIdx_length gs
  have hlast : (skyIdx gs)[gs.length]? = some (gs.flatten.length : Int) := by
    rw [skyIdx_getElem? gs (Nat.le_refl _), List.take_length]
  have e2 : rdI (mkRev gs nrev nidx).idx (mkRev gs nrev nidx).rni = .ok (gs.flatten.length : Int) := by
    apply rdI_ok (by simp [mkRev])
    simp only [mkRev, filled, Int.toNat_natCast]
    rw [List.getElem?_append_left (by simp [hl]), List.getElem?_map, hlast]
    rfl
  have e3 := writeAt_filled (n := nidx) [((gs.flatten.length : Int) + (cells.length : Int))] (skyIdx gs) (by simp [hl]; omega)
  have e3' : wr (mkRev gs nrev nidx).idx ((mkRev gs nrev nidx).rni + 1) (some ((gs.flatten.length : Int) + (cells.length : Int))) =
      .ok (filled (skyIdx gs ++ [((gs.flatten.length : Int) + (cells.length : Int))]) nidx).1 := by
    simp only [writeAt] at e3
    have : ((skyIdx gs).length : Int) = (mkRev gs nrev nidx).rni + 1 := by simp [mkRev, hl]
    rw [this] at e3
    cases hw : wr (filled (skyIdx gs) nidx).1 ((mkRev gs nrev nidx).rni + 1) (some ((gs.flatten.length : Int) + (cells.length : Int))) with
    | error e => rw [hw] at e3; cases e3
    | ok b => rw [hw] at e3; exact hw.trans e3
  have e1' : writeAt (mkRev gs nrev nidx).rev (mkRev gs nrev nidx).rn cells = .ok (filled (gs.flatten ++ cells) nrev).1 := e1
  rw [e1', ok_bind, e2, ok_bind, e3', ok_bind]
  simp only [mkRev, skyIdx_snoc, List.flatten_append, List.flatten_cons, List.flatten_nil, List.append_nil, List.length_append, List.length_cons,
    List.length_nil]
  congr 2

theorem loop_revPush {nrev nidx : Nat} (body : Nat → List Int) : ∀ (k : Nat) (gs : List (List Int)),
    (gs ++ (List.range k).map body).flatten.length ≤ nrev → gs.length + k < nidx →
    loop k (mkRev gs nrev nidx) (fun i s => revPush s (body i)) = .ok (mkRev (gs ++ (List.range k).map body) nrev nidx)
  | 0, gs, _, _ => by simp [loop]
  | k + 1, gs, h1, h2 => by
    rw [List.range_succ, List.map_append, ← List.append_assoc] at h1
    have h1' : (gs ++ (List.range k).map body).flatten.length + (body k).length ≤ nrev := by
      simpa [List.flatten_append, Nat.add_assoc] using h1
    rw [loop_succ, loop_revPush body k gs (by omega) (by omega), ok_bind, revPush_eq _ h1' (by simp; omega)]
    rw [List.range_succ, List.map_append, ← List.append_assoc]
    rfl

theorem foldlM_revPush {nrev nidx : Nat} (body : List Int → List Int) : ∀ (l : List (List Int)) (gs : List (List Int)),
    (gs ++ l.map body).flatten.length ≤ nrev → gs.length + l.length < nidx →
    l.foldlM (m := Except Err) (fun s p => revPush s (body p)) (mkRev gs nrev nidx) = .ok (mkRev (gs ++ l.map body) nrev nidx)
  | [], gs, _, _ => by
    rw [List.map_nil, List.append_nil]; rfl
  | x :: l, gs, h1, h2 => by
    simp only [List.length_cons] at h2
    have e : gs ++ (x :: l).map body = (gs ++ [body x]) ++ l.map body := by simp
    rw [e] at h1 ⊢
    have h1' : gs.flatten.length + (body x).length ≤ nrev := by
      simp only [List.flatten_append, List.length_append, List.flatten_cons, List.flatten_nil, List.append_nil] at h1
      omega
    rw [List.foldlM_cons, revPush_eq _ h1' (by omega)]
    exact foldlM_revPush body l _ h1 (by simp; omega)

/-- The cells around a node position: on each axis the cell before and the cell after, if any. -/
def aroundPart (ngs p : List Int) : List (Int × Int) := List.zipWith (fun x n => (max 0 (x - 1), min (x + 1) (n - 1))) p ngs

/-- The cells around a node. -/
def around (ngs p : List Int) : List Int := boxIds (cellGridStructure ngs) (aroundPart ngs p)

theorem aroundPart_in {ngs p : List Int} (h2 : ∀ n ∈ ngs, 2 ≤ n) (hp : InGrid ngs p) : BoxIn (cellGridStructure ngs) (aroundPart ngs p) := by
  induction hp with
  | nil => exact .nil
  | cons h hs ih =>
    rename_i x n p ngs
    have := h2 n (by simp)
    show BoxIn ((n + -1) :: cellGridStructure ngs) ((max 0 (x - 1), min (x + 1) (n - 1)) :: aroundPart ngs p)
    exact .cons (by simp only; omega) (ih fun n hn => h2 n (by simp [hn]))

theorem inBox_around {ngs p : List Int} (hp : InGrid ngs p) (q : List Int) :
    InBox (aroundPart ngs p) q ↔ InGrid (cellGridStructure ngs) q ∧ IsCorner q p := by
  induction hp generalizing q with
  | nil =>
    constructor
    · intro h; cases h; exact ⟨.nil, .nil⟩
    · rintro ⟨_, h⟩; cases h; exact .nil
  | cons h hs ih =>
    rename_i x n p ngs
    show InBox ((max 0 (x - 1), min (x + 1) (n - 1)) :: aroundPart ngs p) q ↔ InGrid ((n + -1) :: cellGridStructure ngs) q ∧ IsCorner q (x :: p)
    constructor
    · intro hq
      cases hq with
      | cons hx hs =>
        obtain ⟨a, b⟩ := (ih _).mp hs
        simp only at hx
        exact ⟨.cons (by omega) a, .cons (by omega) b⟩
    · rintro ⟨a, b⟩
      cases b with
      | cons hb bs => cases a with
        | cons ha as => exact .cons (by simp only; omega) ((ih _).mpr ⟨as, bs⟩)

/-- The cells before and after on one axis. -/
def ax (i n : Int) : List Int := (if i ≥ 1 then [i - 1] else []) ++ (if i < n - 1 then [i] else [])

theorem ax_eq {i n : Int} (h0 : 0 ≤ i) (h1 : i < n) (h2 : 2 ≤ n) :
    (List.range (min (i + 1) (n - 1) - max 0 (i - 1)).toNat).map (fun k : Nat => max 0 (i - 1) + (k : Int)) = ax i n := by
  unfold ax
  by_cases a : i ≥ 1
  · by_cases b : i < n - 1
    · rw [if_pos a, if_pos b, show (min (i + 1) (n - 1) - max 0 (i - 1)).toNat = 2 by omega, show max 0 (i - 1) = i - 1 by omega]
      simp [List.range_succ_eq_map]
    · rw [if_pos a, if_neg b, show (min (i + 1) (n - 1) - max 0 (i - 1)).toNat = 1 by omega, show max 0 (i - 1) = i - 1 by omega]
      simp
  · rw [if_neg a, if_pos (by omega), show (min (i + 1) (n - 1) - max 0 (i - 1)).toNat = 1 by omega, show max 0 (i - 1) = i by omega]
    simp

theorem around_cons {n i : Int} {ngs p : List Int} (h0 : 0 ≤ i) (h1 : i < n) (h2 : 2 ≤ n) :
    around (n :: ngs) (i :: p) = (around ngs p).flatMap fun x => (ax i n).map fun y => y + (n - 1) * x := by
  unfold around
  simp only [cellGridStructure, List.map_cons, aroundPart, List.zipWith_cons_cons]
  rw [boxIds_cons]
  congr 1
  funext x
  rw [← ax_eq h0 h1 h2, List.map_map]
  apply List.map_congr_left
  intro k _
  simp only [Function.comp]
  congr 1

theorem around_nil : around [] [] = [0] := by
  simp [around, cellGridStructure, aroundPart, boxIds, boxDims, boxPos, partOffset]

theorem ax_sum {n : Int} (h2 : 2 ≤ n) : ((List.range n.toNat).map fun i : Nat => ((ax i n).length : Int)).sum = 2 * (n - 1) := by
  obtain ⟨m, hm⟩ : ∃ m : Nat, n.toNat = m + 2 := ⟨n.toNat - 2, by omega⟩
  have key : ∀ k : Nat, k ≤ m + 1 → ((List.range k).map fun i : Nat => ((ax i n).length : Int)).sum = if k = 0 then 0 else 2 * (k : Int) - 1 := by
    intro k
    induction k with
    | zero => simp
    | succ k ih =>
      intro hk
      rw [List.range_succ, List.map_append, List.sum_append, ih (by omega)]
      simp only [List.map_cons, List.map_nil, List.sum_cons, List.sum_nil]
      unfold ax
      by_cases hk0 : k = 0
      · subst hk0
        rw [if_neg (by omega : ¬ ((0 : Nat) : Int) ≥ 1), if_pos (by omega : ((0 : Nat) : Int) < n - 1)]
        simp
      · rw [if_neg hk0, if_pos (by omega), if_pos (by omega), if_neg (by omega)]
        simp; omega
  rw [hm, List.range_succ, List.map_append, List.sum_append, key (m + 1) (by omega), if_neg (by omega)]
  simp only [List.map_cons, List.map_nil, List.sum_cons, List.sum_nil]
  unfold ax
  rw [if_pos (by omega), if_neg (by omega)]
  simp; omega

/-- The total number of (cell, node) pairs. -/
theorem around_total : ∀ {ngs : List Int}, (∀ n ∈ ngs, 2 ≤ n) →
    (((boxPos ngs).map (around ngs)).flatten.length : Int) = (ngs.map fun n => 2 * (n - 1)).prod
  | [], _ => by simp [boxPos, around_nil]
  | n :: ngs, h => by
    have hn := h n (by simp)
    have ih := around_total (ngs := ngs) fun m hm => h m (by simp [hm])
    rw [List.map_cons, List.prod_cons, ← ih]
    have e : ∀ l : List (List Int), (∀ p ∈ l, p ∈ boxPos ngs) →
        ((((l.flatMap fun p => (List.range n.toNat).map fun k : Nat => (k : Int) :: p).map (around (n :: ngs))).flatten.length : Nat) : Int) =
        2 * (n - 1) * ((l.map (around ngs)).flatten.length : Int) := by
      intro l hl
      induction l with
      | nil => simp
      | cons p l ihl =>
        rw [List.flatMap_cons, List.map_append, List.flatten_append, List.length_append, Int.natCast_add, ihl fun q hq => hl q (by simp [hq])]
        rw [List.map_cons, List.flatten_cons, List.length_append, Int.natCast_add, Int.mul_add]
        congr 1
        rw [List.map_map, List.length_flatten, List.map_map]
        have : (List.range n.toNat).map (List.length ∘ around (n :: ngs) ∘ fun k : Nat => (k : Int) :: p) =
            (List.range n.toNat).map fun k : Nat => (around ngs p).length * (ax k n).length := by
          apply List.map_congr_left
          intro k hk
          rw [List.mem_range] at hk
          simp only [Function.comp]
          rw [around_cons (by omega) (by omega) hn, length_flatMap_const (w := (ax k n).length) (by simp)]
          exact Nat.mul_comm _ _
        rw [this, ← ax_sum hn]
        generalize (around ngs p).length = w
        generalize List.range n.toNat = r
        induction r with
        | nil => simp
        | cons a r ihr =>
          simp only [List.map_cons, List.sum_cons, Int.natCast_add, Int.natCast_mul, ihr]
          ring
    exact e (boxPos ngs) fun p hp => hp

theorem length_boxPos_pos {ngs : List Int} (h : ∀ n ∈ ngs, 2 ≤ n) : ((boxPos ngs).length : Int) = ngs.prod := by
  have h0 : ∀ n ∈ ngs, 0 ≤ n := fun n hn => by have := h n hn; omega
  rw [length_boxPos h0]
  have := prod_nonneg_int h0
  omega

theorem mkRev_done {gs : List (List Int)} {nrev nidx : Nat} (h1 : gs.flatten.length = nrev) (h2 : gs.length + 1 = nidx) :
    (mkRev gs nrev nidx).rev = gs.flatten.map some ∧ (mkRev gs nrev nidx).idx = (skyIdx gs).map some := by
  simp only [mkRev]
  rw [filled_full h1, filled_full (by rw [skyIdx_length, h2])]
  exact ⟨rfl, rfl⟩

/-- A row: first node, inner nodes, last node. -/
theorem range_row (n : Int) (h : 2 ≤ n) (g : Int → List Int) :
    (List.range n.toNat).map (fun k : Nat => g k) = [g 0] ++ (List.range (n - 2).toNat).map (fun i : Nat => g ((i : Int) + 1)) ++ [g (n - 1)] := by
  obtain ⟨m, hm⟩ : ∃ m : Nat, n.toNat = m + 2 := ⟨n.toNat - 2, by omega⟩
  rw [hm, show (n - 2).toNat = m by omega, List.range_succ, List.range_succ_eq_map]
  simp only [List.map_append, List.map_cons, List.map_map, List.map_nil]
  have e1 : g ((m + 1 : Nat) : Int) = g (n - 1) := by congr 1; omega
  rw [e1]
  rfl

theorem boxPos1 (n : Int) : boxPos [n] = (List.range n.toNat).map fun k : Nat => [(k : Int)] := by
  simp [boxPos]

theorem revRow {gs : List (List Int)} {nrev nidx : Nat} {n : Int} (h : 2 ≤ n) (g : Int → List Int) {first last : List Int} {body : Int → List Int}
    {β : Type} (k : RevSt → M β) (hf : first = g 0) (hb : ∀ i, 1 ≤ i → i < n - 1 → body i = g i) (hl : last = g (n - 1))
    (h1 : (gs ++ (List.range n.toNat).map fun i : Nat => g i).flatten.length ≤ nrev) (h2 : gs.length + n.toNat < nidx) :
    (revPush (mkRev gs nrev nidx) first >>= fun s => innerLoop n s body >>= fun s => revPush s last >>= k) =
      k (mkRev (gs ++ (List.range n.toNat).map fun i : Nat => g i) nrev nidx) := by
  have hrow := range_row n h g
  have hmid : (List.range (n - 2).toNat).map (fun i : Nat => body ((i : Int) + 1)) = (List.range (n - 2).toNat).map fun i : Nat => g ((i : Int) + 1) := by
    apply List.map_congr_left
    intro i hi
    rw [List.mem_range] at hi
    exact hb _ (by omega) (by omega)
  rw [hrow] at h1 ⊢
  simp only [List.flatten_append, List.length_append, List.flatten_cons, List.flatten_nil, List.append_nil] at h1
  rw [revPush_eq _ (by rw [hf]; omega) (by omega), ok_bind]
  unfold innerLoop
  rw [loop_revPush (fun i : Nat => body ((i : Int) + 1)) _ _ (by
      rw [hmid, hf]
      simp only [List.flatten_append, List.length_append, List.flatten_cons, List.flatten_nil, List.append_nil]
      omega) (by simp; omega), ok_bind]
  rw [revPush_eq _ (by
      rw [hmid, hf, hl]
      simp only [List.flatten_append, List.length_append, List.flatten_cons, List.flatten_nil, List.append_nil]
      omega) (by simp; omega), ok_bind, hmid, hf, hl]
  congr 2
  simp

theorem reverse1_spec {n : Int} (h : 2 ≤ n) :
    reverseNodal1 n = .ok (((boxPos [n]).map (around [n])).flatten.map some, (skyIdx ((boxPos [n]).map (around [n]))).map some) := by
  have hall : ∀ m ∈ [n], 2 ≤ m := by simpa using h
  have htot := around_total hall
  simp only [List.map_cons, List.map_nil, List.prod_cons, List.prod_nil, Int.mul_one] at htot
  have a : ∀ k : Int, 0 ≤ k → k < n → around [n] [k] = ax k n := by
    intro k h0 h1
    rw [around_cons h0 h1 h, around_nil]
    simp
  have hrow : (boxPos [n]).map (around [n]) = (List.range n.toNat).map fun k : Nat => around [n] [(k : Int)] := by
    rw [boxPos1, List.map_map]
    rfl
  unfold reverseNodal1
  rw [if_neg (by omega), if_neg (by omega), if_neg (by omega), revStart_eq (by omega), ok_bind]
  rw [revRow h (fun k => around [n] [k])]
  · rw [List.nil_append, ← hrow]
    obtain ⟨d1, d2⟩ := mkRev_done (gs := (boxPos [n]).map (around [n])) (nrev := (2 * (n - 1)).toNat) (nidx := (n + 1).toNat) (by omega)
      (by rw [hrow]; simp; omega)
    rw [d1, d2]
  · rw [a 0 (by omega) (by omega)]
    simp only [ax]
    rw [if_neg (by omega), if_pos (by omega)]
    rfl
  · intro i h1 h2
    rw [a _ (by omega) (by omega)]
    simp only [ax]
    rw [if_pos (by omega), if_pos (by omega)]
    rfl
  · rw [a (n - 1) (by omega) (by omega)]
    simp only [ax]
    rw [if_pos (by omega), if_neg (by omega), List.append_nil]
    congr 1
    omega
  · rw [List.nil_append, ← hrow]
    omega
  · simp; omega

theorem around2 {nx ny i j : Int} (hx : 2 ≤ nx) (hy : 2 ≤ ny) (hi0 : 0 ≤ i) (hi : i < nx) (hj0 : 0 ≤ j) (hj : j < ny) :
    around [nx, ny] [i, j] = (ax j ny).flatMap fun y => (ax i nx).map fun x => x + (nx - 1) * y := by
  rw [around_cons hi0 hi hx, around_cons hj0 hj hy, around_nil]
  simp

theorem ax_first {n : Int} (h : 2 ≤ n) : ax 0 n = [0] := by
  unfold ax
  rw [if_neg (by omega), if_pos (by omega)]
  rfl

theorem ax_mid {i n : Int} (h : 1 ≤ i) (h' : i < n - 1) : ax i n = [i - 1, i] := by
  unfold ax
  rw [if_pos (by omega), if_pos (by omega)]
  rfl

theorem ax_last {n : Int} (h : 2 ≤ n) : ax (n - 1) n = [n - 2] := by
  unfold ax
  rw [if_pos (by omega), if_neg (by omega), List.append_nil]
  congr 1
  omega

theorem reverse2_spec {nx ny : Int} (hx : 2 ≤ nx) (hy : 2 ≤ ny) :
    reverseNodal2 nx ny = .ok (((boxPos [nx, ny]).map (around [nx, ny])).flatten.map some,
      (skyIdx ((boxPos [nx, ny]).map (around [nx, ny]))).map some) := by
  have hall : ∀ m ∈ [nx, ny], 2 ≤ m := by
    intro m hm
    simp only [List.mem_cons, List.not_mem_nil, or_false] at hm
    rcases hm with rfl | rfl <;> assumption
  have htot := around_total hall
  have hlen := length_boxPos_pos hall
  simp only [List.map_cons, List.map_nil, List.prod_cons, List.prod_nil, Int.mul_one] at htot hlen
  -- the rows
  let row : Int → List (List Int) := fun j => (List.range nx.toNat).map fun i : Nat => around [nx, ny] [(i : Int), j]
  have hrows : (boxPos [nx, ny]).map (around [nx, ny]) = (List.range ny.toNat).flatMap fun j : Nat => row j := by
    simp only [boxPos, List.flatMap_cons, List.flatMap_nil, List.append_nil, List.flatMap_map, List.map_flatMap, List.map_map]
    rfl
  have hsplit : (List.range ny.toNat).flatMap (fun j : Nat => row j) =
      row 0 ++ (List.range (ny - 2).toNat).flatMap (fun j : Nat => row ((j : Int) + 1)) ++ row (ny - 1) := by
    obtain ⟨m, hm⟩ : ∃ m : Nat, ny.toNat = m + 2 := ⟨ny.toNat - 2, by omega⟩
    rw [hm, show (ny - 2).toNat = m by omega, List.range_succ, List.range_succ_eq_map]
    simp only [List.flatMap_append, List.flatMap_cons, List.flatMap_nil, List.append_nil, List.flatMap_map]
    have e1 : row ((m + 1 : Nat) : Int) = row (ny - 1) := by congr 1; omega
    rw [e1]
    rfl
  have hrl : ∀ j, (row j).length = nx.toNat := fun j => by simp [row]
  have hnrev : (4 * (nx - 2) * (ny - 2) + 2 * 2 * (nx - 2) + 2 * 2 * (ny - 2) + 4) = 2 * (nx - 1) * (2 * (ny - 1)) := by ring
  have hpos : 0 ≤ nx * ny := Int.mul_nonneg (by omega) (by omega)
  generalize hN : (4 * (nx - 2) * (ny - 2) + 2 * 2 * (nx - 2) + 2 * 2 * (ny - 2) + 4) = N at hnrev
  have hT : ((boxPos [nx, ny]).map (around [nx, ny])).flatten.length = N.toNat := by omega
  have hL : ((boxPos [nx, ny]).map (around [nx, ny])).length + 1 = (nx * ny + 1).toNat := by
    rw [List.length_map]
    omega
  rw [hrows, hsplit] at hT hL
  unfold reverseNodal2
  rw [if_neg (by omega), if_neg (by omega), if_neg (by omega)]
  simp only [hN]
  rw [revStart_eq (by omega), ok_bind]
  rw [revRow hx (fun i => around [nx, ny] [i, 0])]
  rotate_left
  · rw [around2 hx hy (by omega) (by omega) (by omega) (by omega), ax_first hx, ax_first hy]
    simp
  · intro i h1 h2
    rw [around2 hx hy (by omega) (by omega) (by omega) (by omega), ax_first hy, ax_mid h1 h2]
    simp
  · rw [around2 hx hy (by omega) (by omega) (by omega) (by omega), ax_first hy, ax_last hx]
    simp
    omega
  · simp only [List.flatten_append, List.length_append, List.nil_append] at hT ⊢
    have : (row 0).flatten.length ≤ N.toNat := by omega
    exact this
  · simp only [List.length_append, hrl] at hL
    simp
    omega
  rw [List.nil_append]
  -- the middle rows
  have hmid : ∀ k : Nat, k ≤ (ny - 2).toNat →
      loop k (mkRev (row 0) N.toNat (nx * ny + 1).toNat) (fun j' s =>
        revPush s [(nx - 1) * ((j' : Int) + 1 - 1), (nx - 1) * ((j' : Int) + 1)] >>= fun s =>
        innerLoop nx s (fun i => [i - 1 + (nx - 1) * ((j' : Int) + 1 - 1), i + (nx - 1) * ((j' : Int) + 1 - 1), i - 1 + (nx - 1) * ((j' : Int) + 1),
          i + (nx - 1) * ((j' : Int) + 1)]) >>= fun s =>
        revPush s [(nx - 1) * ((j' : Int) + 1 - 1) + (nx - 1) - 1, (nx - 1) * ((j' : Int) + 1) + (nx - 1) - 1]) =
      .ok (mkRev (row 0 ++ (List.range k).flatMap (fun j : Nat => row ((j : Int) + 1))) N.toNat (nx * ny + 1).toNat) := by
    intro k
    induction k with
    | zero => intro _; simp [loop]
    | succ k ih =>
      intro hk
      rw [loop_succ, ih (by omega), ok_bind]
      have hpre : List.range (ny - 2).toNat = List.range (k + 1) ++ (List.range ((ny - 2).toNat - (k + 1))).map (k + 1 + ·) := by
        rw [← List.range_add]
        congr 1
        omega
      rw [hpre, List.flatMap_append, List.range_succ, List.flatMap_append] at hT hL
      simp only [List.flatMap_cons, List.flatMap_nil, List.append_nil, List.flatten_append, List.length_append] at hT hL
      have e := revRow (gs := row 0 ++ (List.range k).flatMap (fun j : Nat => row ((j : Int) + 1))) (nrev := N.toNat) (nidx := (nx * ny + 1).toNat)
        hx (fun i => around [nx, ny] [i, (k : Int) + 1]) (k := fun s => (.ok s : M RevSt))
        (first := [(nx - 1) * ((k : Int) + 1 - 1), (nx - 1) * ((k : Int) + 1)])
        (body := fun i => [i - 1 + (nx - 1) * ((k : Int) + 1 - 1), i + (nx - 1) * ((k : Int) + 1 - 1), i - 1 + (nx - 1) * ((k : Int) + 1),
          i + (nx - 1) * ((k : Int) + 1)])
        (last := [(nx - 1) * ((k : Int) + 1 - 1) + (nx - 1) - 1, (nx - 1) * ((k : Int) + 1) + (nx - 1) - 1])
        (by
          rw [around2 hx hy (by omega) (by omega) (by omega) (by omega), ax_first hx, ax_mid (by omega) (by omega)]
          simp)
        (by
          intro i h1 h2
          rw [around2 hx hy (by omega) (by omega) (by omega) (by omega), ax_mid h1 h2, ax_mid (by omega) (by omega)]
          simp)
        (by
          rw [around2 hx hy (by omega) (by omega) (by omega) (by omega), ax_last hx, ax_mid (by omega) (by omega)]
          simp
          omega)
        (by
          have : ((row 0 ++ (List.range k).flatMap (fun j : Nat => row ((j : Int) + 1))) ++ row ((k : Int) + 1)).flatten.length ≤ N.toNat := by
            simp only [List.flatten_append, List.length_append]
            omega
          exact this)
        (by
          have := hrl ((k : Int) + 1)
          simp only [List.length_append]
          have h3 := hrl (ny - 1)
          omega)
      have hk' : ∀ m : M RevSt, (m >>= fun s => (.ok s : M RevSt)) = m := by
        intro m; cases m <;> rfl
      simp only [hk'] at e
      rw [e, List.range_succ, List.flatMap_append, List.append_assoc]
      simp only [List.flatMap_cons, List.flatMap_nil, List.append_nil]
      rfl
  rw [hmid _ (Nat.le_refl _), ok_bind]
  rw [revRow hx (fun i => around [nx, ny] [i, ny - 1])]
  rotate_left
  · rw [around2 hx hy (by omega) (by omega) (by omega) (by omega), ax_first hx, ax_last hy]
    simp
    left; omega
  · intro i h1 h2
    rw [around2 hx hy (by omega) (by omega) (by omega) (by omega), ax_last hy, ax_mid h1 h2]
    simp
    left; omega
  · rw [around2 hx hy (by omega) (by omega) (by omega) (by omega), ax_last hy, ax_last hx]
    simp only [List.flatMap_cons, List.flatMap_nil, List.append_nil, List.map_cons, List.map_nil]
    congr 1
    ring
  · exact Nat.le_of_eq hT
  · simp only [List.length_append, hrl] at hL ⊢
    omega
  obtain ⟨d1, d2⟩ := mkRev_done (gs := row 0 ++ (List.range (ny - 2).toNat).flatMap (fun j : Nat => row ((j : Int) + 1)) ++ row (ny - 1)) hT hL
  rw [show (List.range nx.toNat).map (fun i : Nat => around [nx, ny] [(i : Int), ny - 1]) = row (ny - 1) from rfl, d1, d2, hrows, hsplit]

theorem ax_cases {i n : Int} (h0 : 0 ≤ i) (h1 : i < n) (h2 : 2 ≤ n) :
    (¬ i ≥ 1 ∧ i < n - 1 ∧ ax i n = [i]) ∨ (i ≥ 1 ∧ i < n - 1 ∧ ax i n = [i - 1, i]) ∨ (i ≥ 1 ∧ ¬ i < n - 1 ∧ ax i n = [i - 1]) := by
  unfold ax
  by_cases a : i ≥ 1
  · by_cases b : i < n - 1
    · exact Or.inr (Or.inl ⟨a, b, by rw [if_pos a, if_pos b]; rfl⟩)
    · exact Or.inr (Or.inr ⟨a, b, by rw [if_pos a, if_neg b]; rfl⟩)
  · have b : i < n - 1 := by omega
    exact Or.inl ⟨a, b, by rw [if_neg a, if_pos b]; rfl⟩

theorem rev3Body_eq {nx ny nz i j k : Int} (hx : 2 ≤ nx) (hy : 2 ≤ ny) (hz : 2 ≤ nz) (hi0 : 0 ≤ i) (hi : i < nx) (hj0 : 0 ≤ j) (hj : j < ny)
    (hk0 : 0 ≤ k) (hk : k < nz) : rev3Body nx ny nz [i, j, k] = around [nx, ny, nz] [i, j, k] := by
  rw [around_cons hi0 hi hx, around_cons hj0 hj hy, around_cons hk0 hk hz, around_nil]
  have c1 : (k ≠ 0 ∧ k ≠ nz - 1) ∧ (j ≠ 0 ∧ j ≠ ny - 1) ∧ (i ≠ 0 ∧ i ≠ nx - 1) ↔
      (k ≥ 1 ∧ k < nz - 1) ∧ (j ≥ 1 ∧ j < ny - 1) ∧ (i ≥ 1 ∧ i < nx - 1) := by omega
  simp only [rev3Body, c1]
  rcases ax_cases hi0 hi hx with ⟨a1, a2, a3⟩ | ⟨a1, a2, a3⟩ | ⟨a1, a2, a3⟩ <;>
  rcases ax_cases hj0 hj hy with ⟨b1, b2, b3⟩ | ⟨b1, b2, b3⟩ | ⟨b1, b2, b3⟩ <;>
  rcases ax_cases hk0 hk hz with ⟨d1, d2, d3⟩ | ⟨d1, d2, d3⟩ | ⟨d1, d2, d3⟩ <;>
  simp only [a1, a2, a3, b1, b2, b3, d1, d2, d3, and_true, true_and, and_false, false_and, if_true, if_false, List.nil_append, List.append_nil,
    List.flatMap_cons, List.flatMap_nil, List.map_cons, List.map_nil, List.cons_append, List.cons.injEq] <;>
  (repeat' apply And.intro) <;> first | trivial | ring

theorem reverse3_spec {nx ny nz : Int} (hx : 2 ≤ nx) (hy : 2 ≤ ny) (hz : 2 ≤ nz) :
    reverseNodal3 nx ny nz = .ok (((boxPos [nx, ny, nz]).map (around [nx, ny, nz])).flatten.map some,
      (skyIdx ((boxPos [nx, ny, nz]).map (around [nx, ny, nz]))).map some) := by
  have hall : ∀ m ∈ [nx, ny, nz], 2 ≤ m := by
    intro m hm
    simp only [List.mem_cons, List.not_mem_nil, or_false] at hm
    rcases hm with rfl | rfl | rfl <;> assumption
  have htot := around_total hall
  have hlen := length_boxPos_pos hall
  simp only [List.map_cons, List.map_nil, List.prod_cons, List.prod_nil, Int.mul_one] at htot hlen
  have hbody : (boxPos [nx, ny, nz]).map (rev3Body nx ny nz) = (boxPos [nx, ny, nz]).map (around [nx, ny, nz]) := by
    apply List.map_congr_left
    intro p hp
    match p, mem_boxPos.mp hp with
    | [i, j, k], .cons hi (.cons hj (.cons hk .nil)) => exact rev3Body_eq hx hy hz hi.1 hi.2 hj.1 hj.2 hk.1 hk.2
  have hnrev : (8 * (nx - 2) * (ny - 2) * (nz - 2) +
        4 * (2 * (nx - 2) * (ny - 2) + 2 * (nx - 2) * (nz - 2) + 2 * (ny - 2) * (nz - 2)) + 2 * 4 * (nx - 2) + 2 * 4 * (ny - 2) +
        2 * 4 * (nz - 2) + 8) = 2 * (nx - 1) * (2 * (ny - 1) * (2 * (nz - 1))) := by ring
  have hpos : 0 ≤ nx * ny * nz := Int.mul_nonneg (Int.mul_nonneg (by omega) (by omega)) (by omega)
  rw [← Int.mul_assoc] at hlen
  unfold reverseNodal3
  rw [if_neg (by omega), if_neg (by omega), if_neg (by omega), hnrev, ← htot, revStart_eq (by omega), ok_bind]
  rw [foldlM_revPush, ok_bind, List.nil_append, hbody]
  · obtain ⟨d1, d2⟩ := mkRev_done (gs := (boxPos [nx, ny, nz]).map (around [nx, ny, nz]))
      (nrev := ((((boxPos [nx, ny, nz]).map (around [nx, ny, nz])).flatten.length : Int)).toNat) (nidx := (nx * ny * nz + 1).toNat) (by omega)
      (by rw [List.length_map]; omega)
    rw [d1, d2]
  · rw [List.nil_append, hbody]; omega
  · simp only [List.length_nil]; omega

/-- **C44** `getReverseNodalConnectivity` on a grid with at least two nodes on each axis: the group of a node is the increasing list of the cells
having this node among their corners. -/
theorem C44_reverse {ngs : List Int} (h1 : 1 ≤ ngs.length) (h3 : ngs.length ≤ 3) (h2 : ∀ n ∈ ngs, 2 ≤ n) :
    ∃ rev idx groups, structReverseNodal ngs = .ok (rev.map some, idx.map some) ∧ IsSky rev idx groups ∧ (groups.length : Int) = ngs.prod ∧
      ∀ p, InGrid ngs p → ∃ g, groups[(lin ngs p).toNat]? = some g ∧ StrictSorted g ∧
        ∀ c, c ∈ g ↔ ∃ q, InGrid (cellGridStructure ngs) q ∧ IsCorner q p ∧ lin (cellGridStructure ngs) q = c := by
  refine ⟨_, _, (boxPos ngs).map (around ngs), ?_, ⟨rfl, rfl⟩, ?_, fun p hp => ⟨around ngs p, ?_, ?_, fun c => ?_⟩⟩
  · match ngs, h1, h3 with
    | [a], _, _ => exact reverse1_spec (h2 a (by simp))
    | [a, b], _, _ => exact reverse2_spec (h2 a (by simp)) (h2 b (by simp))
    | [a, b, c], _, _ => exact reverse3_spec (h2 a (by simp)) (h2 b (by simp)) (h2 c (by simp))
    | _ :: _ :: _ :: _ :: _, _, h3 => simp at h3
  · rw [List.length_map, length_boxPos_pos h2]
  · rw [List.getElem?_map, boxPos_get hp]
    rfl
  · exact boxIds_sorted (aroundPart_in h2 hp)
  · unfold around
    rw [mem_boxIds]
    constructor
    · rintro ⟨q, hq, e⟩
      obtain ⟨a, b⟩ := (inBox_around hp q).mp hq
      exact ⟨q, a, b, e⟩
    · rintro ⟨q, a, b, e⟩
      exact ⟨q, (inBox_around hp q).mpr ⟨a, b⟩, e⟩

/-- **C44** Axes with a single node do not count. -/
theorem C44_flat {nx ny nz : Int} (hx : 1 ≤ nx) (hy : 1 ≤ ny) (hz : 1 ≤ nz) :
    structReverseNodal [1, ny, nz] = structReverseNodal [ny, nz] ∧ structReverseNodal [nx, 1, nz] = structReverseNodal [nx, nz] ∧
    structReverseNodal [nx, ny, 1] = structReverseNodal [nx, ny] ∧ structReverseNodal [nx, 1] = structReverseNodal [nx] ∧
    structReverseNodal [1, ny] = structReverseNodal [ny] := by
  have r2 : ∀ a b : Int, 1 ≤ a → 1 ≤ b → a = 1 ∨ b = 1 → reverseNodal2 a b = reverseNodal1 (max a b) := by
    intro a b ha hb h
    unfold reverseNodal2
    rw [if_neg (by omega), if_pos h]
  have sw : ∀ a : Int, 1 ≤ a → reverseNodal2 1 a = reverseNodal2 a 1 := by
    intro a ha
    rw [r2 1 a (by omega) ha (Or.inl rfl), r2 a 1 ha (by omega) (Or.inr rfl), Int.max_comm]
  simp only [structReverseNodal]
  refine ⟨?_, ?_, ?_, ?_, ?_⟩
  · unfold reverseNodal3
    rw [if_neg (by omega), if_pos (Or.inl rfl)]
    simp [dropFirstOne]
  · unfold reverseNodal3
    rw [if_neg (by omega), if_pos (Or.inr (Or.inl rfl))]
    by_cases h : nx = 1
    · subst h
      simp only [dropFirstOne, if_true]
    · simp only [dropFirstOne, if_true, if_neg h]
  · unfold reverseNodal3
    rw [if_neg (by omega), if_pos (Or.inr (Or.inr rfl))]
    by_cases h : nx = 1
    · subst h
      simp only [dropFirstOne, if_true]
      exact (sw ny hy).symm
    · by_cases h' : ny = 1
      · subst h'
        simp only [dropFirstOne, if_true, if_neg h]
      · simp only [dropFirstOne, if_true, if_neg h, if_neg h']
  · rw [r2 nx 1 hx (by omega) (Or.inr rfl), show max nx 1 = nx by omega]
  · rw [r2 1 ny (by omega) hy (Or.inl rfl), show max 1 ny = ny by omega]

example : structReverseNodal [3, 2] = .ok ([some 0, some 0, some 1, some 1, some 0, some 0, some 1, some 1],
    [some 0, some 1, some 3, some 4, some 5, some 7, some 8]) := rfl

/-- Finding: on an empty axis `setIJ` is called on an array which was not allocated; a mesh of a single node, which has no cell, gives a
reverse connectivity holding the cell 0. -/
theorem C44_degenerate : structReverseNodal [0, 2] = .error .ub ∧ structNumberOfCells [1] = .ok 0 ∧
    structReverseNodal [1] = .ok ([some 0], [some 0, some 1]) := ⟨rfl, rfl, rfl⟩

end MC
