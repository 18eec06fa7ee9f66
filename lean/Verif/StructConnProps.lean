import Verif.StructConn
import Verif.BoxProps
import Verif.RangeProps
import Verif.Sky

/-!
# Structured grids: connectivity (C40, C44, C45) – proofs
-/

namespace MC

/-! ## Specification -/

/-- `n` is a corner of the cell at position `p`. -/
def IsCorner (p n : List Int) : Prop := List.Forall₂ (fun a b => b = a ∨ b = a + 1) p n

/-- The corners of the unit segment, square, cube: around the bottom face, then around the top face. -/
def unitCorners : Nat → List (List Int)
  | 1 => [[0], [1]]
  | 2 => [[0, 0], [1, 0], [1, 1], [0, 1]]
  | 3 => [[0, 0, 0], [1, 0, 0], [1, 1, 0], [0, 1, 0], [0, 0, 1], [1, 0, 1], [1, 1, 1], [0, 1, 1]]
  | _ => []

/-- The same turned the other way round (first and second exchanged, third and fourth exchanged). -/
def mirrorCorners : Nat → List (List Int)
  | 1 => [[0], [1]]
  | 2 => [[1, 0], [0, 0], [0, 1], [1, 1]]
  | 3 => [[1, 0, 0], [0, 0, 0], [0, 1, 0], [1, 1, 0], [1, 0, 1], [0, 0, 1], [0, 1, 1], [1, 1, 1]]
  | _ => []

/-! ## Buffers -/

theorem writeAt_filled {α : Type} {n : Nat} : ∀ (xs l : List α), l.length + xs.length ≤ n →
    writeAt (filled l n).1 (l.length : Int) xs = .ok (filled (l ++ xs) n).1
  | [], l, _ => by simp [writeAt]
  | x :: xs, l, h => by
    simp only [List.length_cons] at h
    have hb : wr (filled l n).1 (l.length : Int) (some x) = .ok (filled (l ++ [x]) n).1 := by
      have := emit_filled (l := l) (n := n) (by omega) x
      unfold emit at this
      simp only [filled] at this ⊢
      cases hw : wr (l.map some ++ List.replicate (n - l.length) none) (l.length : Int) (some x) with
      | error e => rw [hw] at this; cases this
      | ok b =>
        rw [hw] at this
        injection this with this
        rw [Prod.mk.injEq] at this
        rw [this.1]
    rw [writeAt, hb, ok_bind]
    have e : ((l.length : Int) + 1) = ((l ++ [x]).length : Int) := by simp
    rw [e, writeAt_filled xs (l ++ [x]) (by simp; omega)]
    simp

theorem length_flatMap_const {α β : Type} {l : List β} {f : β → List α} {w : Nat} (h : ∀ x ∈ l, (f x).length = w) :
    (l.flatMap f).length = w * l.length := by
  rw [List.length_flatMap, List.map_congr_left h, List.map_const', List.sum_replicate]
  simp [Nat.mul_comm]

theorem tup_flatMap {α β : Type} {f : β → List α} {w : Nat} : ∀ {l : List β}, (∀ x ∈ l, (f x).length = w) → ∀ (i : Nat) (hi : i < l.length),
    tup w (l.flatMap f) i = f l[i]
  | [], _, i, hi => by simp at hi
  | x :: l, h, i, hi => by
    have hx := h x (by simp)
    rw [List.flatMap_cons]
    cases i with
    | zero =>
      simp only [tup, Nat.zero_mul, List.drop_zero, List.getElem_cons_zero]
      rw [List.take_append_of_le_length (by omega), List.take_of_length_le (by omega)]
    | succ i =>
      rw [List.getElem_cons_succ, ← tup_flatMap (fun y hy => h y (by simp [hy])) i (by simpa using hi)]
      unfold tup
      rw [Nat.add_mul, Nat.one_mul, Nat.add_comm, ← List.drop_drop, List.drop_append_of_le_length (by omega),
        List.drop_of_length_le (l := f x) (by omega), List.nil_append]

theorem gtLoop_spec {w : Nat} {body : List Int → List Int} {dims : List Int} {alloc : Int} (hd : ∀ d ∈ dims, 0 ≤ d)
    (hb : ∀ p ∈ boxPos dims, (body p).length = w) (ha : alloc = w * dims.prod) :
    gtLoop w body dims alloc = .ok (((boxPos dims).flatMap body).map some) := by
  have hlen := length_boxPos hd
  have hp := prod_nonneg_int hd
  have hal : alloc.toNat = w * dims.prod.toNat := by
    rw [ha, Int.toNat_mul (by omega) hp]
    simp
  have key : wp ((boxPos dims).foldlM (m := Except Err) (fun (s : List (Option Int) × Int) p => do
      let b ← writeAt s.1 (w * s.2) (body p)
      .ok (b, s.2 + 1)) (mallocN Int alloc.toNat, 0))
      (fun s => s.1 = (filled ((boxPos dims).flatMap body) alloc.toNat).1) False := by
    refine wp_mono (wp_foldlM (fun pre (s : List (Option Int) × Int) => s.1 = (filled (pre.flatMap body) alloc.toNat).1 ∧ s.2 = pre.length) ?_ ?_) ?_ id
    · exact ⟨by simp [filled, mallocN], rfl⟩
    · rintro pre p suf hl ⟨s1, s2⟩ ⟨e1, e2⟩
      simp only at e1 e2
      subst e1 e2
      have hpre : (pre.flatMap body).length = w * pre.length := length_flatMap_const fun x hx => hb x (by rw [hl]; simp [hx])
      have hbp : (body p).length = w := hb p (by rw [hl]; simp)
      have hll : pre.length + 1 ≤ dims.prod.toNat := by
        rw [← hlen, hl]; simp
      have : w * (pre.length + 1) ≤ w * dims.prod.toNat := Nat.mul_le_mul_left w hll
      rw [Nat.mul_add] at this
      have e : ((w : Int) * (pre.length : Int)) = ((pre.flatMap body).length : Int) := by rw [hpre]; simp
      simp only [e]
      rw [writeAt_filled _ _ (by rw [hpre, hbp, hal]; omega), ok_bind, wp_ok]
      refine ⟨?_, by simp⟩
      simp [List.flatMap_append]
    · rintro s ⟨e, _⟩
      exact e
  obtain ⟨s, hs, e⟩ := wp_exists key
  unfold gtLoop
  rw [hs, ok_bind, e, filled_full]
  rw [length_flatMap_const hb, hlen, hal]

theorem prod_zero_int : ∀ {l : List Int}, (0 : Int) ∈ l → l.prod = 0
  | x :: l, h => by
    rw [List.prod_cons]
    rcases List.mem_cons.mp h with h | h
    · rw [← h, Int.zero_mul]
    · rw [prod_zero_int h, Int.mul_zero]

theorem boxPos_sorted {dims : List Int} (h : ∀ d ∈ dims, 0 ≤ d) : (boxPos dims).map (lin dims) = (List.range dims.prod.toNat).map fun (i : Nat) => (i : Int) := by
  have hb : BoxIn dims (dims.map fun d => (0, d)) := by
    induction dims with
    | nil => exact .nil
    | cons d ds ih => exact .cons ⟨by simp, by simpa using h d (by simp), by simp⟩ (ih fun x hx => h x (by simp [hx]))
  have hdims : boxDims (dims.map fun d => ((0 : Int), d)) = dims := by
    simp [boxDims, Function.comp_def]
  have e : boxIds dims (dims.map fun d => (0, d)) = (boxPos dims).map (lin dims) := by
    rw [boxIds, hdims]
    apply List.map_congr_left
    intro p hp
    rw [partOffset_eq]
    congr 1
    have := (mem_boxPos.mp hp).length_eq
    clear hp hb hdims h
    induction dims generalizing p with
    | nil => cases p with
      | nil => rfl
      | cons => simp at this
    | cons d ds ih => cases p with
      | nil => simp at this
      | cons x p =>
        simp only [List.map_cons, List.zipWith_cons_cons, Int.zero_add]
        rw [ih p (by simpa using this)]
  rw [← e]
  refine StrictSorted.ext (boxIds_sorted hb) ?_ fun x => ?_
  · unfold StrictSorted
    rw [List.pairwise_map]
    exact List.pairwise_lt_range.imp fun {i j} hij => by omega
  · rw [mem_boxIds]
    simp only [List.mem_map, List.mem_range]
    constructor
    · rintro ⟨q, hq, rfl⟩
      obtain ⟨b0, b1⟩ := lin_bounds (hb.grid hq)
      exact ⟨(lin dims q).toNat, by omega, by omega⟩
    · rintro ⟨i, hi, rfl⟩
      have hpos : ∀ d ∈ dims, 0 < d := by
        intro d hd
        have h0 := h d hd
        by_contra hc
        have : d = 0 := by omega
        subst this
        rw [prod_zero_int hd] at hi
        simp at hi
      obtain ⟨q, _, hq, e⟩ := getPosFromId_spec hpos (x := (i : Int)) (by omega) (by omega)
      refine ⟨q, ?_, e⟩
      clear * - hq
      induction hq with
      | nil => exact .nil
      | cons h hs ih => exact .cons (by simp only; omega) ih

/-- The position of index `lin dims p` in the nest of loops is `p`. -/
theorem boxPos_get {dims p : List Int} (hp : InGrid dims p) : (boxPos dims)[(lin dims p).toNat]? = some p := by
  have h : ∀ d ∈ dims, 0 ≤ d := by
    intro n hn
    obtain ⟨i, hi, rfl⟩ := List.mem_iff_getElem.mp hn
    have := (List.forall₂_iff_get.mp hp).2 i (by rw [hp.length_eq]; exact hi) hi
    simp at this
    omega
  obtain ⟨b0, b1⟩ := lin_bounds hp
  have hlt : (lin dims p).toNat < (boxPos dims).length := by rw [length_boxPos h]; omega
  rw [List.getElem?_eq_getElem hlt]
  congr 1
  have e := congrArg (fun l => l[(lin dims p).toNat]?) (boxPos_sorted h)
  simp only [List.getElem?_map, List.getElem?_eq_getElem hlt, Option.map_some] at e
  rw [List.getElem?_range (by omega), Option.map_some] at e
  injection e with e
  exact lin_inj (mem_boxPos.mp (List.getElem_mem hlt)) hp (by rw [e]; omega)

/-! ## C40 -/

theorem inGrid_cells_pos {ngs p : List Int} (hp : InGrid (cellGridStructure ngs) p) : ∀ n ∈ ngs, 2 ≤ n := by
  intro n hn
  have hm : n + -1 ∈ cellGridStructure ngs := List.mem_map.mpr ⟨n, hn, rfl⟩
  obtain ⟨i, hi, e⟩ := List.mem_iff_getElem.mp hm
  have := (List.forall₂_iff_get.mp hp).2 i (by rw [hp.length_eq]; exact hi) hi
  simp only [List.get_eq_getElem, e] at this
  omega

/-- **C40** `getNodeIdsOfCell` gives the nodes of the corners of the cell, in the order of the reference cell. -/
theorem C40_getNodeIdsOfCell {ngs p : List Int} (h1 : 1 ≤ ngs.length) (h3 : ngs.length ≤ 3) (hp : InGrid (cellGridStructure ngs) p) :
    structNodeIdsOfCell ngs (lin (cellGridStructure ngs) p) = .ok ((unitCorners ngs.length).map fun e => lin ngs (shiftPos e p)) := by
  have h2 := inGrid_cells_pos hp
  have hlen : (cellGridStructure ngs).length = ngs.length := by simp [cellGridStructure]
  have htake : (splitVect (cellGridStructure ngs)).take ngs.length = splitVect (cellGridStructure ngs) := by
    apply List.take_of_length_le
    simp [splitVect, hlen]
  simp only [structNodeIdsOfCell, structMeshDim_full h2, ok_bind, htake, getPosFromId_lin hp]
  match ngs, h1, h3, hp with
  | [a], _, _, .cons _ .nil => simp [unitCorners, shiftPos, lin, rd, ok_bind]
  | [a, b], _, _, .cons _ (.cons _ .nil) =>
    simp [unitCorners, shiftPos, lin, rd, splitVect, List.range_succ_eq_map, ok_bind]
    refine ⟨?_, ?_, ?_, ?_⟩ <;> ring
  | [a, b, c], _, _, .cons _ (.cons _ (.cons _ .nil)) =>
    simp [unitCorners, shiftPos, lin, rd, splitVect, List.range_succ_eq_map, ok_bind]
    refine ⟨?_, ?_, ?_, ?_, ?_, ?_, ?_, ?_⟩ <;> ring
  | _ :: _ :: _ :: _ :: _, _, h3, _ => simp at h3

/-- **C40** These nodes are exactly the corners of the cell, each once. -/
theorem C40_corners {ngs p : List Int} (h1 : 1 ≤ ngs.length) (h3 : ngs.length ≤ 3) (hp : InGrid (cellGridStructure ngs) p) :
    ((unitCorners ngs.length).map fun e => lin ngs (shiftPos e p)).Nodup ∧
    ∀ x, x ∈ ((unitCorners ngs.length).map fun e => lin ngs (shiftPos e p)) ↔ ∃ n, IsCorner p n ∧ lin ngs n = x := by
  have hcorner : ∀ n, IsCorner p n ↔ ∃ e ∈ unitCorners ngs.length, n = shiftPos e p := by
    intro n
    match ngs, h1, h3, hp with
    | [a], _, _, .cons (a := x) _ .nil =>
      constructor
      · intro h
        match n, h with
        | [y], .cons h .nil => rcases h with rfl | rfl <;> simp [unitCorners, shiftPos]
      · rintro ⟨e, he, rfl⟩
        simp only [unitCorners, List.length_cons, List.length_nil, List.mem_cons, List.not_mem_nil, or_false] at he
        rcases he with rfl | rfl
        all_goals
          simp [shiftPos, IsCorner]
    | [a, b], _, _, .cons (a := x) _ (.cons (a := y) _ .nil) =>
      constructor
      · intro h
        match n, h with
        | [_, _], .cons h (.cons h' .nil) => rcases h with rfl | rfl <;> rcases h' with rfl | rfl <;> simp [unitCorners, shiftPos]
      · rintro ⟨e, he, rfl⟩
        simp only [unitCorners, List.length_cons, List.length_nil, List.mem_cons, List.not_mem_nil, or_false] at he
        rcases he with rfl | rfl | rfl | rfl
        all_goals
          simp [shiftPos, IsCorner]
    | [a, b, c], _, _, .cons (a := x) _ (.cons (a := y) _ (.cons (a := z) _ .nil)) =>
      constructor
      · intro h
        match n, h with
        | [_, _, _], .cons h (.cons h' (.cons h'' .nil)) =>
          rcases h with rfl | rfl <;> rcases h' with rfl | rfl <;> rcases h'' with rfl | rfl <;> simp [unitCorners, shiftPos]
      · rintro ⟨e, he, rfl⟩
        simp only [unitCorners, List.length_cons, List.length_nil, List.mem_cons, List.not_mem_nil, or_false] at he
        rcases he with rfl | rfl | rfl | rfl | rfl | rfl | rfl | rfl
        all_goals
          simp [shiftPos, IsCorner]
    | _ :: _ :: _ :: _ :: _, _, h3, _ => simp at h3
  have hin : ∀ n, IsCorner p n → InGrid ngs n := by
    intro n hn
    clear hcorner h1 h3
    unfold cellGridStructure at hp
    induction hn generalizing ngs with
    | nil => cases ngs with
      | nil => exact .nil
      | cons => rw [List.map_cons] at hp; cases hp
    | cons h hs ih => cases ngs with
      | nil => cases hp
      | cons m ngs =>
        rw [List.map_cons] at hp
        cases hp with
        | cons h' hs' => exact .cons (by omega) (ih hs')
  constructor
  · rw [List.nodup_map_iff_inj_on]
    · intro e he e' he' hEq
      have := lin_inj (hin _ ((hcorner _).mpr ⟨e, he, rfl⟩)) (hin _ ((hcorner _).mpr ⟨e', he', rfl⟩)) hEq
      match ngs, h1, h3, hp with
      | [a], _, _, .cons (a := x) _ .nil =>
        simp only [unitCorners, List.length_cons, List.length_nil, List.mem_cons, List.not_mem_nil, or_false] at he he'
        rcases he with rfl | rfl <;> rcases he' with rfl | rfl <;> simp [shiftPos] at this ⊢
      | [a, b], _, _, .cons (a := x) _ (.cons (a := y) _ .nil) =>
        simp only [unitCorners, List.length_cons, List.length_nil, List.mem_cons, List.not_mem_nil, or_false] at he he'
        rcases he with rfl | rfl | rfl | rfl <;> rcases he' with rfl | rfl | rfl | rfl <;> simp [shiftPos] at this ⊢
      | [a, b, c], _, _, .cons (a := x) _ (.cons (a := y) _ (.cons (a := z) _ .nil)) =>
        simp only [unitCorners, List.length_cons, List.length_nil, List.mem_cons, List.not_mem_nil, or_false] at he he'
        rcases he with rfl | rfl | rfl | rfl | rfl | rfl | rfl | rfl <;> rcases he' with rfl | rfl | rfl | rfl | rfl | rfl | rfl | rfl <;>
          simp [shiftPos] at this ⊢
      | _ :: _ :: _ :: _ :: _, _, h3, _ => simp at h3
    · match ngs, h1, h3 with
      | [_], _, _ => exact (by decide : (unitCorners 1).Nodup)
      | [_, _], _, _ => exact (by decide : (unitCorners 2).Nodup)
      | [_, _, _], _, _ => exact (by decide : (unitCorners 3).Nodup)
      | _ :: _ :: _ :: _ :: _, _, h3 => simp at h3
  · intro x
    simp only [List.mem_map]
    constructor
    · rintro ⟨e, he, rfl⟩
      exact ⟨_, (hcorner _).mpr ⟨e, he, rfl⟩, rfl⟩
    · rintro ⟨n, hn, rfl⟩
      obtain ⟨e, he, rfl⟩ := (hcorner n).mp hn
      exact ⟨e, he, rfl⟩

theorem build1GT_full {ngs : List Int} (h1 : 1 ≤ ngs.length) (h3 : ngs.length ≤ 3) (h2 : ∀ n ∈ ngs, 2 ≤ n) :
    build1GT ngs = .ok (((boxPos (cellGridStructure ngs)).flatMap fun p => (mirrorCorners ngs.length).map fun e => lin ngs (shiftPos e p)).map some) := by
  have hz : zipNodeStructure ngs = .ok ngs := by
    unfold zipNodeStructure
    rw [if_neg (by omega), if_neg]
    · congr 1
      rw [List.filter_eq_self]
      intro n hn
      simpa using h2 n hn
    · simp only [List.any_eq_true, decide_eq_true_eq, not_exists, not_and]
      intro n hn
      have := h2 n hn
      omega
  have hd : ∀ d ∈ cellGridStructure ngs, 0 ≤ d := fun d hd => by have := cellGrid_pos h2 d hd; omega
  simp only [build1GT, hz, ok_bind]
  match ngs, h1, h3, hd with
  | [a], _, _, hd =>
    simp only
    rw [gtLoop_spec (by simpa [cellGridStructure] using hd)]
    · congr 2
      simp only [cellGridStructure, List.map_cons, List.map_nil]
      rw [show a + -1 = a - 1 by omega]
      apply List.flatMap_congr
      intro p hp
      match p, mem_boxPos.mp hp with
      | [i], .cons _ .nil => simp [gt1Body, mirrorCorners, shiftPos, lin]
    · intro p hp
      match p, mem_boxPos.mp hp with
      | [i], .cons _ .nil => rfl
    · simp
  | [a, b], _, _, hd =>
    simp only
    rw [gtLoop_spec (by simpa [cellGridStructure] using hd)]
    · congr 2
      simp only [cellGridStructure, List.map_cons, List.map_nil]
      rw [show a + -1 = a - 1 by omega, show b + -1 = b - 1 by omega]
      apply List.flatMap_congr
      intro p hp
      match p, mem_boxPos.mp hp with
      | [i, j], .cons _ (.cons _ .nil) =>
        simp only [gt2Body, mirrorCorners, shiftPos, lin, List.length_cons, List.length_nil, List.map_cons, List.map_nil, List.zipWith_cons_cons, List.zipWith_nil_left,
          List.cons.injEq, and_true]
        refine ⟨?_, ?_, ?_, ?_⟩ <;> ring
    · intro p hp
      match p, mem_boxPos.mp hp with
      | [i, j], .cons _ (.cons _ .nil) => rfl
    · simp; ring
  | [a, b, c], _, _, hd =>
    simp only
    rw [gtLoop_spec (by simpa [cellGridStructure] using hd)]
    · congr 2
      simp only [cellGridStructure, List.map_cons, List.map_nil]
      rw [show a + -1 = a - 1 by omega, show b + -1 = b - 1 by omega, show c + -1 = c - 1 by omega]
      apply List.flatMap_congr
      intro p hp
      match p, mem_boxPos.mp hp with
      | [i, j, k], .cons _ (.cons _ (.cons _ .nil)) =>
        simp only [gt3Body, mirrorCorners, shiftPos, lin, List.length_cons, List.length_nil, List.map_cons, List.map_nil, List.zipWith_cons_cons, List.zipWith_nil_left,
          List.cons.injEq, and_true]
        refine ⟨?_, ?_, ?_, ?_, ?_, ?_, ?_, ?_⟩ <;> ring
    · intro p hp
      match p, mem_boxPos.mp hp with
      | [i, j, k], .cons _ (.cons _ (.cons _ .nil)) => rfl
    · simp; ring
  | _ :: _ :: _ :: _ :: _, _, h3, _ => simp at h3

/-- **C40** `Build1GTNodalConnectivity` (used by `buildUnstructured`): the tuple number `c` holds the nodes of the cell `c`: the same nodes as
`getNodeIdsOfCell`, but (finding) turned the other way round. -/
theorem C40_build1GT {ngs : List Int} (h1 : 1 ≤ ngs.length) (h3 : ngs.length ≤ 3) (h2 : ∀ n ∈ ngs, 2 ≤ n) :
    ∃ r, build1GT ngs = .ok (r.map some) ∧ (r.length : Int) = 2 ^ ngs.length * (cellGridStructure ngs).prod ∧
      ∀ p, InGrid (cellGridStructure ngs) p → ∃ conn, structNodeIdsOfCell ngs (lin (cellGridStructure ngs) p) = .ok conn ∧
        tup (2 ^ ngs.length) r (lin (cellGridStructure ngs) p).toNat = (mirrorCorners ngs.length).map (fun e => lin ngs (shiftPos e p)) ∧
        List.Perm (tup (2 ^ ngs.length) r (lin (cellGridStructure ngs) p).toNat) conn := by
  have hd : ∀ d ∈ cellGridStructure ngs, 0 ≤ d := fun d hd => by have := cellGrid_pos h2 d hd; omega
  have hw : ∀ p ∈ boxPos (cellGridStructure ngs), ((mirrorCorners ngs.length).map fun e => lin ngs (shiftPos e p)).length = 2 ^ ngs.length := by
    intro p _
    match ngs, h1, h3 with
    | [_], _, _ => rfl
    | [_, _], _, _ => rfl
    | [_, _, _], _, _ => rfl
    | _ :: _ :: _ :: _ :: _, _, h3 => simp at h3
  refine ⟨_, build1GT_full h1 h3 h2, ?_, fun p hp => ⟨_, C40_getNodeIdsOfCell h1 h3 hp, ?_⟩⟩
  · rw [length_flatMap_const hw, length_boxPos hd]
    have := prod_nonneg_int hd
    push_cast
    rw [Int.toNat_of_nonneg this]
  · have hg := boxPos_get hp
    obtain ⟨hlt, e⟩ := List.getElem?_eq_some_iff.mp hg
    have ht := tup_flatMap hw _ hlt
    rw [e] at ht
    refine ⟨ht, ?_⟩
    rw [ht]
    apply List.Perm.map
    match ngs, h1, h3 with
    | [_], _, _ => exact List.Perm.refl _
    | [_, _], _, _ => exact (by decide : (mirrorCorners 2).Perm (unitCorners 2))
    | [_, _, _], _, _ => exact (by decide : (mirrorCorners 3).Perm (unitCorners 3))
    | _ :: _ :: _ :: _ :: _, _, h3 => simp at h3

/-- **C40** Axes with a single node do not count for `Build1GTNodalConnectivity`. -/
theorem C40_build1GT_flat {ngs : List Int} (h1 : 1 ≤ ngs.length) (h3 : ngs.length ≤ 3) (h2 : ∀ n ∈ ngs, 1 ≤ n)
    (hne : ngs.filter (fun n => decide (n ≥ 2)) ≠ []) : build1GT ngs = build1GT (ngs.filter fun n => decide (n ≥ 2)) := by
  have z1 : zipNodeStructure ngs = .ok (ngs.filter fun n => decide (n ≥ 2)) := by
    unfold zipNodeStructure
    rw [if_neg (by omega), if_neg]
    simp only [List.any_eq_true, decide_eq_true_eq, not_exists, not_and]
    intro n hn
    have := h2 n hn
    omega
  have z2 : zipNodeStructure (ngs.filter fun n => decide (n ≥ 2)) = .ok (ngs.filter fun n => decide (n ≥ 2)) := by
    unfold zipNodeStructure
    have l1 := List.length_filter_le (fun n => decide (n ≥ (2 : Int))) ngs
    have l2 := List.length_pos_of_ne_nil hne
    rw [if_neg (by omega), if_neg, List.filter_filter]
    · simp
    · simp only [List.any_eq_true, decide_eq_true_eq, not_exists, not_and]
      intro n hn
      have := h2 n (List.mem_of_mem_filter hn)
      omega
  simp only [build1GT, z1, z2]

example : structNodeIdsOfCell [4, 3] 4 = .ok [5, 6, 10, 9] ∧
    build1GT [3, 2] = .ok [some 1, some 0, some 3, some 4, some 2, some 1, some 4, some 5] ∧
    structNodeIdsOfCell [3, 2] 0 = .ok [0, 1, 4, 3] ∧ build1GT [3, 1] = build1GT [3] := ⟨rfl, rfl, rfl, rfl⟩

/-- Finding: with one node on the first axis of a 3D grid, `getNodeIdsOfCell` divides by zero though the mesh has cells. -/
theorem C40_flat_first_axis : structNumberOfCells [1, 3, 4] = .ok 6 ∧ structNodeIdsOfCell [1, 3, 4] 0 = .error .ub ∧
    structNodeIdsOfCell [3, 4, 1] 0 = .ok [0, 1, 4, 3] := ⟨rfl, rfl, rfl⟩

end MC
