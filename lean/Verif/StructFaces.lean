import Verif.StructConnProps2

/-!
# Structured grids: mesh of the faces (C45) – proofs
-/

namespace MC

/-- A face of the grid: its normal axis `a` and the position `p` of its first corner; the axis `a` is flat, the others go one step. -/
def IsFace (ngs : List Int) (a : Nat) (p : List Int) : Prop :=
  a < ngs.length ∧ p.length = ngs.length ∧ ∀ b (hb : b < ngs.length) (hb' : b < p.length), 0 ≤ p[b] ∧ if b = a then p[b] < ngs[b] else p[b] + 1 < ngs[b]

/-- The corners of a face: two for an edge of a plane grid, the four ones in cyclic order for a face of a space grid. -/
def faceCorners : Nat → Nat → List (List Int)
  | 2, 0 => [[0, 0], [0, 1]]
  | 2, 1 => [[0, 0], [1, 0]]
  | 3, 0 => [[0, 0, 0], [0, 0, 1], [0, 1, 1], [0, 1, 0]]
  | 3, 1 => [[0, 0, 0], [0, 0, 1], [1, 0, 1], [1, 0, 0]]
  | 3, 2 => [[0, 0, 0], [1, 0, 0], [1, 1, 0], [0, 1, 0]]
  | _, _ => []

/-- The nodes of a face. -/
def faceNodes (ngs : List Int) (f : Nat × List Int) : List Int := (faceCorners ngs.length f.1).map fun e => lin ngs (shiftPos e f.2)

theorem cpLoop_spec {w : Nat} {body : List Int → List Int} {dims : List Int} {n : Nat} (hd : ∀ d ∈ dims, 0 ≤ d)
    (hb : ∀ p ∈ boxPos dims, (body p).length = w) (acc : List Int) (h : acc.length + w * dims.prod.toNat ≤ n) :
    cpLoop w body dims ((filled acc n).1, (acc.length : Int)) =
      .ok ((filled (acc ++ (boxPos dims).flatMap body) n).1, ((acc ++ (boxPos dims).flatMap body).length : Int)) := by
  rw [← length_boxPos hd] at h
  unfold cpLoop
  generalize boxPos dims = l at h hb
  induction l generalizing acc with
  | nil => simp; rfl
  | cons p l ih =>
    have hp := hb p (by simp)
    simp only [List.length_cons, Nat.mul_add] at h
    rw [List.foldlM_cons]
    show ((writeAt _ _ _ >>= fun b => Except.ok (b, (acc.length : Int) + w)) >>= _) = _
    rw [writeAt_filled _ _ (by omega), ok_bind, ok_bind]
    have e : ((acc.length : Int) + w) = ((acc ++ body p).length : Int) := by simp [hp]
    rw [e, ih (acc ++ body p) (by simp only [List.length_append, hp]; omega) (fun q hq => hb q (List.mem_cons_of_mem _ hq))]
    simp

/-- The mesh of the edges of a plane grid. -/
theorem faces2_spec {a b : Int} (h2 : ∀ n ∈ [a, b], 1 ≤ n) :
    ∃ faces : List (Nat × List Int), faces.Nodup ∧ (∀ x p, (x, p) ∈ faces ↔ IsFace [a, b] x p) ∧
      (faces.length : Int) = numberOfCellsOfSubLevelMesh (cellGridStructure [a, b]) ∧
      build1GTSub [a, b] = .ok ((faces.flatMap (faceNodes [a, b])).map some) := by
  have ha := h2 a (by simp)
  have hb := h2 b (by simp)
  let f0 : List Int → Nat × List Int := fun p => match p with | [j, i] => (0, [i, j]) | _ => (0, [])
  let f1 : List Int → Nat × List Int := fun p => (1, p)
  have d0 : ∀ d ∈ [b - 1, a], 0 ≤ d := by
    intro d hd; simp only [List.mem_cons, List.not_mem_nil, or_false] at hd; omega
  have d1 : ∀ d ∈ [a - 1, b], 0 ≤ d := by
    intro d hd; simp only [List.mem_cons, List.not_mem_nil, or_false] at hd; omega
  have n0 : (boxPos [b - 1, a]).Nodup := by
    have := (congrArg List.Nodup (boxPos_sorted d0)).mpr (List.Nodup.map (fun i j h => by omega) List.nodup_range)
    exact List.Nodup.of_map _ this
  have n1 : (boxPos [a - 1, b]).Nodup := by
    have := (congrArg List.Nodup (boxPos_sorted d1)).mpr (List.Nodup.map (fun i j h => by omega) List.nodup_range)
    exact List.Nodup.of_map _ this
  have p0 : 0 ≤ (b - 1) * a := Int.mul_nonneg (by omega) (by omega)
  have p1 : 0 ≤ (a - 1) * b := Int.mul_nonneg (by omega) (by omega)
  have hnum : numberOfCellsOfSubLevelMesh [a - 1, b - 1] = (b - 1) * a + (a - 1) * b := by
    simp [numberOfCellsOfSubLevelMesh, List.range_succ_eq_map]
    ring
  have l0 : (boxPos [b - 1, a]).length = ((b - 1) * a).toNat := by
    rw [length_boxPos d0]; simp
  have l1 : (boxPos [a - 1, b]).length = ((a - 1) * b).toNat := by
    rw [length_boxPos d1]; simp
  refine ⟨(boxPos [b - 1, a]).map f0 ++ (boxPos [a - 1, b]).map f1, ?_, ?_, ?_, ?_⟩
  · rw [List.nodup_append]
    refine ⟨?_, List.Nodup.map (fun x y h => (Prod.mk.inj h).2) n1, ?_⟩
    · rw [List.nodup_map_iff_inj_on n0]
      intro x hx y hy h
      match x, mem_boxPos.mp hx, y, mem_boxPos.mp hy with
      | [_, _], .cons _ (.cons _ .nil), [_, _], .cons _ (.cons _ .nil) =>
        simp only [f0, Prod.mk.injEq, List.cons.injEq, and_true, true_and] at h
        rw [h.1, h.2]
    · intro x hx y hy h
      obtain ⟨u, hu, rfl⟩ := List.mem_map.mp hx
      obtain ⟨v, _, rfl⟩ := List.mem_map.mp hy
      match u, mem_boxPos.mp hu with
      | [_, _], .cons _ (.cons _ .nil) => simp [f0, f1] at h
  · intro c p
    rw [List.mem_append, List.mem_map, List.mem_map]
    constructor
    · rintro (⟨q, hq, e⟩ | ⟨q, hq, e⟩)
      · match q, mem_boxPos.mp hq with
        | [j, i], .cons hj (.cons hi .nil) =>
          simp only [f0, Prod.mk.injEq] at e
          obtain ⟨rfl, rfl⟩ := e
          refine ⟨by simp, rfl, fun u hu hu' => ?_⟩
          match u, hu with
          | 0, _ => simp; omega
          | 1, _ => simp; omega
      · match q, mem_boxPos.mp hq with
        | [i, j], .cons hi (.cons hj .nil) =>
          simp only [f1, Prod.mk.injEq] at e
          obtain ⟨rfl, rfl⟩ := e
          refine ⟨by simp, rfl, fun u hu hu' => ?_⟩
          match u, hu with
          | 0, _ => simp; omega
          | 1, _ => simp; omega
    · rintro ⟨hc, hl, hp⟩
      match p, hl with
      | [i, j], _ =>
        have g0 := hp 0 (by simp) (by simp)
        have g1 := hp 1 (by simp) (by simp)
        match c, hc with
        | 0, _ =>
          simp at g0 g1
          exact Or.inl ⟨[j, i], mem_boxPos.mpr (.cons (by omega) (.cons (by omega) .nil)), rfl⟩
        | 1, _ =>
          simp at g0 g1
          exact Or.inr ⟨[i, j], mem_boxPos.mpr (.cons (by omega) (.cons (by omega) .nil)), rfl⟩
  · simp only [cellGridStructure, List.map_cons, List.map_nil, ← Int.sub_eq_add_neg]
    rw [hnum]
    simp only [List.length_append, List.length_map, l0, l1]
    omega
  · simp only [build1GTSub, hnum]
    have b0 : ∀ p ∈ boxPos [b - 1, a], (sub2BodyX a p).length = 2 := by
      intro p hp
      match p, mem_boxPos.mp hp with
      | [_, _], .cons _ (.cons _ .nil) => rfl
    have b1 : ∀ p ∈ boxPos [a - 1, b], (sub2BodyY a p).length = 2 := by
      intro p hp
      match p, mem_boxPos.mp hp with
      | [_, _], .cons _ (.cons _ .nil) => rfl
    have e0 := cpLoop_spec (n := (2 * ((b - 1) * a + (a - 1) * b)).toNat) d0 b0 [] (by simp; omega)
    have fl0 := length_flatMap_const b0
    have fl1 := length_flatMap_const b1
    have e1 := cpLoop_spec (n := (2 * ((b - 1) * a + (a - 1) * b)).toNat) d1 b1 ([] ++ (boxPos [b - 1, a]).flatMap (sub2BodyX a)) (by
      simp only [List.nil_append, fl0, l0, List.prod_cons, List.prod_nil, Int.mul_one]; omega)
    have st : (mallocN Int (2 * ((b - 1) * a + (a - 1) * b)).toNat, (0 : Int)) =
        ((filled ([] : List Int) (2 * ((b - 1) * a + (a - 1) * b)).toNat).1, (([] : List Int).length : Int)) := by simp [filled, mallocN]
    rw [st]
    have e0' := e0
    have e1' := e1
    simp only [Nat.cast_ofNat] at e0' e1'
    rw [e0', ok_bind, e1', ok_bind, filled_full]
    · congr 2
      rw [List.nil_append, List.flatMap_append, List.flatMap_map, List.flatMap_map]
      congr 1
      · apply List.flatMap_congr
        intro p hp
        match p, mem_boxPos.mp hp with
        | [j, i], .cons _ (.cons _ .nil) =>
          simp only [sub2BodyX, faceNodes, f0, faceCorners, List.length_cons, List.length_nil, List.map_cons, List.map_nil, shiftPos, List.zipWith_cons_cons,
            List.zipWith_nil_left, lin, List.cons.injEq, and_true]
          constructor <;> ring
      · apply List.flatMap_congr
        intro p hp
        match p, mem_boxPos.mp hp with
        | [i, j], .cons _ (.cons _ .nil) =>
          simp only [sub2BodyY, faceNodes, f1, faceCorners, List.length_cons, List.length_nil, List.map_cons, List.map_nil, shiftPos, List.zipWith_cons_cons,
            List.zipWith_nil_left, lin, List.cons.injEq, and_true]
          constructor <;> ring
    · simp only [List.nil_append, List.length_append, fl0, fl1, l0, l1]
      omega

set_option maxHeartbeats 1600000 in
/-- The mesh of the faces of a space grid. -/
theorem faces3_spec {a b c : Int} (h2 : ∀ n ∈ [a, b, c], 1 ≤ n) :
    ∃ faces : List (Nat × List Int), faces.Nodup ∧ (∀ x p, (x, p) ∈ faces ↔ IsFace [a, b, c] x p) ∧
      (faces.length : Int) = numberOfCellsOfSubLevelMesh (cellGridStructure [a, b, c]) ∧
      build1GTSub [a, b, c] = .ok ((faces.flatMap (faceNodes [a, b, c])).map some) := by
  have ha := h2 a (by simp)
  have hb := h2 b (by simp)
  have hc := h2 c (by simp)
  let f0 : List Int → Nat × List Int := fun p => match p with | [k, j, i] => (0, [i, j, k]) | _ => (0, [])
  let f1 : List Int → Nat × List Int := fun p => match p with | [k, i, j] => (1, [i, j, k]) | _ => (1, [])
  let f2 : List Int → Nat × List Int := fun p => match p with | [j, i, k] => (2, [i, j, k]) | _ => (2, [])
  have d0 : ∀ d ∈ [c - 1, b - 1, a], 0 ≤ d := by
    intro d hd; simp only [List.mem_cons, List.not_mem_nil, or_false] at hd; omega
  have d1 : ∀ d ∈ [c - 1, a - 1, b], 0 ≤ d := by
    intro d hd; simp only [List.mem_cons, List.not_mem_nil, or_false] at hd; omega
  have d2 : ∀ d ∈ [b - 1, a - 1, c], 0 ≤ d := by
    intro d hd; simp only [List.mem_cons, List.not_mem_nil, or_false] at hd; omega
  have nd : ∀ l : List Int, (∀ d ∈ l, 0 ≤ d) → (boxPos l).Nodup := by
    intro l hl
    have := (congrArg List.Nodup (boxPos_sorted hl)).mpr (List.Nodup.map (fun i j h => by omega) List.nodup_range)
    exact List.Nodup.of_map _ this
  have hnum : numberOfCellsOfSubLevelMesh [a - 1, b - 1, c - 1] = (c - 1) * ((b - 1) * a) + (c - 1) * ((a - 1) * b) + (b - 1) * ((a - 1) * c) := by
    simp [numberOfCellsOfSubLevelMesh, List.range_succ_eq_map]
    ring
  have p0 : 0 ≤ (c - 1) * ((b - 1) * a) := Int.mul_nonneg (by omega) (Int.mul_nonneg (by omega) (by omega))
  have p1 : 0 ≤ (c - 1) * ((a - 1) * b) := Int.mul_nonneg (by omega) (Int.mul_nonneg (by omega) (by omega))
  have p2 : 0 ≤ (b - 1) * ((a - 1) * c) := Int.mul_nonneg (by omega) (Int.mul_nonneg (by omega) (by omega))
  have l0 : (boxPos [c - 1, b - 1, a]).length = ((c - 1) * ((b - 1) * a)).toNat := by
    rw [length_boxPos d0]; simp
  have l1 : (boxPos [c - 1, a - 1, b]).length = ((c - 1) * ((a - 1) * b)).toNat := by
    rw [length_boxPos d1]; simp
  have l2 : (boxPos [b - 1, a - 1, c]).length = ((b - 1) * ((a - 1) * c)).toNat := by
    rw [length_boxPos d2]; simp
  have q0 : ([c - 1, b - 1, a] : List Int).prod = (c - 1) * ((b - 1) * a) := by simp
  have q1 : ([c - 1, a - 1, b] : List Int).prod = (c - 1) * ((a - 1) * b) := by simp
  have q2 : ([b - 1, a - 1, c] : List Int).prod = (b - 1) * ((a - 1) * c) := by simp
  generalize (c - 1) * ((b - 1) * a) = P0 at *
  generalize (c - 1) * ((a - 1) * b) = P1 at *
  generalize (b - 1) * ((a - 1) * c) = P2 at *
  refine ⟨(boxPos [c - 1, b - 1, a]).map f0 ++ ((boxPos [c - 1, a - 1, b]).map f1 ++ (boxPos [b - 1, a - 1, c]).map f2), ?_, ?_, ?_, ?_⟩
  · have inj : ∀ (f : List Int → Nat × List Int) (l : List Int), (∀ d ∈ l, 0 ≤ d) →
        (∀ x ∈ boxPos l, ∀ y ∈ boxPos l, f x = f y → x = y) → ((boxPos l).map f).Nodup := by
      intro f l hl hf
      rw [List.nodup_map_iff_inj_on (nd l hl)]
      exact fun x hx y hy => hf x hx y hy
    have ax0 : ∀ x ∈ (boxPos [c - 1, b - 1, a]).map f0, x.1 = 0 := by
      intro x hx
      obtain ⟨u, hu, rfl⟩ := List.mem_map.mp hx
      match u, mem_boxPos.mp hu with
      | [_, _, _], .cons _ (.cons _ (.cons _ .nil)) => rfl
    have ax1 : ∀ x ∈ (boxPos [c - 1, a - 1, b]).map f1, x.1 = 1 := by
      intro x hx
      obtain ⟨u, hu, rfl⟩ := List.mem_map.mp hx
      match u, mem_boxPos.mp hu with
      | [_, _, _], .cons _ (.cons _ (.cons _ .nil)) => rfl
    have ax2 : ∀ x ∈ (boxPos [b - 1, a - 1, c]).map f2, x.1 = 2 := by
      intro x hx
      obtain ⟨u, hu, rfl⟩ := List.mem_map.mp hx
      match u, mem_boxPos.mp hu with
      | [_, _, _], .cons _ (.cons _ (.cons _ .nil)) => rfl
    rw [List.nodup_append, List.nodup_append]
    refine ⟨inj f0 _ d0 ?_, ⟨inj f1 _ d1 ?_, inj f2 _ d2 ?_, ?_⟩, ?_⟩
    · intro x hx y hy h
      match x, mem_boxPos.mp hx, y, mem_boxPos.mp hy with
      | [_, _, _], .cons _ (.cons _ (.cons _ .nil)), [_, _, _], .cons _ (.cons _ (.cons _ .nil)) =>
        simp only [f0, Prod.mk.injEq, List.cons.injEq, and_true, true_and] at h
        rw [h.1, h.2.1, h.2.2]
    · intro x hx y hy h
      match x, mem_boxPos.mp hx, y, mem_boxPos.mp hy with
      | [_, _, _], .cons _ (.cons _ (.cons _ .nil)), [_, _, _], .cons _ (.cons _ (.cons _ .nil)) =>
        simp only [f1, Prod.mk.injEq, List.cons.injEq, and_true, true_and] at h
        rw [h.1, h.2.1, h.2.2]
    · intro x hx y hy h
      match x, mem_boxPos.mp hx, y, mem_boxPos.mp hy with
      | [_, _, _], .cons _ (.cons _ (.cons _ .nil)), [_, _, _], .cons _ (.cons _ (.cons _ .nil)) =>
        simp only [f2, Prod.mk.injEq, List.cons.injEq, and_true, true_and] at h
        rw [h.1, h.2.1, h.2.2]
    · intro x hx y hy h
      have e1 := ax1 x hx
      have e2 := ax2 y hy
      rw [h] at e1
      omega
    · intro x hx y hy h
      have e1 := ax0 x hx
      rw [h] at e1
      rcases List.mem_append.mp hy with hy | hy
      · have e2 := ax1 y hy; omega
      · have e2 := ax2 y hy; omega
  · intro ax p
    rw [List.mem_append, List.mem_append, List.mem_map, List.mem_map, List.mem_map]
    constructor
    · rintro (⟨q, hq, e⟩ | ⟨q, hq, e⟩ | ⟨q, hq, e⟩)
      all_goals
        match q, mem_boxPos.mp hq with
        | [_, _, _], .cons h1 (.cons h2 (.cons h3 .nil)) =>
          simp only [f0, f1, f2, Prod.mk.injEq] at e
          obtain ⟨rfl, rfl⟩ := e
          refine ⟨by simp, rfl, fun u hu hu' => ?_⟩
          match u, hu with
          | 0, _ => simp; omega
          | 1, _ => simp; omega
          | 2, _ => simp; omega
    · rintro ⟨hc, hl, hp⟩
      match p, hl with
      | [i, j, k], _ =>
        have g0 := hp 0 (by simp) (by simp)
        have g1 := hp 1 (by simp) (by simp)
        have g2 := hp 2 (by simp) (by simp)
        match ax, hc with
        | 0, _ =>
          simp at g0 g1 g2
          exact Or.inl ⟨[k, j, i], mem_boxPos.mpr (.cons (by omega) (.cons (by omega) (.cons (by omega) .nil))), rfl⟩
        | 1, _ =>
          simp at g0 g1 g2
          exact Or.inr (Or.inl ⟨[k, i, j], mem_boxPos.mpr (.cons (by omega) (.cons (by omega) (.cons (by omega) .nil))), rfl⟩)
        | 2, _ =>
          simp at g0 g1 g2
          exact Or.inr (Or.inr ⟨[j, i, k], mem_boxPos.mpr (.cons (by omega) (.cons (by omega) (.cons (by omega) .nil))), rfl⟩)
  · simp only [cellGridStructure, List.map_cons, List.map_nil, ← Int.sub_eq_add_neg]
    rw [hnum]
    simp only [List.length_append, List.length_map, l0, l1, l2]
    omega
  · simp only [build1GTSub, hnum]
    have b0 : ∀ p ∈ boxPos [c - 1, b - 1, a], (sub3BodyX a (a * b) p).length = 4 := by
      intro p hp
      match p, mem_boxPos.mp hp with
      | [_, _, _], .cons _ (.cons _ (.cons _ .nil)) => rfl
    have b1 : ∀ p ∈ boxPos [c - 1, a - 1, b], (sub3BodyY a (a * b) p).length = 4 := by
      intro p hp
      match p, mem_boxPos.mp hp with
      | [_, _, _], .cons _ (.cons _ (.cons _ .nil)) => rfl
    have b2 : ∀ p ∈ boxPos [b - 1, a - 1, c], (sub3BodyZ a (a * b) p).length = 4 := by
      intro p hp
      match p, mem_boxPos.mp hp with
      | [_, _, _], .cons _ (.cons _ (.cons _ .nil)) => rfl
    have fl0 := length_flatMap_const b0
    have fl1 := length_flatMap_const b1
    have fl2 := length_flatMap_const b2
    generalize hN : (4 * (P0 + P1 + P2)).toNat = N
    have e0 := cpLoop_spec (n := N) d0 b0 [] (by rw [q0]; simp; omega)
    have e1 := cpLoop_spec (n := N) d1 b1 ([] ++ (boxPos [c - 1, b - 1, a]).flatMap (sub3BodyX a (a * b))) (by
      rw [q1]; simp only [List.nil_append, fl0, l0]; omega)
    have e2 := cpLoop_spec (n := N) d2 b2 ([] ++ (boxPos [c - 1, b - 1, a]).flatMap (sub3BodyX a (a * b)) ++
      (boxPos [c - 1, a - 1, b]).flatMap (sub3BodyY a (a * b))) (by
      rw [q2]; simp only [List.nil_append, List.length_append, fl0, fl1, l0, l1]; omega)
    have st : (mallocN Int N, (0 : Int)) = ((filled ([] : List Int) N).1, (([] : List Int).length : Int)) := by simp [filled, mallocN]
    rw [st]
    have e0' := e0
    have e1' := e1
    have e2' := e2
    simp only [Nat.cast_ofNat] at e0' e1' e2'
    rw [e0', ok_bind, e1', ok_bind, e2', ok_bind, filled_full]
    · congr 2
      rw [List.nil_append, List.append_assoc, List.flatMap_append, List.flatMap_append, List.flatMap_map, List.flatMap_map, List.flatMap_map]
      congr 1
      · apply List.flatMap_congr
        intro p hp
        match p, mem_boxPos.mp hp with
        | [k, j, i], .cons _ (.cons _ (.cons _ .nil)) =>
          simp only [sub3BodyX, faceNodes, f0, faceCorners, List.length_cons, List.length_nil, List.map_cons, List.map_nil, shiftPos, List.zipWith_cons_cons,
            List.zipWith_nil_left, lin, List.cons.injEq, and_true]
          refine ⟨?_, ?_, ?_, ?_⟩ <;> ring
      · congr 1
        · apply List.flatMap_congr
          intro p hp
          match p, mem_boxPos.mp hp with
          | [k, i, j], .cons _ (.cons _ (.cons _ .nil)) =>
            simp only [sub3BodyY, faceNodes, f1, faceCorners, List.length_cons, List.length_nil, List.map_cons, List.map_nil, shiftPos, List.zipWith_cons_cons,
              List.zipWith_nil_left, lin, List.cons.injEq, and_true]
            refine ⟨?_, ?_, ?_, ?_⟩ <;> ring
        · apply List.flatMap_congr
          intro p hp
          match p, mem_boxPos.mp hp with
          | [j, i, k], .cons _ (.cons _ (.cons _ .nil)) =>
            simp only [sub3BodyZ, faceNodes, f2, faceCorners, List.length_cons, List.length_nil, List.map_cons, List.map_nil, shiftPos, List.zipWith_cons_cons,
              List.zipWith_nil_left, lin, List.cons.injEq, and_true]
            refine ⟨?_, ?_, ?_, ?_⟩ <;> ring
    · simp only [List.nil_append, List.length_append, fl0, fl1, fl2, l0, l1, l2]
      omega

/-- **C45** `Build1GTNodalConnectivityOfSubLevelMesh` (the mesh of the faces of the grid): the tuples are the nodes of the faces of the grid, each
face exactly once. -/
theorem C45_faces {ngs : List Int} (hd : ngs.length = 2 ∨ ngs.length = 3) (h2 : ∀ n ∈ ngs, 1 ≤ n) :
    ∃ faces : List (Nat × List Int), faces.Nodup ∧ (∀ a p, (a, p) ∈ faces ↔ IsFace ngs a p) ∧
      (faces.length : Int) = numberOfCellsOfSubLevelMesh (cellGridStructure ngs) ∧
      build1GTSub ngs = .ok ((faces.flatMap (faceNodes ngs)).map some) := by
  match ngs, hd, h2 with
  | [_, _], _, h2 => exact faces2_spec h2
  | [_, _, _], _, h2 => exact faces3_spec h2
  | [], hd, _ => simp at hd
  | [_], hd, _ => simp at hd
  | _ :: _ :: _ :: _ :: _, hd, _ => simp at hd

example : build1GTSub [2, 2] = .ok [some 0, some 2, some 1, some 3, some 0, some 1, some 2, some 3] ∧
    numberOfCellsOfSubLevelMesh [2, 1, 1] = 11 := ⟨rfl, rfl⟩

end MC
