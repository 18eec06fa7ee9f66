import Verif.BBClosestProps

/-!
# Runs, findings, blocks and serialisation of the tree of closest boxes (C78)
-/

namespace MC
section
variable {K : Type} [CommRing K] [LinearOrder K] [IsStrictOrderedRing K]

/-- a `std::nth_element` which sorts everything -/
def sortArrange (keys : List K) : List Nat := (List.range keys.length).insertionSort fun a b => keys.getD a 0 ≤ keys.getD b 0

omit [IsStrictOrderedRing K] in
theorem sortArrange_ok : IsArrange (sortArrange (K := K)) := fun _ => List.perm_insertionSort _ _

/-- 30 boxes of the line: 14 wide ones `[0, 100 + 2 i]`, the point 101, the point 200, 14 far points -/
def staleBoxes : List Int :=
  ((List.range 14).flatMap fun i => [0, 100 + 2 * (i : Int)]) ++ [101, 101, 200, 200] ++ (List.range 14).flatMap fun i => [10000 + (i : Int), 10000 + (i : Int)]

set_option maxRecDepth 100000 in
theorem stale_run : candidatesClosestTo 1 [199, -50] 2 staleBoxes 30 sortArrange 1000000000 =
    .ok ([15, 0, 1, 2, 3, 4, 5, 6, 0, 1, 2, 3, 4, 5, 6, 7, 8, 9, 10, 11, 12, 13, 14, 7, 8, 9, 10, 11, 12, 13], [0, 1, 30]) := by decide

/-- the hypotheses of `C78_candidates` hold on these boxes -/
theorem stale_hyps : (∀ e, e < 30 → ValidBox (boxOf 1 staleBoxes e)) ∧ 30 * 1 * 2 ≤ staleBoxes.length ∧
    ∀ i, i < 2 → ∃ e, e < 30 ∧ ∀ q, PtIn q (boxOf 1 staleBoxes e) → sqDist (pointOf 1 [199, -50] i) q ≤ 1000000000 := by
  refine ⟨?_, by decide, ?_⟩
  · unfold ValidBox; decide
  · intro i hi
    refine ⟨14, by decide, fun q hq => ?_⟩
    have hb : boxOf 1 staleBoxes 14 = [(101, 101)] := by decide
    rw [hb] at hq
    obtain _ | ⟨h, hq⟩ := hq
    obtain _ | _ := hq
    have : i = 0 ∨ i = 1 := by omega
    rcases this with rfl | rfl
    · have hp : pointOf 1 [(199 : Int), -50] 0 = [199] := by decide
      rw [hp]
      simp only [sqDist, List.zipWith_cons_cons, List.zipWith_nil_right, List.sum_cons, List.sum_nil]
      nlinarith [h.1, h.2]
    · have hp : pointOf 1 [(199 : Int), -50] 1 = [-50] := by decide
      rw [hp]
      simp only [sqDist, List.zipWith_cons_cons, List.zipWith_nil_right, List.sum_cons, List.sum_nil]
      nlinarith [h.1, h.2]

/-- Finding: from the second point on, `candidatesClosestTo` may return boxes left over from a previous point.  On 30 boxes of the line and
the points 199 and -50, box 14 is returned for the second point though it lies wholly beyond box 0, and box 0 is returned twice.  The second
point alone gets the right answer. -/
theorem C78_stale_candidates : ∃ ids, candidatesClosestTo 1 [199, -50] 2 staleBoxes 30 sortArrange 1000000000 = .ok (ids, [0, 1, 30]) ∧
    14 ∈ ids.drop 1 ∧ ¬ IsCandidate 1 staleBoxes 30 [-50] 14 ∧ (ids.drop 1).count 0 = 2 ∧
    candidatesClosestTo 1 [-50] 1 staleBoxes 30 sortArrange 1000000000 = .ok (List.range 14, [0, 14]) := by
  refine ⟨_, stale_run, by decide, ?_, by decide, ?_⟩
  · rintro ⟨q, hq, h⟩
    obtain ⟨q', hq', h⟩ := h 0 (by decide)
    have hb : boxOf 1 staleBoxes 14 = [(101, 101)] := by decide
    have hb' : boxOf 1 staleBoxes 0 = [(0, 100)] := by decide
    rw [hb] at hq
    rw [hb'] at hq'
    obtain _ | ⟨a, hq⟩ := hq
    obtain _ | _ := hq
    obtain _ | ⟨b, hq'⟩ := hq'
    obtain _ | _ := hq'
    simp only [sqDist, List.zipWith_cons_cons, List.zipWith_nil_right, List.sum_cons, List.sum_nil] at h
    nlinarith [a.1, a.2, b.1, b.2]
  · set_option maxRecDepth 100000 in decide

/-! ## Blocks -/

/-- the leaves from left to right -/
def CT.leaves {K : Type} : CT K → List (CT K)
  | .leaf b es mn c => [.leaf b es mn c]
  | .node _ _ l r => l.leaves ++ r.leaves

omit [CommRing K] [LinearOrder K] [IsStrictOrderedRing K] in
theorem leafIter_ok : ∀ (fuel : Nat) (st : List (CT K)), (st.map CT.nodes).sum ≤ fuel → leafIter fuel st = .ok (st.flatMap CT.leaves)
  | _, [], _ => by unfold leafIter; rfl
  | 0, .leaf b es mn c :: st, h => by simp [CT.nodes] at h
  | 0, .node b mn l r :: st, h => by simp [CT.nodes] at h
  | fuel + 1, .leaf b es mn c :: st, h => by
    unfold leafIter
    simp only [List.map_cons, List.sum_cons, CT.nodes] at h
    rw [leafIter_ok fuel st (by omega), ok_bind]
    rfl
  | fuel + 1, .node b mn l r :: st, h => by
    unfold leafIter
    simp only [List.map_cons, List.sum_cons, CT.nodes] at h
    rw [leafIter_ok fuel (l :: r :: st) (by simp only [List.map_cons, List.sum_cons]; omega)]
    simp [CT.leaves]

/-- what `bboxMinOfMaxes` must leave in its argument -/
def IsBlockMin (inBox : List (K × K)) (leaves : List (CT K)) (res r : K) : Prop :=
  r ≤ res ∧ (∀ lf ∈ leaves, ∃ p q, PtIn p inBox ∧ PtIn q lf.box ∧ r ≤ sqDist p q) ∧
    (r = res ∨ ∃ lf ∈ leaves, (∀ p q, PtIn p inBox → PtIn q lf.box → sqDist p q ≤ r) ∧ ∃ p q, PtIn p inBox ∧ PtIn q lf.box ∧ sqDist p q = r)

theorem bboxMin_ok {inBox : List (K × K)} (hi : inBox ≠ []) (vi : ValidBox inBox) : ∀ (t : CT K) (res : K),
    (∀ lf ∈ t.leaves, lf.box.length = inBox.length ∧ ValidBox lf.box) → ∃ r, bboxMinOfMaxes inBox t res = .ok r ∧ IsBlockMin inBox t.leaves res r
  | .leaf b es mn c, res, hv => by
    obtain ⟨h1, h2⟩ := hv _ List.mem_cons_self
    obtain ⟨mn', mx, e1, e2, e3, e4⟩ := C78_box_box (as := inBox) (bs := b) h1.symm hi vi h2
    unfold bboxMinOfMaxes
    rw [e1, ok_bind]
    refine ⟨_, rfl, min_le_left _ _, ?_, ?_⟩
    · intro lf hlf
      rw [List.mem_singleton.mp hlf]
      obtain ⟨p, q, p1, p2, p3⟩ := e4
      exact ⟨p, q, p1, p2, by rw [p3]; exact min_le_right _ _⟩
    · rcases min_choice res mx with h | h
      · exact Or.inl h
      · refine Or.inr ⟨_, List.mem_singleton.mpr rfl, ?_, ?_⟩
        · intro p q hp hq
          rw [h]; exact (e2 p q hp hq).2
        · rw [h]; exact e4
  | .node b mn l r, res, hv => by
    obtain ⟨x, x1, x2, x3, x4⟩ := bboxMin_ok hi vi l res fun lf hlf => hv lf (List.mem_append_left _ hlf)
    obtain ⟨y, y1, y2, y3, y4⟩ := bboxMin_ok hi vi r x fun lf hlf => hv lf (List.mem_append_right _ hlf)
    unfold bboxMinOfMaxes
    rw [x1, ok_bind, y1]
    refine ⟨y, rfl, le_trans y2 x2, ?_, ?_⟩
    · intro lf hlf
      rcases List.mem_append.mp hlf with hlf | hlf
      · obtain ⟨p, q, p1, p2, p3⟩ := x3 lf hlf
        exact ⟨p, q, p1, p2, le_trans y2 p3⟩
      · exact y3 lf hlf
    · rcases y4 with h | ⟨lf, hlf, h⟩
      · rcases x4 with h' | ⟨lf, hlf, h'⟩
        · exact Or.inl (h.trans h')
        · exact Or.inr ⟨lf, List.mem_append_left _ hlf, by rw [h]; exact h'⟩
      · exact Or.inr ⟨lf, List.mem_append_right _ hlf, h⟩

/-- C78: on the blocks of a tree, the iteration visits each leaf once from left to right; `bboxMinOfMaxes` lowers the given value to the
smallest, over the leaves, of the largest distance between the given box and the box of the leaf; `bboxSelect` returns exactly the leaves
which have a point under the threshold. -/
theorem C78_blocks {inBox : List (K × K)} (hi : inBox ≠ []) (vi : ValidBox inBox) (t : CT K) (hv : ∀ lf ∈ t.leaves, lf.box.length = inBox.length ∧ ValidBox lf.box) :
    leafIter t.nodes [t] = .ok t.leaves ∧ (∀ res, ∃ r, bboxMinOfMaxes inBox t res = .ok r ∧ IsBlockMin inBox t.leaves res r) ∧
      ∀ thres, ∃ sel, bboxSelect inBox t thres = .ok sel ∧ sel.Sublist t.leaves ∧
        ∀ lf, lf ∈ sel ↔ lf ∈ t.leaves ∧ ∃ p q, PtIn p inBox ∧ PtIn q lf.box ∧ sqDist p q < thres := by
  have hit : leafIter t.nodes [t] = .ok t.leaves := by
    rw [leafIter_ok _ _ (by simp)]; simp
  refine ⟨hit, fun res => bboxMin_ok hi vi t res hv, fun thres => ?_⟩
  unfold bboxSelect
  rw [hit, ok_bind]
  have : ∀ (ls : List (CT K)) (sel : List (CT K)), (∀ lf ∈ ls, lf.box.length = inBox.length ∧ ValidBox lf.box) → ∃ s : List (CT K),
      ls.foldlM (fun sel leaf => do
        let r ← highLevelBBDist inBox leaf.box
        (.ok (if r.1 < thres then sel ++ [leaf] else sel) : M (List (CT K)))) sel = .ok (sel ++ s) ∧ s.Sublist ls ∧
      ∀ lf, lf ∈ s ↔ lf ∈ ls ∧ ∃ p q, PtIn p inBox ∧ PtIn q lf.box ∧ sqDist p q < thres := by
    intro ls
    induction ls with
    | nil => intro sel _; exact ⟨[], by simp; rfl, List.Sublist.refl _, by simp⟩
    | cons lf ls ih =>
      intro sel hv
      obtain ⟨h1, h2⟩ := hv lf List.mem_cons_self
      obtain ⟨mn, mx, e1, e2, e3, e4⟩ := C78_box_box (as := inBox) (bs := lf.box) h1.symm hi vi h2
      have hiff : mn < thres ↔ ∃ p q, PtIn p inBox ∧ PtIn q lf.box ∧ sqDist p q < thres := by
        constructor
        · intro h
          obtain ⟨p, q, p1, p2, p3⟩ := e3
          exact ⟨p, q, p1, p2, p3 ▸ h⟩
        · rintro ⟨p, q, p1, p2, p3⟩
          exact lt_of_le_of_lt (e2 p q p1 p2).1 p3
      rw [List.foldlM_cons, e1, ok_bind, ok_bind]
      simp only
      by_cases c : mn < thres
      · rw [if_pos c]
        obtain ⟨s, s1, s2, s3⟩ := ih (sel ++ [lf]) fun x hx => hv x (List.mem_cons_of_mem _ hx)
        refine ⟨lf :: s, by rw [s1]; simp, s2.cons_cons _, fun x => ?_⟩
        rw [List.mem_cons, List.mem_cons, s3]
        constructor
        · rintro (rfl | h)
          · exact ⟨Or.inl rfl, hiff.mp c⟩
          · exact ⟨Or.inr h.1, h.2⟩
        · rintro ⟨rfl | h, h'⟩
          · exact Or.inl rfl
          · exact Or.inr ⟨h, h'⟩
      · rw [if_neg c]
        obtain ⟨s, s1, s2, s3⟩ := ih sel fun x hx => hv x (List.mem_cons_of_mem _ hx)
        refine ⟨s, s1, s2.cons _, fun x => ?_⟩
        rw [List.mem_cons, s3]
        constructor
        · rintro ⟨h, h'⟩; exact ⟨Or.inr h, h'⟩
        · rintro ⟨rfl | h, h'⟩
          · exact absurd (hiff.mpr h') c
          · exact ⟨h, h'⟩
  obtain ⟨s, s1, s2, s3⟩ := this t.leaves [] hv
  rw [List.nil_append] at s1
  exact ⟨s, s1, s2, s3⟩

/-- Finding: when the boxes are single points, the threshold computed by `bboxMinOfMaxes` makes `bboxSelect` drop the closest block. -/
theorem C78_blocks_points_lost : bboxMinOfMaxes [((2 : Int), 2)] (.leaf [(5, 5)] [0] 0 []) 1000 = .ok 9 ∧
    bboxSelect [((2 : Int), 2)] (.leaf [(5, 5)] [0] 0 []) 9 = .ok [] := by decide

example : (do
    let t ← ctBuild 1 staleBoxes sortArrange 1000000000 14 0 (List.range 30)
    let r ← bboxMinOfMaxes [(198, 199)] t 1000000000
    let s ← bboxSelect [(198, 199)] t r
    .ok (t.leaves.map CT.box, r, s.map CT.box) : M _) =
      .ok ([[(0, 112)], [(0, 126)], [(200, 10005)], [(10006, 10013)]], 39601, [[(0, 112)], [(0, 126)], [(200, 10005)]]) := by
  set_option maxRecDepth 100000 in decide

/-! ## Serialisation -/

/-- a tree as it is after a compact serialisation: no elements -/
def CT.bare (big : K) : CT K → CT K
  | .leaf b _ _ _ => .leaf b [] (-big) []
  | .node b _ l r => .node b (-big) (l.bare big) (r.bare big)

omit [CommRing K] [LinearOrder K] [IsStrictOrderedRing K] in
theorem compact_lengths : ∀ t : CT K, (ctSerializeCompact t).1.length = t.nodes ∧ (ctSerializeCompact t).2.length = t.nodes
  | .leaf _ _ _ _ => ⟨rfl, rfl⟩
  | .node _ _ l r => by
    have h1 := compact_lengths l
    have h2 := compact_lengths r
    simp only [ctSerializeCompact, List.length_cons, List.length_append, CT.nodes]
    omega

omit [LinearOrder K] [IsStrictOrderedRing K] in
theorem deserializeCompact_aux {big : K} : ∀ (t : CT K) (fuel : Nat) (ps pt : List Bool) (pb qb : List (List (K × K))), t.nodes ≤ fuel → ps.length = pb.length →
    ctDeserializeCompactAux big (ps ++ ((ctSerializeCompact t).1 ++ pt)) (pb ++ ((ctSerializeCompact t).2 ++ qb)) fuel ps.length =
      .ok (t.bare big, ps.length + t.nodes)
  | .leaf b es mn c, 0, _, _, _, _, h, _ => by simp [CT.nodes] at h
  | .node b mn l r, 0, _, _, _, _, h, _ => by simp [CT.nodes] at h
  | .leaf b es mn c, fuel + 1, ps, pt, pb, qb, _, hl => by
    unfold ctDeserializeCompactAux
    have h1 : rd (pb ++ ((ctSerializeCompact (CT.leaf b es mn c)).2 ++ qb)) ((ps.length : Nat) : Int) = .ok b :=
      rd_of_getElem? (Int.natCast_nonneg _) (by simp [ctSerializeCompact, hl])
    have h2 : rd (ps ++ ((ctSerializeCompact (CT.leaf b es mn c)).1 ++ pt)) ((ps.length : Nat) : Int) = .ok false :=
      rd_of_getElem? (Int.natCast_nonneg _) (by simp [ctSerializeCompact])
    rw [h1, ok_bind, h2, ok_bind, if_pos rfl]
    rfl
  | .node b mn l r, fuel + 1, ps, pt, pb, qb, hf, hl => by
    unfold ctDeserializeCompactAux
    have h1 : rd (pb ++ ((ctSerializeCompact (CT.node b mn l r)).2 ++ qb)) ((ps.length : Nat) : Int) = .ok b :=
      rd_of_getElem? (Int.natCast_nonneg _) (by simp [ctSerializeCompact, hl])
    have h2 : rd (ps ++ ((ctSerializeCompact (CT.node b mn l r)).1 ++ pt)) ((ps.length : Nat) : Int) = .ok true :=
      rd_of_getElem? (Int.natCast_nonneg _) (by simp [ctSerializeCompact])
    have hn : 1 + l.nodes + r.nodes ≤ fuel + 1 := hf
    rw [h1, ok_bind, h2, ok_bind, if_neg (by decide)]
    have a1 := deserializeCompact_aux (big := big) l fuel (ps ++ [true]) ((ctSerializeCompact r).1 ++ pt) (pb ++ [b]) ((ctSerializeCompact r).2 ++ qb) (by omega)
      (by simp [hl])
    have a2 := deserializeCompact_aux (big := big) r fuel (ps ++ [true] ++ (ctSerializeCompact l).1) pt (pb ++ [b] ++ (ctSerializeCompact l).2) qb (by omega)
      (by simp [hl, compact_lengths])
    simp only [List.append_assoc, List.length_append, List.length_cons, List.length_nil, compact_lengths, List.cons_append, List.nil_append, Nat.zero_add] at a1 a2
    simp only [ctSerializeCompact, List.cons_append, List.append_assoc]
    rw [a1, ok_bind]
    simp only
    rw [show ps.length + 1 + l.nodes = ps.length + (l.nodes + 1) by omega, a2, ok_bind]
    simp only [CT.bare, CT.nodes]
    congr 2
    omega

omit [LinearOrder K] [IsStrictOrderedRing K] in
/-- C78: a tree sent in compact form is rebuilt with the same nodes and boxes. -/
theorem C78_compact_roundtrip (big : K) (t : CT K) : ctDeserializeCompact big (ctSerializeCompact t).1 (ctSerializeCompact t).2 = .ok (t.bare big) := by
  have := deserializeCompact_aux (big := big) t ((ctSerializeCompact t).1.length + 1) [] [] [] [] (by rw [(compact_lengths t).1]; omega) rfl
  simp only [List.nil_append, List.append_nil, List.length_nil] at this
  unfold ctDeserializeCompact
  rw [this, ok_bind]

example : ctDeserializeCompact (9 : Int) [true, false, true, false, false] [[(0, 9)], [(0, 1)], [(2, 9)], [(2, 3)], [(4, 9)]] =
    .ok (.node [(0, 9)] (-9) (.leaf [(0, 1)] [] (-9) []) (.node [(2, 9)] (-9) (.leaf [(2, 3)] [] (-9) []) (.leaf [(4, 9)] [] (-9) []))) := by decide

theorem rdRange_ok {data : List Nat} {a sz : Nat} (h : a + sz ≤ data.length) : rdRange data a sz = .ok ((data.drop a).take sz) := by
  unfold rdRange
  have : ∀ sz, a + sz ≤ data.length → (List.range sz).mapM (fun k => rd data ((a + k : Nat) : Int)) = .ok ((data.drop a).take sz) := by
    intro sz
    induction sz with
    | zero => intro _; simp; rfl
    | succ sz ih =>
      intro h
      have hr : rd data ((a + sz : Nat) : Int) = .ok data[a + sz] := rd_natCast (by omega)
      rw [List.range_succ, List.mapM_append, ih (by omega), ok_bind, List.mapM_cons, hr, List.take_add_one]
      simp [List.getElem?_drop, List.getElem?_eq_getElem (show a + sz < data.length by omega)]
  exact this sz h

omit [LinearOrder K] [IsStrictOrderedRing K] in
/-- Finding: a tree with two leaves is not rebuilt by the full deserialisation: the elements are read at the position of the structure instead
of the position of the elements.  The first leaf loses its first element and gets the number of elements of the second one. -/
theorem C78_deserialize_wrong (big : K) (b b1 b2 : List (K × K)) (es1 es2 : List Nat) (h1 : 2 ≤ es1.length) :
    ∃ es2', ctDeserialize big (ctSerialize (.node b (-big) (.leaf b1 es1 (-big) []) (.leaf b2 es2 (-big) []))).1
        (ctSerialize (.node b (-big) (.leaf b1 es1 (-big) []) (.leaf b2 es2 (-big) []))).2.1
        (ctSerialize (.node b (-big) (.leaf b1 es1 (-big) []) (.leaf b2 es2 (-big) []))).2.2 =
      .ok (.node b (-big) (.leaf b1 (es1.drop 1 ++ [es2.length]) (-big) []) (.leaf b2 es2' (-big) [])) := by
  simp only [ctSerialize, List.cons_append, List.nil_append]
  unfold ctDeserialize ctDeserializeAux
  have hlen : (es1.length :: (es1 ++ es2.length :: es2)).length = es1.length + es2.length + 2 := by simp; omega
  have r0 : rd [b, b1, b2] ((0 : Nat) : Int) = .ok b := rfl
  have s0 : rd [true, false, false] ((0 : Nat) : Int) = .ok true := rfl
  rw [r0, ok_bind, s0, ok_bind, if_neg (by decide)]
  simp only [List.length_cons, List.length_nil]
  unfold ctDeserializeAux
  have r1 : rd [b, b1, b2] ((0 + 1 : Nat) : Int) = .ok b1 := rfl
  have s1 : rd [true, false, false] ((0 + 1 : Nat) : Int) = .ok false := rfl
  have d1 : rd (es1.length :: (es1 ++ es2.length :: es2)) ((0 : Nat) : Int) = .ok es1.length := rfl
  have x1 : rdRange (es1.length :: (es1 ++ es2.length :: es2)) (0 + 1 + 1) es1.length = .ok (es1.drop 1 ++ [es2.length]) := by
    rw [rdRange_ok (by rw [hlen]; omega)]
    congr 1
    rw [List.drop_succ_cons, List.drop_append_of_le_length (by omega)]
    have : es1.length = (es1.drop (0 + 1)).length + 1 := by rw [List.length_drop]; omega
    rw [this, List.take_length_add_append]
    rfl
  rw [r1, ok_bind, s1, ok_bind, if_pos rfl, d1, ok_bind, x1, ok_bind, ok_bind]
  have r2 : rd [b, b1, b2] ((0 + 1 + 1 : Nat) : Int) = .ok b2 := rfl
  have s2 : rd [true, false, false] ((0 + 1 + 1 : Nat) : Int) = .ok false := rfl
  have d2 : rd (es1.length :: (es1 ++ es2.length :: es2)) ((0 + 1 + es1.length : Nat) : Int) = .ok es2.length :=
    rd_of_getElem? (Int.natCast_nonneg _) (by rw [Int.toNat_natCast, show 0 + 1 + es1.length = es1.length + 1 by omega, List.getElem?_cons_succ]; simp)
  simp only
  rw [r2, ok_bind, s2, ok_bind, if_pos rfl, d2, ok_bind, rdRange_ok (by rw [hlen]; omega), ok_bind, ok_bind, ok_bind]
  exact ⟨_, rfl⟩

/-- a tree with a single leaf is rebuilt -/
example : ctDeserialize (9 : Int) (ctSerialize (.leaf [(0, 9)] [4, 5, 6] (-9) [])).1 (ctSerialize (.leaf [((0 : Int), 9)] [4, 5, 6] (-9) [])).2.1
    (ctSerialize (.leaf [((0 : Int), 9)] [4, 5, 6] (-9) [])).2.2 = .ok (.leaf [(0, 9)] [4, 5, 6] (-9) []) := by decide

end
end MC
