import Verif.MeshDistThm

/-!
# Distance from points to a surface made of triangles, and what the distances do wrong (C79, C80)
-/

namespace MC
section
variable {K : Type} [Field K] [LinearOrder K] [IsStrictOrderedRing K]

/-- node `n` of a mesh of the space -/
def node3 (coords : List K) (n : Int) : V3 K := ⟨nodeX 3 coords n 0, nodeX 3 coords n 1, nodeX 3 coords n 2⟩

/-- the point `q` is in the cell, a triangle of the space -/
def InTriCell (coords : List K) (c : Cell) (q : V3 K) : Prop := ∃ a b d, c.nodes = [a, b, d] ∧ InTri3 (node3 coords a) (node3 coords b) (node3 coords d) q

omit [LinearOrder K] [IsStrictOrderedRing K] in
theorem rdV3_ok {coords : List K} {n : Int} (h : IsNode 3 coords n) : rdV3 coords n = .ok (node3 coords n) := by
  have r0 := rd_node h (k := 0) (by omega)
  have r1 := rd_node h (k := 1) (by omega)
  have r2 := rd_node h (k := 2) (by omega)
  push_cast at r0 r1 r2
  rw [add_zero] at r0
  unfold rdV3
  rw [r0, ok_bind, r1, ok_bind, r2, ok_bind]
  rfl

theorem between_convex3 {lo hi a b c s t : K} (ha : lo ≤ a ∧ a ≤ hi) (hb : lo ≤ b ∧ b ≤ hi) (hc : lo ≤ c ∧ c ≤ hi) (h0 : 0 ≤ s) (h1 : 0 ≤ t) (h2 : s + t ≤ 1) :
    lo ≤ a + s * (b - a) + t * (c - a) ∧ a + s * (b - a) + t * (c - a) ≤ hi := by
  have h3 : 0 ≤ 1 - s - t := by linarith
  constructor
  · have := mul_nonneg h0 (sub_nonneg.mpr hb.1)
    have := mul_nonneg h1 (sub_nonneg.mpr hc.1)
    have := mul_nonneg h3 (sub_nonneg.mpr ha.1)
    nlinarith
  · have := mul_nonneg h0 (sub_nonneg.mpr hb.2)
    have := mul_nonneg h1 (sub_nonneg.mpr hc.2)
    have := mul_nonneg h3 (sub_nonneg.mpr ha.2)
    nlinarith

omit [Field K] [IsStrictOrderedRing K] in
theorem lt_of_ne_between {lo hi a b : K} (ha : lo ≤ a ∧ a ≤ hi) (hb : lo ≤ b ∧ b ≤ hi) (h : a ≠ b) : lo < hi := by
  rcases lt_or_gt_of_ne h with hh | hh
  · exact lt_of_le_of_lt ha.1 (lt_of_lt_of_le hh hb.2)
  · exact lt_of_le_of_lt hb.1 (lt_of_lt_of_le hh ha.2)

/-- the triangles and the points for which the distance is exact (the hypotheses of `C79_triangle`) -/
def TriExact (tiny : K) (p p0 p1 p2 : V3 K) : Prop :=
  (triDet p0 p1 p2 = 0 ∨ tiny ≤ triDet p0 p1 p2) ∧
    (triDet p0 p1 p2 < triS p p0 p1 p2 + triT p p0 p1 p2 → (triS p p0 p1 p2 < 0 ∨ triT p p0 p1 p2 < 0) → sq3 p1 p0 = sq3 p2 p0)

/-- Distance from points to a surface of the space made of triangles, none of which is reduced to a point: for every point the result is the exact distance to the surface, with the id of a cell at this distance, as soon as the triangles are such that the distance to each of them is exact (in particular when the two first edges of each triangle have the same length and no area is between 0 and the threshold). -/
theorem C80_surface {coords : List K} {conn connI : List Int} {cells : List Cell} (h : IsMesh conn connI cells) (hne : cells ≠ []) {tiny : K} (htiny : 0 < tiny)
    {pts : List (V3 K)}
    (hcell : ∀ c ∈ cells, ∃ a b d, c = ⟨3, [a, b, d]⟩ ∧ IsNode 3 coords a ∧ IsNode 3 coords b ∧ IsNode 3 coords d ∧
      ¬ (node3 coords a = node3 coords b ∧ node3 coords a = node3 coords d) ∧ ∀ p ∈ pts, TriExact tiny p (node3 coords a) (node3 coords b) (node3 coords d))
    {sqrtF : K → K} (hs : IsSqrt sqrtF) {m big : K} (h1 : 1 ≤ big) (hm : 12 * m * m < big) (hc : ∀ x ∈ coords, |x| ≤ m) (polyDist : List K → List Int → M K)
    (hp : ∀ p ∈ pts, |p.x| ≤ m ∧ |p.y| ≤ m ∧ |p.z| ≤ m) :
    ∃ res, distanceToPoints 2 3 coords conn connI sqrtF tiny big polyDist 3 (pts.map fun p => [p.x, p.y, p.z]) = .ok res ∧
      List.Forall₂ (fun p (r : K × Int) => ∃ (e : Nat) (he : e < cells.length), r.2 = (e : Int) ∧
        0 ≤ r.1 ∧ (∃ q, InTriCell coords cells[e] q ∧ sq3 p q = r.1 * r.1) ∧
        ∀ c ∈ cells, ∀ q, InTriCell coords c q → r.1 * r.1 ≤ sq3 p q) pts res := by
  have hmb : m ≤ big := le_big h1 (by norm_num) hm
  obtain ⟨bbs, b1, b2, b3⟩ := C80_boxes (dim := 3) (coords := coords) (big := big) h
    (fun c hcc => by
      obtain ⟨a, b, d, rfl, ha, -⟩ := hcell c hcc
      exact ⟨a, by simp, ha⟩)
    (fun x hx => by
      have := abs_le.mp (hc x hx)
      exact ⟨by linarith, by linarith⟩)
  have hbox : ∀ e, boxOf 3 bbs e = [(boxLo 3 bbs 0 e, boxHi 3 bbs 0 e), (boxLo 3 bbs 1 e, boxHi 3 bbs 1 e), (boxLo 3 bbs 2 e, boxHi 3 bbs 2 e)] := by
    intro e; simp [boxOf, List.range_succ]
  have hin : ∀ e, ∀ x y z : K, PtIn [x, y, z] (boxOf 3 bbs e) ↔ (boxLo 3 bbs 0 e ≤ x ∧ x ≤ boxHi 3 bbs 0 e) ∧ (boxLo 3 bbs 1 e ≤ y ∧ y ≤ boxHi 3 bbs 1 e) ∧
      (boxLo 3 bbs 2 e ≤ z ∧ z ≤ boxHi 3 bbs 2 e) := by
    intro e x y z
    rw [hbox]
    unfold PtIn
    simp
  -- the box of each cell
  have hcb : ∀ e (he : e < cells.length), ∃ a b d, cells[e] = ⟨3, [a, b, d]⟩ ∧ (IsNode 3 coords a ∧ IsNode 3 coords b ∧ IsNode 3 coords d) ∧
      ¬ (node3 coords a = node3 coords b ∧ node3 coords a = node3 coords d) ∧ (∀ p ∈ pts, TriExact tiny p (node3 coords a) (node3 coords b) (node3 coords d)) ∧
      (∀ k, k < 3 → (boxLo 3 bbs k e ≤ nodeX 3 coords a k ∧ nodeX 3 coords a k ≤ boxHi 3 bbs k e) ∧ (boxLo 3 bbs k e ≤ nodeX 3 coords b k ∧ nodeX 3 coords b k ≤ boxHi 3 bbs k e) ∧
        (boxLo 3 bbs k e ≤ nodeX 3 coords d k ∧ nodeX 3 coords d k ≤ boxHi 3 bbs k e) ∧ -m ≤ boxLo 3 bbs k e ∧ boxHi 3 bbs k e ≤ m) := by
    intro e he
    obtain ⟨a, b, d, hab, ha, hb, hd, hdiff, hex⟩ := hcell _ (List.getElem_mem he)
    refine ⟨a, b, d, hab, ⟨ha, hb, hd⟩, hdiff, hex, ?_⟩
    intro k hk
    obtain ⟨c1, ⟨n, -, n1, n2⟩, ⟨n', -, n3, n4⟩⟩ := b3 e he k hk
    refine ⟨c1 a (by rw [hab]; simp) ha.1 ha.2, c1 b (by rw [hab]; simp) hb.1 hb.2, c1 d (by rw [hab]; simp) hd.1 hd.2, ?_, ?_⟩
    · rw [n2]; exact (abs_le.mp (nodeX_bound hc n1 hk)).1
    · rw [n4]; exact (abs_le.mp (nodeX_bound hc n3 hk)).2
  obtain ⟨t, t1, t2⟩ := onePoint (dim := 3) (by omega) h (bbs := bbs) h1 (fun e he => by
    obtain ⟨a, b, d, -, -, hd, -, hk⟩ := hcb e he
    have k0 := hk 0 (by omega)
    have k1 := hk 1 (by omega)
    have k2 := hk 2 (by omega)
    refine ⟨?_, ?_, ?_⟩
    · rw [b2]
      have : (e + 1) * 3 ≤ cells.length * 3 := by omega
      omega
    · rw [hbox]
      intro x hx
      rcases List.mem_cons.mp hx with rfl | hx
      · exact le_trans k0.1.1 k0.1.2
      rcases List.mem_cons.mp hx with rfl | hx
      · exact le_trans k1.1.1 k1.1.2
      · rw [List.mem_singleton.mp hx]; exact le_trans k2.1.1 k2.1.2
    · rw [hbox]
      have mem0 : ∀ x y z : K × K, x ∈ [x, y, z] := by simp
      have mem1 : ∀ x y z : K × K, y ∈ [x, y, z] := by simp
      have mem2 : ∀ x y z : K × K, z ∈ [x, y, z] := by simp
      by_cases hab0 : nodeX 3 coords a 0 = nodeX 3 coords b 0
      · by_cases hab1 : nodeX 3 coords a 1 = nodeX 3 coords b 1
        · by_cases hab2 : nodeX 3 coords a 2 = nodeX 3 coords b 2
          · by_cases had0 : nodeX 3 coords a 0 = nodeX 3 coords d 0
            · by_cases had1 : nodeX 3 coords a 1 = nodeX 3 coords d 1
              · by_cases had2 : nodeX 3 coords a 2 = nodeX 3 coords d 2
                · exfalso
                  apply hd
                  constructor <;> unfold node3
                  · rw [hab0, hab1, hab2]
                  · rw [had0, had1, had2]
                · exact ⟨_, mem2 _ _ _, lt_of_ne_between k2.1 k2.2.2.1 had2⟩
              · exact ⟨_, mem1 _ _ _, lt_of_ne_between k1.1 k1.2.2.1 had1⟩
            · exact ⟨_, mem0 _ _ _, lt_of_ne_between k0.1 k0.2.2.1 had0⟩
          · exact ⟨_, mem2 _ _ _, lt_of_ne_between k2.1 k2.2.1 hab2⟩
        · exact ⟨_, mem1 _ _ _, lt_of_ne_between k1.1 k1.2.1 hab1⟩
      · exact ⟨_, mem0 _ _ _, lt_of_ne_between k0.1 k0.2.1 hab0⟩) hs
  have hlen := h.length
  have hcl : 0 < cells.length := List.length_pos_iff.mpr hne
  unfold distanceToPoints
  rw [if_neg (by norm_num), if_neg (by norm_num), if_neg (by simp), if_neg (by omega), b1, ok_bind, show connI.length - 1 = cells.length by omega, t1, ok_bind]
  simp only [if_true]
  apply mapM_forall₂
  intro p hpp
  -- the closest points
  have hd' : ∀ e, ∃ r, ∀ (he : e < cells.length), surfCellDist sqrtF tiny polyDist coords [p.x, p.y, p.z] cells[e] = .ok r ∧ IsDist3 r p (InTriCell coords cells[e]) := by
    intro e
    by_cases he : e < cells.length
    · obtain ⟨a, b, d, hab, ⟨ha, hb, hd⟩, -, hex, -⟩ := hcb e he
      have hx := hex p hpp
      have hD := C79_triangle sqrtF hs tiny htiny p _ _ _ hx.1 hx.2
      refine ⟨distTri3 sqrtF tiny p (node3 coords a) (node3 coords b) (node3 coords d), fun _ => ⟨?_, ?_⟩⟩
      · rw [hab]
        unfold surfCellDist
        rw [if_pos rfl]
        simp only [show rd [a, b, d] 0 = .ok a from rfl, show rd [a, b, d] 1 = .ok b from rfl, show rd [a, b, d] 2 = .ok d from rfl,
          show rdV3 [p.x, p.y, p.z] 0 = .ok p from rfl, rdV3_ok ha, rdV3_ok hb, rdV3_ok hd, ok_bind]
      · have heq : ∀ q, InTriCell coords cells[e] q ↔ InTri3 (node3 coords a) (node3 coords b) (node3 coords d) q := by
          intro q
          constructor
          · rintro ⟨a', b', d', hab', hq⟩
            rw [hab] at hab'
            simp only [List.cons.injEq, and_true] at hab'
            rw [← hab'.1, ← hab'.2.1, ← hab'.2.2] at hq
            exact hq
          · intro hq
            exact ⟨a, b, d, by rw [hab], hq⟩
        obtain ⟨i1, ⟨q, i2, i3⟩, i4⟩ := hD
        exact ⟨i1, ⟨q, (heq q).mpr i2, i3⟩, fun q hq => i4 q ((heq q).mp hq)⟩
    · exact ⟨0, fun h' => absurd h' he⟩
  choose d hd using hd'
  have ho' : ∀ e, ∃ (o : V3 K), ∀ (he : e < cells.length), InTriCell coords cells[e] o ∧ sq3 p o = d e * d e := by
    intro e
    by_cases he : e < cells.length
    · obtain ⟨-, -, ⟨q, q1, q2⟩, -⟩ := hd e he
      exact ⟨q, fun _ => ⟨q1, q2⟩⟩
    · exact ⟨p, fun h' => absurd h' he⟩
  choose o ho using ho'
  have hsq : ∀ q : V3 K, sqDist [p.x, p.y, p.z] [q.x, q.y, q.z] = sq3 p q := by
    intro q; unfold sqDist sq3; simp; ring
  obtain ⟨e, he, e1, e2⟩ := t2 [p.x, p.y, p.z] rfl (surfCellDist sqrtF tiny polyDist coords) d (fun e => [(o e).x, (o e).y, (o e).z]) (fun e he => by
    obtain ⟨d1, d2, -⟩ := hd e he
    refine ⟨d1, d2, ?_, by rw [hsq, (ho e he).2]⟩
    obtain ⟨a, b, d, hab, -, -, -, hk⟩ := hcb e he
    obtain ⟨⟨a', b', d', hab', u, w, u0, w0, uw, hu⟩, -⟩ := ho e he
    rw [hab] at hab'
    simp only [List.cons.injEq, and_true] at hab'
    rw [← hab'.1, ← hab'.2.1, ← hab'.2.2] at hu
    rw [hu, hin]
    have k0 := hk 0 (by omega)
    have k1 := hk 1 (by omega)
    have k2 := hk 2 (by omega)
    exact ⟨between_convex3 k0.1 k0.2.1 k0.2.2.1 u0 w0 uw, between_convex3 k1.1 k1.2.1 k1.2.2.1 u0 w0 uw, between_convex3 k2.1 k2.2.1 k2.2.2.1 u0 w0 uw⟩) ⟨0, hcl, by
      intro q hq
      rw [hbox] at hq
      unfold PtIn at hq
      rcases hq with _ | ⟨q0, hq⟩
      rcases hq with _ | ⟨q1, hq⟩
      rcases hq with _ | ⟨q2, hq⟩
      rcases hq with _ | _
      obtain ⟨a, b, d, -, -, -, -, hk⟩ := hcb 0 hcl
      have k0 := (hk 0 (by omega)).2.2.2
      have k1 := (hk 1 (by omega)).2.2.2
      have k2 := (hk 2 (by omega)).2.2.2
      unfold sqDist
      simp only [List.zipWith_cons_cons, List.zipWith_nil_right, List.sum_cons, List.sum_nil]
      have s0 := sq_le_of_abs (hp p hpp).1 ⟨le_trans k0.1 q0.1, le_trans q0.2 k0.2⟩
      have s1 := sq_le_of_abs (hp p hpp).2.1 ⟨le_trans k1.1 q1.1, le_trans q1.2 k1.2⟩
      have s2 := sq_le_of_abs (hp p hpp).2.2 ⟨le_trans k2.1 q2.1, le_trans q2.2 k2.2⟩
      linarith⟩
  obtain ⟨-, d2, d3, -⟩ := hd e he
  refine ⟨_, e1, e, he, rfl, d2, d3, ?_⟩
  intro c hcc q hq
  obtain ⟨f, hf, rfl⟩ := List.mem_iff_getElem.mp hcc
  obtain ⟨-, f2, -, f4⟩ := hd f hf
  exact le_trans (mul_le_mul (e2 f hf) (e2 f hf) d2 f2) (f4 q hq)

end
end MC
