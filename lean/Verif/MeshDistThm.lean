import Verif.MeshDistProps

/-!
# Distance from points to a mesh made of segments or triangles (C80)
-/

namespace MC
section
variable {K : Type} [Field K] [LinearOrder K] [IsStrictOrderedRing K]

omit [Field K] [IsStrictOrderedRing K] in
/-- the loop over the candidates: the smallest distance and a cell which has it -/
theorem closestCell_fold {conn connI : List Int} {cells : List Cell} (h : IsMesh conn connI cells) {cellDist : Cell → M K} {d : Nat → K} :
    ∀ (elems : List Nat) (s : K × Int), (∀ e ∈ elems, ∃ he : e < cells.length, cellDist cells[e] = .ok (d e)) →
    ∃ r : K × Int, elems.foldlM (fun s (c : Nat) => (do
      let cell ← rdCell conn connI c
      let tmp ← cellDist cell
      if tmp < s.1 then .ok (tmp, (c : Int)) else .ok s : M (K × Int))) s = .ok r ∧ r.1 ≤ s.1 ∧ (∀ e ∈ elems, r.1 ≤ d e) ∧
      (r = s ∨ ∃ e ∈ elems, r = (d e, (e : Int)))
  | [], s, _ => ⟨s, rfl, le_refl _, by simp, Or.inl rfl⟩
  | e :: elems, s, hd => by
    obtain ⟨he, hde⟩ := hd e List.mem_cons_self
    rw [List.foldlM_cons, rdCell_ok h he, ok_bind, hde, ok_bind]
    by_cases hlt : d e < s.1
    · rw [if_pos hlt, ok_bind]
      obtain ⟨r, r1, r2, r3, r4⟩ := closestCell_fold h elems (d e, (e : Int)) fun e he => hd e (List.mem_cons_of_mem _ he)
      refine ⟨r, r1, le_trans r2 hlt.le, ?_, ?_⟩
      · intro f hf
        rcases List.mem_cons.mp hf with rfl | hf
        · exact r2
        · exact r3 f hf
      · rcases r4 with r4 | ⟨f, f1, f2⟩
        · exact Or.inr ⟨e, List.mem_cons_self, r4⟩
        · exact Or.inr ⟨f, List.mem_cons_of_mem _ f1, f2⟩
    · rw [if_neg hlt, ok_bind]
      obtain ⟨r, r1, r2, r3, r4⟩ := closestCell_fold h elems s fun e he => hd e (List.mem_cons_of_mem _ he)
      refine ⟨r, r1, r2, ?_, ?_⟩
      · intro f hf
        rcases List.mem_cons.mp hf with rfl | hf
        · exact le_trans r2 (not_lt.mp hlt)
        · exact r3 f hf
      · rcases r4 with r4 | ⟨f, f1, f2⟩
        · exact Or.inl r4
        · exact Or.inr ⟨f, List.mem_cons_of_mem _ f1, f2⟩

/-- the search of one point: `d e` is the distance of the point to cell `e`, reached at the point `o e` of its box -/
theorem onePoint {dim : Nat} (hd : 0 < dim) {conn connI : List Int} {cells : List Cell} (h : IsMesh conn connI cells) {bbs : List K} {big : K} (hb1 : 1 ≤ big)
    (hv : ∀ e, e < cells.length → (e + 1) * dim * 2 ≤ bbs.length ∧ ValidBox (boxOf dim bbs e) ∧ ∃ b ∈ boxOf dim bbs e, b.1 < b.2) {sqrtF : K → K}
    (hs : IsSqrt sqrtF) :
    ∃ t, bbTreeDst dim bbs none cells.length big = .ok t ∧ ∀ (pt : List K), pt.length = dim → ∀ (cellDist : List K → Cell → M K) (d : Nat → K) (o : Nat → List K),
      (∀ e (he : e < cells.length), cellDist pt cells[e] = .ok (d e) ∧ 0 ≤ d e ∧ PtIn (o e) (boxOf dim bbs e) ∧ sqDist pt (o e) = d e * d e) →
      (∃ e, e < cells.length ∧ ∀ q, PtIn q (boxOf dim bbs e) → sqDist pt q < big) →
      ∃ e, e < cells.length ∧ distanceToOnePoint dim conn connI bbs sqrtF big t cellDist pt = .ok (d e, (e : Int)) ∧ ∀ e', e' < cells.length → d e ≤ d e' := by
  have hmem : ∀ {e}, e ∈ btElems none cells.length ↔ e < cells.length := by intro e; unfold btElems; exact List.mem_range
  obtain ⟨t, ht, -, hpt⟩ := C78_dst hd (bbs := bbs) none cells.length big (fun e he => ⟨(hv e (hmem.mp he)).1, (hv e (hmem.mp he)).2.1⟩) hs
  refine ⟨t, ht, ?_⟩
  intro pt hp cellDist d o hdo hbig
  obtain ⟨hmm, hel⟩ := hpt pt hp
  have hb0 : 0 ≤ big := le_trans zero_le_one hb1
  obtain ⟨x, x1, x2, x3, x4⟩ := hmm big hb0
  have hatt := x4.resolve_left (by
    rintro rfl
    obtain ⟨e, he, hq⟩ := hbig
    obtain ⟨q, q1, q2⟩ := x3 e (hmem.mpr he)
    exact absurd (hq q q1) (not_lt.mpr q2))
  have hx0 : 0 ≤ x := by
    obtain ⟨e, -, -, q, -, q2⟩ := hatt
    rw [← q2]
    unfold sqDist
    apply List.sum_nonneg
    intro y hy
    rw [List.mem_iff_getElem?] at hy
    obtain ⟨i, hi⟩ := hy
    rw [List.getElem?_zipWith] at hi
    split at hi
    · injection hi with hi; rw [← hi]; exact mul_self_nonneg _
    · exact absurd hi (by simp)
  obtain ⟨found, f1, -, f3⟩ := hel x hx0
  obtain ⟨e0, m0, ⟨q0, q1, q2⟩, m1⟩ := C78_dst_closest (bbs := bbs) (es := btElems none cells.length) hp
    (fun e he => (hv e (hmem.mp he)).2) o (fun e he => (hdo e (hmem.mp he)).2.2.1) hatt
  have hin : e0 ∈ found := (f3 e0).mpr ⟨m0, q0, q1, q2⟩
  obtain ⟨r, r1, r2, r3, r4⟩ := closestCell_fold h (cellDist := cellDist pt) (d := d) found (big, -1) (fun e he => by
    have := hmem.mp ((f3 e).mp he).1
    exact ⟨this, (hdo e this).1⟩)
  have hsq : ∀ a b : K, 0 ≤ a → 0 ≤ b → a * a ≤ b * b → a ≤ b := fun a b ha hb hab => by
    by_contra hh
    exact absurd (mul_self_lt_mul_self hb (not_le.mp hh)) (not_lt.mpr hab)
  have hmin : ∀ e', e' < cells.length → d e0 ≤ d e' := by
    intro e' he'
    have := m1 e' (hmem.mpr he')
    rw [(hdo e0 (hmem.mp m0)).2.2.2, (hdo e' he').2.2.2] at this
    exact hsq _ _ (hdo e0 (hmem.mp m0)).2.1 (hdo e' he').2.1 this
  have hlt : d e0 < big := by
    have h1 : d e0 * d e0 < big := by
      rw [← (hdo e0 (hmem.mp m0)).2.2.2]
      obtain ⟨e, he, hq⟩ := hbig
      exact lt_of_le_of_lt (m1 e (hmem.mpr he)) (hq _ (hdo e he).2.2.1)
    by_contra hh
    have h2 := not_lt.mp hh
    have : big * big ≤ d e0 * d e0 := mul_le_mul h2 h2 hb0 (hdo e0 (hmem.mp m0)).2.1
    nlinarith
  rcases r4 with r4 | ⟨e, n1, n2⟩
  · exfalso
    have := r3 e0 hin
    rw [r4] at this
    exact absurd hlt (not_lt.mpr this)
  · have hel := hmem.mp ((f3 e).mp n1).1
    refine ⟨e, hel, ?_, ?_⟩
    · unfold distanceToOnePoint
      rw [x1, ok_bind, f1, ok_bind, List.nil_append, if_neg (List.ne_nil_of_mem hin)]
      unfold closestCell
      rw [r1, n2]
    · intro e' he'
      have := r3 e0 hin
      rw [n2] at this
      exact le_trans this (hmin e' he')

theorem mapM_forall₂ {α β γ : Type} {f : β → M γ} {P : α → γ → Prop} {g : α → β} : ∀ l : List α, (∀ a ∈ l, ∃ r, f (g a) = .ok r ∧ P a r) →
    ∃ rs, (l.map g).mapM f = .ok rs ∧ List.Forall₂ P l rs
  | [], _ => ⟨[], rfl, .nil⟩
  | a :: l, h => by
    obtain ⟨r, r1, r2⟩ := h a List.mem_cons_self
    obtain ⟨rs, s1, s2⟩ := mapM_forall₂ (f := f) (P := P) (g := g) l fun a ha => h a (List.mem_cons_of_mem _ ha)
    refine ⟨r :: rs, ?_, .cons r2 s2⟩
    rw [List.map_cons, List.mapM_cons, r1, ok_bind, s1, ok_bind]
    rfl

/-- `n` is a node of a mesh with these coordinates -/
def IsNode (dim : Nat) (coords : List K) (n : Int) : Prop := 0 ≤ n ∧ n < ((coords.length / dim : Nat) : Int)

omit [Field K] [LinearOrder K] [IsStrictOrderedRing K] in
theorem isNode_bound {dim : Nat} {coords : List K} {n : Int} (h : IsNode dim coords n) {k : Nat} (hk : k < dim) : dim * n.toNat + k < coords.length := by
  obtain ⟨h0, h1⟩ := h
  have hn' : n.toNat < coords.length / dim := by omega
  have h2 : (n.toNat + 1) * dim ≤ coords.length / dim * dim := Nat.mul_le_mul_right _ hn'
  have h3 := Nat.div_mul_le_self coords.length dim
  have h4 : (n.toNat + 1) * dim = dim * n.toNat + dim := by ring
  omega

omit [LinearOrder K] [IsStrictOrderedRing K] in
theorem rd_node {dim : Nat} {coords : List K} {n : Int} (h : IsNode dim coords n) {k : Nat} (hk : k < dim) :
    rd coords ((dim : Int) * n + k) = .ok (nodeX dim coords n k) := by
  have e : (dim : Int) * n + k = ((dim * n.toNat + k : Nat) : Int) := by
    push_cast
    rw [Int.toNat_of_nonneg h.1]
  rw [e]
  exact rd_getD (isNode_bound h hk)

omit [IsStrictOrderedRing K] in
theorem nodeX_bound {dim : Nat} {coords : List K} {m : K} (hc : ∀ x ∈ coords, |x| ≤ m) {n : Int} (h : IsNode dim coords n) {k : Nat} (hk : k < dim) :
    |nodeX dim coords n k| ≤ m := by
  unfold nodeX
  rw [List.getD_eq_getElem _ _ (isNode_bound h hk)]
  exact hc _ (List.getElem_mem _)

theorem le_big {m a big : K} (h1 : 1 ≤ big) (ha : 1 ≤ a) (h : a * m * m < big) : m ≤ big := by
  by_contra hh
  have h2 := not_le.mp hh
  have h3 : 1 < m := lt_of_le_of_lt h1 h2
  have h4 : m ≤ m * m := by nlinarith
  have h5 : m * m ≤ a * (m * m) := le_mul_of_one_le_left (by nlinarith) ha
  have h6 : a * m * m = a * (m * m) := by ring
  linarith

/-! ## Segments in the plane -/

/-- node `n` of a mesh of the plane -/
def node2 (coords : List K) (n : Int) : V2 K := ⟨nodeX 2 coords n 0, nodeX 2 coords n 1⟩

/-- the point `q` is on the cell, a segment of the plane -/
def OnSegCell (coords : List K) (c : Cell) (q : V2 K) : Prop := ∃ a b, c.nodes = [a, b] ∧ OnSeg2 (node2 coords a) (node2 coords b) q

theorem between_convex {lo hi a b t : K} (ha : lo ≤ a ∧ a ≤ hi) (hb : lo ≤ b ∧ b ≤ hi) (h0 : 0 ≤ t) (h1 : t ≤ 1) :
    lo ≤ a + t * (b - a) ∧ a + t * (b - a) ≤ hi := by
  have h2 : 0 ≤ 1 - t := by linarith
  constructor
  · have := mul_nonneg h0 (sub_nonneg.mpr hb.1)
    have := mul_nonneg h2 (sub_nonneg.mpr ha.1)
    nlinarith
  · have := mul_nonneg h0 (sub_nonneg.mpr hb.2)
    have := mul_nonneg h2 (sub_nonneg.mpr ha.2)
    nlinarith

theorem sq_le_of_abs {x y m : K} (hx : |x| ≤ m) (hy : -m ≤ y ∧ y ≤ m) : (x - y) * (x - y) ≤ 4 * m * m := by
  obtain ⟨h1, h2⟩ := abs_le.mp hx
  obtain ⟨h3, h4⟩ := hy
  have a1 : x - y ≤ 2 * m := by linarith
  have a2 : -(2 * m) ≤ x - y := by linarith
  nlinarith

/-- Distance from points to a curve of the plane made of segments, none of which is reduced to a point: for every point the result is the exact distance to the curve, with the id of a cell at this distance. -/
theorem C80_curve {coords : List K} {conn connI : List Int} {cells : List Cell} (h : IsMesh conn connI cells) (hne : cells ≠ [])
    (hcell : ∀ c ∈ cells, ∃ a b, c = ⟨1, [a, b]⟩ ∧ IsNode 2 coords a ∧ IsNode 2 coords b ∧ node2 coords a ≠ node2 coords b)
    {sqrtF : K → K} (hs : IsSqrt sqrtF) {m big : K} (h1 : 1 ≤ big) (hm : 8 * m * m < big) (hc : ∀ x ∈ coords, |x| ≤ m) (tiny : K) (polyDist : List K → List Int → M K)
    (pts : List (V2 K)) (hp : ∀ p ∈ pts, |p.x| ≤ m ∧ |p.y| ≤ m) :
    ∃ res, distanceToPoints 1 2 coords conn connI sqrtF tiny big polyDist 2 (pts.map fun p => [p.x, p.y]) = .ok res ∧
      List.Forall₂ (fun p (r : K × Int) => 0 ≤ r.1 ∧ (∃ (e : Nat) (he : e < cells.length), r.2 = (e : Int) ∧ ∃ q, OnSegCell coords cells[e] q ∧ sq2 p q = r.1 * r.1) ∧
        ∀ c ∈ cells, ∀ q, OnSegCell coords c q → r.1 * r.1 ≤ sq2 p q) pts res := by
  have hmb : m ≤ big := le_big h1 (by norm_num) hm
  obtain ⟨bbs, b1, b2, b3⟩ := C80_boxes (dim := 2) (coords := coords) (big := big) h
    (fun c hcc => by
      obtain ⟨a, b, rfl, ha, -⟩ := hcell c hcc
      exact ⟨a, by simp, ha⟩)
    (fun x hx => by
      have := abs_le.mp (hc x hx)
      exact ⟨by linarith, by linarith⟩)
  have hbox : ∀ e, boxOf 2 bbs e = [(boxLo 2 bbs 0 e, boxHi 2 bbs 0 e), (boxLo 2 bbs 1 e, boxHi 2 bbs 1 e)] := by
    intro e; simp [boxOf, List.range_succ]
  have hin : ∀ e, ∀ x y : K, PtIn [x, y] (boxOf 2 bbs e) ↔ (boxLo 2 bbs 0 e ≤ x ∧ x ≤ boxHi 2 bbs 0 e) ∧ (boxLo 2 bbs 1 e ≤ y ∧ y ≤ boxHi 2 bbs 1 e) := by
    intro e x y
    rw [hbox]
    unfold PtIn
    simp
  -- the box of each cell
  have hcb : ∀ e (he : e < cells.length), ∃ a b, cells[e] = ⟨1, [a, b]⟩ ∧ IsNode 2 coords a ∧ IsNode 2 coords b ∧ node2 coords a ≠ node2 coords b ∧
      (∀ k, k < 2 → (boxLo 2 bbs k e ≤ nodeX 2 coords a k ∧ nodeX 2 coords a k ≤ boxHi 2 bbs k e) ∧ (boxLo 2 bbs k e ≤ nodeX 2 coords b k ∧ nodeX 2 coords b k ≤ boxHi 2 bbs k e) ∧
        -m ≤ boxLo 2 bbs k e ∧ boxHi 2 bbs k e ≤ m) := by
    intro e he
    obtain ⟨a, b, hab, ha, hb, hd⟩ := hcell _ (List.getElem_mem he)
    refine ⟨a, b, hab, ha, hb, hd, ?_⟩
    intro k hk
    obtain ⟨c1, ⟨n, -, n1, n2⟩, ⟨n', -, n3, n4⟩⟩ := b3 e he k hk
    refine ⟨c1 a (by rw [hab]; simp) ha.1 ha.2, c1 b (by rw [hab]; simp) hb.1 hb.2, ?_, ?_⟩
    · rw [n2]; exact (abs_le.mp (nodeX_bound hc n1 hk)).1
    · rw [n4]; exact (abs_le.mp (nodeX_bound hc n3 hk)).2
  obtain ⟨t, t1, t2⟩ := onePoint (dim := 2) (by omega) h (bbs := bbs) h1 (fun e he => by
    obtain ⟨a, b, -, -, -, hd, hk⟩ := hcb e he
    have k0 := hk 0 (by omega)
    have k1 := hk 1 (by omega)
    refine ⟨?_, ?_, ?_⟩
    · rw [b2]
      have : (e + 1) * 2 ≤ cells.length * 2 := by omega
      omega
    · rw [hbox]
      intro x hx
      rcases List.mem_cons.mp hx with rfl | hx
      · exact le_trans k0.1.1 k0.1.2
      · rw [List.mem_singleton.mp hx]; exact le_trans k1.1.1 k1.1.2
    · rw [hbox]
      by_cases h0 : nodeX 2 coords a 0 = nodeX 2 coords b 0
      · refine ⟨_, List.mem_cons_of_mem _ List.mem_cons_self, ?_⟩
        have hne1 : nodeX 2 coords a 1 ≠ nodeX 2 coords b 1 := by
          intro h1'; apply hd; unfold node2; rw [h0, h1']
        rcases lt_or_gt_of_ne hne1 with hh | hh
        · exact lt_of_le_of_lt k1.1.1 (lt_of_lt_of_le hh k1.2.1.2)
        · exact lt_of_le_of_lt k1.2.1.1 (lt_of_lt_of_le hh k1.1.2)
      · refine ⟨_, List.mem_cons_self, ?_⟩
        rcases lt_or_gt_of_ne h0 with hh | hh
        · exact lt_of_le_of_lt k0.1.1 (lt_of_lt_of_le hh k0.2.1.2)
        · exact lt_of_le_of_lt k0.2.1.1 (lt_of_lt_of_le hh k0.1.2)) hs
  have hlen := h.length
  have hcl : 0 < cells.length := List.length_pos_iff.mpr hne
  unfold distanceToPoints
  rw [if_neg (by norm_num), if_neg (by norm_num), if_neg (by simp), if_neg (by omega), b1, ok_bind, show connI.length - 1 = cells.length by omega, t1, ok_bind]
  simp only [show ¬ (2 = 3) by omega, if_false]
  apply mapM_forall₂
  intro p hpp
  -- the closest points
  have hcl2 : ∀ e, ∃ (o : V2 K), ∀ (he : e < cells.length), OnSegCell coords cells[e] o ∧
      ∃ r, curveCellDist sqrtF coords [p.x, p.y] cells[e] = .ok r ∧ 0 ≤ r ∧ sq2 p o = r * r ∧ ∀ q, OnSegCell coords cells[e] q → r * r ≤ sq2 p q := by
    intro e
    by_cases he : e < cells.length
    · obtain ⟨a, b, hab, ha, hb, -⟩ := hcb e he
      obtain ⟨⟨o, o1, o2⟩, o3⟩ := C79_segment2 sqrtF hs p (node2 coords a) (node2 coords b)
      have hnn : 0 ≤ sqDistSeg2 sqrtF p (node2 coords a) (node2 coords b) := by rw [← o2]; unfold sq2; positivity
      obtain ⟨s0, s1⟩ := hs _ hnn
      refine ⟨o, fun _ => ⟨⟨a, b, by rw [hab], o1⟩, sqrtF (sqDistSeg2 sqrtF p (node2 coords a) (node2 coords b)), ?_, s0, by rw [s1, o2], ?_⟩⟩
      · rw [hab]
        unfold curveCellDist
        rw [if_pos rfl]
        have ra0 := rd_node ha (k := 0) (by omega)
        have ra1 := rd_node ha (k := 1) (by omega)
        have rb0 := rd_node hb (k := 0) (by omega)
        have rb1 := rd_node hb (k := 1) (by omega)
        push_cast at ra0 ra1 rb0 rb1
        rw [add_zero] at ra0 rb0
        simp only [show rd [a, b] 0 = .ok a from rfl, show rd [a, b] 1 = .ok b from rfl, show rd [p.x, p.y] 0 = .ok p.x from rfl, show rd [p.x, p.y] 1 = .ok p.y from rfl,
          ra0, ra1, rb0, rb1, ok_bind]
        rfl
      · rintro q ⟨a', b', hab', hq⟩
        rw [hab] at hab'
        simp only [List.cons.injEq, and_true] at hab'
        rw [s1, ]
        rw [← hab'.1, ← hab'.2] at hq
        exact o3 q hq
    · exact ⟨p, fun h' => absurd h' he⟩
  choose o ho using hcl2
  have hd' : ∀ e, ∃ r, ∀ (he : e < cells.length), curveCellDist sqrtF coords [p.x, p.y] cells[e] = .ok r ∧ 0 ≤ r ∧ sq2 p (o e) = r * r ∧ ∀ q, OnSegCell coords cells[e] q → r * r ≤ sq2 p q := by
    intro e
    by_cases he : e < cells.length
    · obtain ⟨-, r, hr⟩ := ho e he
      exact ⟨r, fun _ => hr⟩
    · exact ⟨0, fun h' => absurd h' he⟩
  choose d hd using hd'
  have hsq : ∀ q : V2 K, sqDist [p.x, p.y] [q.x, q.y] = sq2 p q := by
    intro q; unfold sqDist sq2; simp; ring
  obtain ⟨e, he, e1, e2⟩ := t2 [p.x, p.y] rfl (curveCellDist sqrtF coords) d (fun e => [(o e).x, (o e).y]) (fun e he => by
    obtain ⟨d1, d2, d3, -⟩ := hd e he
    refine ⟨d1, d2, ?_, by rw [hsq, d3]⟩
    obtain ⟨a, b, hab, ha, hb, -, hk⟩ := hcb e he
    obtain ⟨⟨a', b', hab', u, u0, u1, hu⟩, -⟩ := ho e he
    rw [hab] at hab'
    simp only [List.cons.injEq, and_true] at hab'
    rw [← hab'.1, ← hab'.2] at hu
    rw [hu, hin]
    exact ⟨between_convex (hk 0 (by omega)).1 (hk 0 (by omega)).2.1 u0 u1, between_convex (hk 1 (by omega)).1 (hk 1 (by omega)).2.1 u0 u1⟩) ⟨0, hcl, by
      intro q hq
      rw [hbox] at hq
      unfold PtIn at hq
      rcases hq with _ | ⟨q0, hq⟩
      rcases hq with _ | ⟨q1, hq⟩
      rcases hq with _ | _
      obtain ⟨a, b, -, -, -, -, hk⟩ := hcb 0 hcl
      have k0 := (hk 0 (by omega)).2.2
      have k1 := (hk 1 (by omega)).2.2
      unfold sqDist
      simp only [List.zipWith_cons_cons, List.zipWith_nil_right, List.sum_cons, List.sum_nil]
      have s0 := sq_le_of_abs (hp p hpp).1 ⟨le_trans k0.1 q0.1, le_trans q0.2 k0.2⟩
      have s1 := sq_le_of_abs (hp p hpp).2 ⟨le_trans k1.1 q1.1, le_trans q1.2 k1.2⟩
      linarith⟩
  obtain ⟨d1, d2, d3, d4⟩ := hd e he
  refine ⟨_, e1, d2, ⟨e, he, rfl, o e, (ho e he).1, d3⟩, ?_⟩
  intro c hcc q hq
  obtain ⟨f, hf, rfl⟩ := List.mem_iff_getElem.mp hcc
  obtain ⟨f1, f2, f3, f4⟩ := hd f hf
  exact le_trans (mul_le_mul (e2 f hf) (e2 f hf) d2 f2) (f4 q hq)

end
end MC
