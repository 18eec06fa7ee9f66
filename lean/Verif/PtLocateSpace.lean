import Verif.PtLocatePlaneThm
import Verif.MeshDistSurf

/-!
# Location of points: the cells of the space
-/

namespace MC
section
variable {K : Type} [Field K] [LinearOrder K] [IsStrictOrderedRing K]

/-- the components of the normal vector of the triangle `a`, `b`, `c` of the space -/
def nrm3 (a b c : Nat → K) (k : Nat) : K :=
  (b ((k + 1) % 3) - a ((k + 1) % 3)) * (c ((k + 2) % 3) - a ((k + 2) % 3)) - (b ((k + 2) % 3) - a ((k + 2) % 3)) * (c ((k + 1) % 3) - a ((k + 1) % 3))

/-- six times the signed volume of the tetrahedron `a`, `b`, `c`, `p` -/
def side3 (a b c p : Nat → K) : K := nrm3 a b c 0 * (p 0 - a 0) + nrm3 a b c 1 * (p 1 - a 1) + nrm3 a b c 2 * (p 2 - a 2)

/-- the square of the length of the normal vector -/
def nrmSq (a b c : Nat → K) : K := nrm3 a b c 0 * nrm3 a b c 0 + nrm3 a b c 1 * nrm3 a b c 1 + nrm3 a b c 2 * nrm3 a b c 2

/-- the signed distance of `p` to the plane of `a`, `b`, `c` -/
def planeDist (sqrtF : K → K) (a b c p : Nat → K) : K := side3 a b c p / sqrtF (nrmSq a b c)

/-- a point as a record -/
def v3 (a : Nat → K) : V3 K := ⟨a 0, a 1, a 2⟩

theorem isSqrt_scale {s : K → K} (hs : IsSqrt s) {c x : K} (hc : 0 ≤ c) (hx : 0 ≤ x) : s (c * c * x) = c * s x := by
  have h1 := hs x hx
  have h2 := hs (c * c * x) (mul_nonneg (mul_nonneg hc hc) hx)
  have h3 := mul_nonneg hc h1.1
  have : s (c * c * x) * s (c * c * x) = (c * s x) * (c * s x) := by linear_combination h2.2 - c * c * h1.2
  rcases mul_self_eq_mul_self_iff.mp this with h | h
  · exact h
  · linarith [h2.1]

theorem nrmSq_nonneg (a b c : Nat → K) : 0 ≤ nrmSq a b c :=
  add_nonneg (add_nonneg (mul_self_nonneg _) (mul_self_nonneg _)) (mul_self_nonneg _)

/-- the triple product of normalized points is the distance to the plane divided by the normalization factor -/
theorem tripleProduct_norm {s : K → K} (hs : IsSqrt s) (o : V3 K) {f : K} (hf : 0 ≤ f) (a b c p : Nat → K) :
    tripleProduct s (normPt o f (v3 b)) (normPt o f (v3 c)) (normPt o f (v3 p)) (normPt o f (v3 a)) = planeDist s a b c p / f := by
  rcases hf.eq_or_lt with h0 | hf
  · subst h0
    simp [tripleProduct, normPt, divV, sub3, dot3, crossV]
  have hne := ne_of_gt hf
  have e1 : dot3 (crossV (sub3 (normPt o f (v3 b)) (normPt o f (v3 a))) (sub3 (normPt o f (v3 c)) (normPt o f (v3 a)))) (sub3 (normPt o f (v3 p)) (normPt o f (v3 a))) =
      side3 a b c p / (f * f * f) := by
    simp only [normPt, divV, sub3, dot3, crossV, v3, side3, nrm3]
    norm_num
    field_simp
    ring
  have e2 : dot3 (crossV (sub3 (normPt o f (v3 b)) (normPt o f (v3 a))) (sub3 (normPt o f (v3 c)) (normPt o f (v3 a))))
      (crossV (sub3 (normPt o f (v3 b)) (normPt o f (v3 a))) (sub3 (normPt o f (v3 c)) (normPt o f (v3 a)))) = (1 / (f * f)) * (1 / (f * f)) * nrmSq a b c := by
    simp only [normPt, divV, sub3, dot3, crossV, v3, nrmSq, nrm3]
    norm_num
    field_simp
    ring
  unfold tripleProduct
  simp only [e1, e2]
  rw [isSqrt_scale hs (by positivity) (nrmSq_nonneg a b c)]
  unfold planeDist
  by_cases hz : s (nrmSq a b c) = 0
  · rw [hz]; simp
  · field_simp

omit [IsStrictOrderedRing K] in
theorem axisMinMax_eq (big : K) (l : List K) : axisMinMax big l = (l.foldl min big, l.foldl max (-big)) := by
  unfold axisMinMax
  have key : ∀ (l : List K) (a b : K), l.foldl (fun s x => (min s.1 x, max s.2 x)) (a, b) = (l.foldl min a, l.foldl max b) := by
    intro l
    induction l with
    | nil => intro a b; rfl
    | cons x l ih => intro a b; exact ih _ _
  exact key l big (-big)

/-- the extent along one axis -/
theorem axis_extent {big : K} {l : List K} (hl : l ≠ []) (hb : ∀ x ∈ l, -big ≤ x ∧ x ≤ big) :
    (∀ x ∈ l, ∀ y ∈ l, x - y ≤ (axisMinMax big l).2 - (axisMinMax big l).1) ∧ ∃ x ∈ l, ∃ y ∈ l, x - y = (axisMinMax big l).2 - (axisMinMax big l).1 := by
  rw [axisMinMax_eq]
  obtain ⟨m1, m2, m3⟩ := foldl_min_spec l big
  obtain ⟨n1, n2, n3⟩ := foldl_max_spec l (-big)
  refine ⟨fun x hx y hy => sub_le_sub (n2 x hx) (m2 y hy), ?_⟩
  obtain ⟨z, hz⟩ := List.exists_mem_of_ne_nil l hl
  have hm : l.foldl min big ∈ l := by
    rcases m3 with h | h
    · have := m2 z hz
      have := (hb z hz).2
      have : z = l.foldl min big := le_antisymm (by rw [h]; exact this) (m2 z hz)
      rw [← this]; exact hz
    · exact h
  have hM : l.foldl max (-big) ∈ l := by
    rcases n3 with h | h
    · have := (hb z hz).1
      have : z = l.foldl max (-big) := le_antisymm (n2 z hz) (by rw [h]; exact this)
      rw [← this]; exact hz
    · exact h
  exact ⟨_, hM, _, hm, rfl⟩

/-- the normalization factor is the largest extent of the points along an axis -/
theorem normalizeBox_extent {big : K} {ps : List (Nat → K)} (hl : ps ≠ []) (hb : ∀ p ∈ ps, ∀ k, k < 3 → -big ≤ p k ∧ p k ≤ big) :
    (∀ k, k < 3 → ∀ p ∈ ps, ∀ q ∈ ps, p k - q k ≤ (normalizeBox big (ps.map v3)).2) ∧ ∃ k, k < 3 ∧ ∃ p ∈ ps, ∃ q ∈ ps, p k - q k = (normalizeBox big (ps.map v3)).2 := by
  have ax : ∀ k, k < 3 → (∀ p ∈ ps, ∀ q ∈ ps, p k - q k ≤ (axisMinMax big (ps.map fun p => p k)).2 - (axisMinMax big (ps.map fun p => p k)).1) ∧
      ∃ p ∈ ps, ∃ q ∈ ps, p k - q k = (axisMinMax big (ps.map fun p => p k)).2 - (axisMinMax big (ps.map fun p => p k)).1 := by
    intro k hk
    obtain ⟨h1, x, hx, y, hy, h2⟩ := axis_extent (big := big) (l := ps.map fun p => p k) (by simpa using hl) (by
      intro x hx
      obtain ⟨p, hp, rfl⟩ := List.mem_map.mp hx
      exact hb p hp k hk)
    obtain ⟨p, hp, rfl⟩ := List.mem_map.mp hx
    obtain ⟨q, hq, rfl⟩ := List.mem_map.mp hy
    exact ⟨fun p hp q hq => h1 _ (List.mem_map_of_mem hp) _ (List.mem_map_of_mem hq), p, hp, q, hq, h2⟩
  have e : (normalizeBox big (ps.map v3)).2 = max ((axisMinMax big (ps.map fun p => p 2)).2 - (axisMinMax big (ps.map fun p => p 2)).1)
      (max ((axisMinMax big (ps.map fun p => p 1)).2 - (axisMinMax big (ps.map fun p => p 1)).1) (max ((axisMinMax big (ps.map fun p => p 0)).2 - (axisMinMax big (ps.map fun p => p 0)).1) 0)) := by
    unfold normalizeBox
    simp only [List.map_map]
    rfl
  rw [e]
  obtain ⟨z, hz⟩ := List.exists_mem_of_ne_nil ps hl
  have n0 : 0 ≤ (axisMinMax big (ps.map fun p => p 0)).2 - (axisMinMax big (ps.map fun p => p 0)).1 := by
    have := (ax 0 (by omega)).1 z hz z hz
    rwa [sub_self] at this
  rw [max_eq_left n0]
  constructor
  · intro k hk p hp q hq
    have := (ax k hk).1 p hp q hq
    rcases (by omega : k = 0 ∨ k = 1 ∨ k = 2) with rfl | rfl | rfl
    · exact this.trans ((le_max_right _ _).trans (le_max_right _ _))
    · exact this.trans ((le_max_left _ _).trans (le_max_right _ _))
    · exact this.trans (le_max_left _ _)
  · rcases max_choice ((axisMinMax big (ps.map fun p => p 2)).2 - (axisMinMax big (ps.map fun p => p 2)).1)
      (max ((axisMinMax big (ps.map fun p => p 1)).2 - (axisMinMax big (ps.map fun p => p 1)).1) ((axisMinMax big (ps.map fun p => p 0)).2 - (axisMinMax big (ps.map fun p => p 0)).1)) with h | h
    · rw [h]; exact ⟨2, by omega, (ax 2 (by omega)).2⟩
    · rw [h]
      rcases max_choice ((axisMinMax big (ps.map fun p => p 1)).2 - (axisMinMax big (ps.map fun p => p 1)).1) ((axisMinMax big (ps.map fun p => p 0)).2 - (axisMinMax big (ps.map fun p => p 0)).1) with h | h
      · rw [h]; exact ⟨1, by omega, (ax 1 (by omega)).2⟩
      · rw [h]; exact ⟨0, by omega, (ax 0 (by omega)).2⟩

theorem normalizeBox_nonneg (big : K) (ps : List (V3 K)) : 0 ≤ (normalizeBox big ps).2 :=
  le_max_of_le_right (le_max_of_le_right (le_max_right _ _))

/-- node of rank `i` of a face, around the face -/
def faceNode (face : List Int) (i : Nat) : Int := face.getD (i % face.length) 0

/-- the three nodes of rank `i`, `i + 1`, `i + 2` around the face -/
def faceTri (face : List Int) (i : Nat) : Int × Int × Int := (faceNode face i, faceNode face (i + 1), faceNode face (i + 2))

omit [IsStrictOrderedRing K] in
theorem pickFace_ok (sqrtF : K → K) {coords : List K} (isPoly : Bool) (eps : K) {face : List Int} (hne : face ≠ []) (hn : NodesOK 3 coords face) : ∀ k, k ≤ face.length →
    ∃ i, (isPoly = false → 0 < k → i = face.length - k) ∧
      (isPoly = true → i < face.length → isColinear3DRel sqrtF (node3 coords (faceNode face i)) (node3 coords (faceNode face (i + 1))) (node3 coords (faceNode face (i + 2))) eps = false) ∧
      pickFace sqrtF coords isPoly eps face k = .ok (node3 coords (faceNode face i), node3 coords (faceNode face (i + 1)), node3 coords (faceNode face (i + 2))) := by
  have hlen : 0 < face.length := List.length_pos_of_ne_nil hne
  have hr : ∀ i, rd face ((i % face.length : Nat) : Int) = .ok (faceNode face i) := by
    intro i
    have := Nat.mod_lt i hlen
    rw [rd_natCast this]
    unfold faceNode
    rw [List.getD_eq_getElem _ _ this]
  have hv : ∀ i, rdV3 coords (faceNode face i) = .ok (node3 coords (faceNode face i)) := by
    intro i
    have := Nat.mod_lt i hlen
    apply rdV3_ok
    unfold faceNode
    rw [List.getD_eq_getElem _ _ this]
    exact hn _ (List.getElem_mem this)
  intro k
  induction k with
  | zero =>
    intro _
    refine ⟨face.length, by simp, by simp, ?_⟩
    unfold pickFace
    rw [if_neg (by omega), hr, ok_bind, hr, ok_bind, hr, ok_bind, hv, ok_bind, hv, ok_bind, hv, ok_bind]
    rw [Nat.zero_add, Nat.add_comm 1, Nat.add_comm 2]
  | succ k ih =>
    intro hk
    obtain ⟨i, i1, i2, i3⟩ := ih (by omega)
    unfold pickFace
    simp only [hr, ok_bind, hv]
    generalize hj : face.length - (k + 1) = j
    have c0 : 0 + j = j := by omega
    have c1 : 1 + j = j + 1 := by omega
    have c2 : 2 + j = j + 2 := by omega
    rw [c0, c1, c2]
    by_cases hcol : (isPoly && isColinear3DRel sqrtF (node3 coords (faceNode face j)) (node3 coords (faceNode face (j + 1))) (node3 coords (faceNode face (j + 2))) eps) = true
    · rw [if_pos hcol, i3]
      have hp : isPoly = true := (Bool.and_eq_true_iff.mp hcol).1
      exact ⟨i, by simp [hp], i2, rfl⟩
    · rw [if_neg hcol]
      refine ⟨j, fun _ _ => rfl, fun hp _ => ?_, rfl⟩
      rw [hp] at hcol
      simpa using hcol

/-- C101: the test of the cells of the space.  One triangle is taken on each face: three nodes which follow each other around the face, the first three unless the cell is a polyhedron; for a polyhedron, three nodes which are not aligned up to the tolerance, when there are some.  The point is accepted when its signed distances to the planes of the triangles, divided by the largest extent of the triangles along an axis, are all at least `-eps`, or all at most `eps`. -/
theorem C101_test_in_space {coords pt : List K} {big eps : K} (he : 0 ≤ eps) {sqrtF : K → K} (hs : IsSqrt sqrtF) (polyIn : List K → K → Cell → M Bool) {c : Cell} {cm : CellModel}
    {sons : List (Int × List Int)} (h5 : c.type ≠ 5) (hcm : getCellModel c.type = .ok cm) (hsons : cm.allSons c.nodes = .ok sons) (hne : sons ≠ [])
    (hn : ∀ s ∈ sons, s.2 ≠ [] ∧ NodesOK 3 coords s.2) (hb : ∀ x ∈ coords, -big ≤ x ∧ x ≤ big) (hp : pt.length = 3) :
    ∃ (b : Bool) (ranks : List Nat) (f : K), cellContains 3 sqrtF big polyIn coords pt eps c = .ok b ∧ 0 ≤ f ∧
      List.Forall₂ (fun (s : Int × List Int) i => (c.type ≠ 31 → i = 0) ∧ (c.type = 31 → i < s.2.length →
        isColinear3DRel sqrtF (node3 coords (faceNode s.2 i)) (node3 coords (faceNode s.2 (i + 1))) (node3 coords (faceNode s.2 (i + 2))) eps = false)) sons ranks ∧
      (let tris := List.zipWith (fun (s : Int × List Int) i => faceTri s.2 i) sons ranks
       let ids := tris.flatMap fun t => [t.1, t.2.1, t.2.2]
       (∀ k, k < 3 → ∀ m ∈ ids, ∀ n ∈ ids, nodeX 3 coords m k - nodeX 3 coords n k ≤ f) ∧
       (∃ k, k < 3 ∧ ∃ m ∈ ids, ∃ n ∈ ids, nodeX 3 coords m k - nodeX 3 coords n k = f) ∧
       (b = true ↔ (∀ t ∈ tris, -eps ≤ planeDist sqrtF (nodeX 3 coords t.1) (nodeX 3 coords t.2.1) (nodeX 3 coords t.2.2) (ptX pt) / f) ∨
         ∀ t ∈ tris, planeDist sqrtF (nodeX 3 coords t.1) (nodeX 3 coords t.2.1) (nodeX 3 coords t.2.2) (ptX pt) / f ≤ eps)) := by
  have hcode : cm.code = c.type := by
    have := List.find?_some (p := fun cm : CellModel => cm.code == c.type) (l := cellModels) (a := cm) (by
      unfold getCellModel at hcm
      split at hcm
      · rename_i x hx; rw [hx]; simpa using hcm
      · simp [throwX] at hcm)
    simpa using this
  have key : ∀ sons : List (Int × List Int), (∀ s ∈ sons, s.2 ≠ [] ∧ NodesOK 3 coords s.2) → ∃ ranks : List Nat,
      List.Forall₂ (fun (s : Int × List Int) i => (c.type ≠ 31 → i = 0) ∧ (c.type = 31 → i < s.2.length →
        isColinear3DRel sqrtF (node3 coords (faceNode s.2 i)) (node3 coords (faceNode s.2 (i + 1))) (node3 coords (faceNode s.2 (i + 2))) eps = false)) sons ranks ∧
      sons.mapM (fun s => pickFace sqrtF coords (decide (cm.code = 31)) eps s.2 s.2.length) =
        .ok ((List.zipWith (fun (s : Int × List Int) i => faceTri s.2 i) sons ranks).map fun t => (node3 coords t.1, node3 coords t.2.1, node3 coords t.2.2)) := by
    intro sons
    induction sons with
    | nil => intro _; exact ⟨[], List.Forall₂.nil, rfl⟩
    | cons s sons ih =>
      intro hn
      obtain ⟨ranks, r1, r2⟩ := ih fun s hs => hn s (List.mem_cons_of_mem _ hs)
      obtain ⟨hs1, hs2⟩ := hn s List.mem_cons_self
      obtain ⟨i, i1, i2, i3⟩ := pickFace_ok sqrtF (decide (cm.code = 31)) eps hs1 hs2 s.2.length (le_refl _)
      refine ⟨i :: ranks, List.Forall₂.cons ⟨fun h => ?_, fun h => i2 (by rw [hcode]; simpa using h)⟩ r1, ?_⟩
      · rw [i1 (by rw [hcode]; simpa using h) (List.length_pos_of_ne_nil hs1), Nat.sub_self]
      · rw [List.mapM_cons, i3, ok_bind, r2, ok_bind]
        rfl
  obtain ⟨ranks, r1, r2⟩ := key sons hn
  have hpt : rdV3 pt 0 = .ok (v3 (ptX pt)) := by
    rw [rdV3_ok (coords := pt) (n := 0) ⟨by omega, by rw [hp]; decide⟩]
    rfl
  have hlen : ranks.length = sons.length := r1.length_eq.symm
  obtain ⟨tris, htris⟩ : ∃ t, t = List.zipWith (fun (s : Int × List Int) i => faceTri s.2 i) sons ranks := ⟨_, rfl⟩
  have htne : tris ≠ [] := by
    intro h
    have := congrArg List.length htris
    rw [h, List.length_zipWith, hlen, Nat.min_self] at this
    exact hne (List.eq_nil_of_length_eq_zero this.symm)
  have hps : ((tris.map fun t => (node3 coords t.1, node3 coords t.2.1, node3 coords t.2.2)).flatMap fun f => [f.1, f.2.1, f.2.2]) =
      ((tris.flatMap fun t => [t.1, t.2.1, t.2.2]).map (nodeX 3 coords)).map v3 := by
    rw [List.flatMap_map, List.map_map, List.map_flatMap]
    rfl
  have hidsne : (tris.flatMap fun t => [t.1, t.2.1, t.2.2]).map (nodeX 3 coords) ≠ [] := by
    obtain ⟨t, ts, rfl⟩ := List.exists_cons_of_ne_nil htne
    simp
  -- the nodes of the triangles are nodes of the mesh
  have hmemt : ∀ t ∈ tris, IsNode 3 coords t.1 ∧ IsNode 3 coords t.2.1 ∧ IsNode 3 coords t.2.2 := by
    intro t ht
    rw [htris] at ht
    rw [List.mem_iff_getElem] at ht
    obtain ⟨j, hj, rfl⟩ := ht
    rw [List.length_zipWith] at hj
    rw [List.getElem_zipWith]
    obtain ⟨q1, q2⟩ := hn _ (List.getElem_mem (l := sons) (n := j) (by omega))
    have hl := List.length_pos_of_ne_nil q1
    have : ∀ i, IsNode 3 coords (faceNode (sons[j]'(by omega)).2 i) := by
      intro i
      unfold faceNode
      rw [List.getD_eq_getElem _ _ (Nat.mod_lt i hl)]
      exact q2 _ (List.getElem_mem _)
    exact ⟨this _, this _, this _⟩
  obtain ⟨x1, k, hk, p, hp1, q, hq1, x2⟩ := normalizeBox_extent (big := big) hidsne (by
    intro p hp k hk
    obtain ⟨n, hn1, rfl⟩ := List.mem_map.mp hp
    obtain ⟨t, ht, hn2⟩ := List.mem_flatMap.mp hn1
    have hN := hmemt t ht
    have : IsNode 3 coords n := by
      simp only [List.mem_cons, List.not_mem_nil, or_false] at hn2
      rcases hn2 with rfl | rfl | rfl
      · exact hN.1
      · exact hN.2.1
      · exact hN.2.2
    have hlt := isNode_bound this hk
    unfold nodeX
    rw [List.getD_eq_getElem _ _ hlt]
    exact hb _ (List.getElem_mem hlt))
  refine ⟨decideFromSign (tris.map fun t => ptSign eps (planeDist sqrtF (nodeX 3 coords t.1) (nodeX 3 coords t.2.1) (nodeX 3 coords t.2.2) (ptX pt) /
      (normalizeBox big (((tris.flatMap fun t => [t.1, t.2.1, t.2.2]).map (nodeX 3 coords)).map v3)).2)), ranks, (normalizeBox big (((tris.flatMap fun t => [t.1, t.2.1, t.2.2]).map (nodeX 3 coords)).map v3)).2, ?_, normalizeBox_nonneg _ _, r1, ?_⟩
  · unfold cellContains
    rw [hcm, ok_bind, if_neg (by omega), if_neg h5, if_pos rfl]
    unfold contains3D
    rw [hcm, ok_bind, hpt, ok_bind, hsons, ok_bind, r2, ok_bind, ← htris, hps]
    simp only []
    refine congrArg (fun l => (Except.ok (decideFromSign l) : M Bool)) ?_
    rw [List.map_map (l := tris)]
    refine List.map_congr_left fun t _ => ?_
    exact congrArg (ptSign eps) (tripleProduct_norm hs _ (normalizeBox_nonneg _ _) _ _ _ _)
  · simp only []
    rw [← htris]
    refine ⟨?_, ?_, decideSigns_iff he tris _⟩
    · intro k hk m hm n hn
      exact x1 k hk _ (List.mem_map_of_mem hm) _ (List.mem_map_of_mem hn)
    · obtain ⟨m, hm, rfl⟩ := List.mem_map.mp hp1
      obtain ⟨n, hn, rfl⟩ := List.mem_map.mp hq1
      exact ⟨k, hk, m, hm, n, hn, x2⟩

end
end MC
