import Verif.BaryGeo

/-!
# C102: centers of mass, polygons and faces in the space
-/

namespace MC

section
variable {K : Type} [Field K] [LinearOrder K] [IsStrictOrderedRing K]

/-- The points are in a plane: the area vector is normal to it. -/
def PlanePts (ps : List (Nat → K)) : Prop :=
  ∀ p ∈ ps, areaVector ps 0 * (p 0 - p0 ps 0) + areaVector ps 1 * (p 1 - p0 ps 1) + areaVector ps 2 * (p 2 - p0 ps 2) = 0

/-- Square of the norm of the area vector -/
def areaSq (ps : List (Nat → K)) : K :=
  areaVector ps 0 * areaVector ps 0 + areaVector ps 1 * areaVector ps 1 + areaVector ps 2 * areaVector ps 2

theorem p0_mem {ps : List (Nat → K)} (h : ps ≠ []) : p0 ps ∈ ps := by
  obtain ⟨a, l, rfl⟩ := List.exists_cons_of_ne_nil h
  simp [p0, ptRk]

theorem sq3_nonneg (x y z : K) : 0 ≤ x * x + y * y + z * z :=
  add_nonneg (add_nonneg (mul_self_nonneg _) (mul_self_nonneg _)) (mul_self_nonneg _)

/-- In a plane of normal `n` the vector product of the sides of a triangle is along `n`. -/
theorem triV_normal (n q a b : Nat → K) (hn : n 0 * n 0 + n 1 * n 1 + n 2 * n 2 = 1)
    (ha : n 0 * (a 0 - q 0) + n 1 * (a 1 - q 1) + n 2 * (a 2 - q 2) = 0)
    (hb : n 0 * (b 0 - q 0) + n 1 * (b 1 - q 1) + n 2 * (b 2 - q 2) = 0) (k : Nat) (hk : k < 3) :
    (n 0 * triV q a b 0 + n 1 * triV q a b 1 + n 2 * triV q a b 2) * n k = triV q a b k := by
  have hk3 : k = 0 ∨ k = 1 ∨ k = 2 := by omega
  rcases hk3 with rfl | rfl | rfl <;>
    simp only [triV, if_true, if_false, one_ne_zero, OfNat.ofNat_ne_zero, OfNat.ofNat_ne_one]
  · linear_combination ((a 1 - q 1) * (b 2 - q 2) - (a 2 - q 2) * (b 1 - q 1)) * hn +
      (n 2 * (b 1 - q 1) - n 1 * (b 2 - q 2)) * ha + (n 1 * (a 2 - q 2) - n 2 * (a 1 - q 1)) * hb
  · linear_combination ((a 2 - q 2) * (b 0 - q 0) - (a 0 - q 0) * (b 2 - q 2)) * hn +
      (n 0 * (b 2 - q 2) - n 2 * (b 0 - q 0)) * ha + (n 2 * (a 0 - q 0) - n 0 * (a 2 - q 2)) * hb
  · linear_combination ((a 0 - q 0) * (b 1 - q 1) - (a 1 - q 1) * (b 0 - q 0)) * hn +
      (n 1 * (b 0 - q 0) - n 0 * (b 1 - q 1)) * ha + (n 0 * (a 1 - q 1) - n 1 * (a 0 - q 0)) * hb

/-- The face is not nearly horizontal: either horizontal or at more than `eps` of it. -/
def NotNearlyFlat (eps : K) (ps : List (Nat → K)) : Prop :=
  (areaVector ps 0 = 0 ∧ areaVector ps 1 = 0) ∨
    eps * eps * areaSq ps < areaVector ps 0 * areaVector ps 0 + areaVector ps 1 * areaVector ps 1

/-- What a plane face adds to the sums is the flux through its triangles. -/
theorem faceMoment_flux {s : K → K} (hs : IsSqrtF s) {eps : K} (he : 0 ≤ eps) (ps : List (Nat → K)) (hpl : PlanePts ps)
    (hne : areaSq ps ≠ 0) (hfl : NotNearlyFlat eps ps) (k : Nat) (hk : k < 3) :
    faceMoment s eps ps (norm3 s (areaVector ps)) k = edgeSum (fun a b => flux (p0 ps) a b k) ps := by
  have hps : ps ≠ [] := by
    rintro rfl
    apply hne
    simp [areaSq, areaVector]
  obtain ⟨hnn, hn2⟩ := hs (areaSq ps) (sq3_nonneg _ _ _)
  set nn := norm3 s (areaVector ps) with hnnd
  have enn : s (areaSq ps) = nn := rfl
  rw [enn] at hnn hn2
  have hn0 : nn ≠ 0 := fun h => hne (by rw [← hn2, h]; ring)
  have hnpos : 0 < nn := lt_of_le_of_ne hnn (Ne.symm hn0)
  set n : Nat → K := fun k => areaVector ps k / nn with hnd
  have hunit : n 0 * n 0 + n 1 * n 1 + n 2 * n 2 = 1 := by
    have : n 0 * n 0 + n 1 * n 1 + n 2 * n 2 = areaSq ps / (nn * nn) := by
      simp only [hnd, areaSq]
      field_simp
    rw [this, hn2, div_self hne]
  have hplane : ∀ p ∈ ps, n 0 * (p 0 - p0 ps 0) + n 1 * (p 1 - p0 ps 1) + n 2 * (p 2 - p0 ps 2) = 0 := by
    intro p hp
    have := hpl p hp
    have e : n 0 * (p 0 - p0 ps 0) + n 1 * (p 1 - p0 ps 1) + n 2 * (p 2 - p0 ps 2) =
        (areaVector ps 0 * (p 0 - p0 ps 0) + areaVector ps 1 * (p 1 - p0 ps 1) + areaVector ps 2 * (p 2 - p0 ps 2)) / nn := by
      simp only [hnd]
      ring
    rw [e, this, zero_div]
  set w := n 0 * ptRk ps 0 0 + n 1 * ptRk ps 0 1 + n 2 * ptRk ps 0 2 with hw
  have hw' : ∀ p ∈ ps, n 0 * p 0 + n 1 * p 1 + n 2 * p 2 = w := by
    intro p hp
    have := hplane p hp
    rw [hw]
    linear_combination this
  -- whatever the rotation
  have main : ∀ u0 u1 sg c : K, u0 * u0 + u1 * u1 = 1 → sg * sg + c * c = 1 → n 0 = -u1 * sg → n 1 = u0 * sg → n 2 = c →
      edgeSum (fun a b => edgeMoment n u0 u1 sg c w a b k) ps = edgeSum (fun a b => flux (p0 ps) a b k) ps := by
    intro u0 u1 sg c h1 h2 h3 h4 h5
    rw [← edgeSum_tele (fun p => edgeMoment n u0 u1 sg c w (p0 ps) p k) (fun a b => edgeMoment n u0 u1 sg c w a b k)]
    apply edgeSum_congr
    intro x hx
    obtain ⟨m1, m2⟩ := mem_cycPairs hx
    have := edgeMoment_tri u0 u1 sg c w h1 h2 n h3 h4 h5 (p0 ps) x.1 x.2 (hw' _ (p0_mem hps)) (hw' _ m1) (hw' _ m2)
      (by norm_num) k hk
    rw [triV_normal n (p0 ps) x.1 x.2 hunit (hplane _ m1) (hplane _ m2) k hk] at this
    rw [edgeMoment_anti n u0 u1 sg c w (p0 ps) x.2] at this
    rw [flux]
    linear_combination this
  have hs2 := hs (n 1 * n 1 + -n 0 * -n 0) (add_nonneg (mul_self_nonneg _) (mul_self_nonneg _))
  set sg := s (n 1 * n 1 + -n 0 * -n 0) with hsg
  obtain ⟨hs3, hs4⟩ := hs2
  have hs5 : sg * sg + n 2 * n 2 = 1 := by rw [hs4]; linear_combination hunit
  unfold faceMoment
  simp only
  rw [← hsg, ← hw]
  rw [abs_of_nonneg hs3]
  rcases hfl with ⟨f0, f1⟩ | hf
  · have z0 : n 0 = 0 := by simp [hnd, f0]
    have z1 : n 1 = 0 := by simp [hnd, f1]
    have zs : sg = 0 := by
      have : sg * sg = 0 := by rw [hs4, z0, z1]; ring
      simpa using this
    rw [if_neg (by rw [zs]; exact not_lt.mpr he)]
    exact main 1 0 sg (n 2) (by ring) hs5 (by rw [zs, z0]; ring) (by rw [zs, z1]; ring) rfl
  · have hlt : eps < sg := by
      by_contra hcon
      have h1 : sg * sg ≤ eps * eps := mul_self_le_mul_self hs3 (not_lt.mp hcon)
      have h2 : sg * sg = (areaVector ps 0 * areaVector ps 0 + areaVector ps 1 * areaVector ps 1) / areaSq ps := by
        rw [hs4, ← hn2]
        simp only [hnd]
        field_simp
        ring
      rw [h2, div_le_iff₀ (lt_of_le_of_ne (sq3_nonneg _ _ _) (Ne.symm hne))] at h1
      exact absurd hf (not_lt.mpr h1)
    have hs0 : sg ≠ 0 := fun h => absurd hlt (by rw [h]; exact not_lt.mpr he)
    rw [if_pos hlt]
    refine main (n 1 / sg) (-n 0 / sg) sg (n 2) ?_ hs5 ?_ ?_ rfl
    · have : n 1 / sg * (n 1 / sg) + -n 0 / sg * (-n 0 / sg) = (n 1 * n 1 + -n 0 * -n 0) / (sg * sg) := by
        field_simp
      rw [this, ← hs4, div_self (mul_ne_zero hs0 hs0)]
    · field_simp
    · field_simp

/-! ## The center of a polygon of the space -/

theorem areaVector_tri (q a b : Nat → K) (k : Nat) (hk : k < 3) : areaVector [q, a, b] k = triV q a b k := by
  have hk3 : k = 0 ∨ k = 1 ∨ k = 2 := by omega
  rcases hk3 with rfl | rfl | rfl <;>
    simp [areaVector, triV, List.range_succ, ptRk] <;> ring

/-- The triangles from the first point of a polygon -/
def fanPts (ps : List (Nat → K)) : List ((Nat → K) × (Nat → K)) :=
  (List.range (ps.length - 2)).map fun j => (ptRk ps (j + 1), ptRk ps (j + 2))

omit [LinearOrder K] [IsStrictOrderedRing K] in
theorem cyc_fan (g : (Nat → K) → (Nat → K) → K) (ps : List (Nat → K)) (h1 : ∀ b, g (p0 ps) b = 0) (h2 : ∀ a, g a (p0 ps) = 0) :
    edgeSum g ps = ((fanPts ps).map fun x => g x.1 x.2).sum := by
  unfold edgeSum fanPts
  rw [List.map_map]
  rcases hl : ps.length with _ | _ | m
  · simp
  · simp only [Nat.zero_add, List.range_one, List.map_cons, List.map_nil, Nat.mod_one]
    simp [h1]
  · have e1 : List.range (m + 1 + 1) = 0 :: (List.range m).map (· + 1) ++ [m + 1] := by
      rw [List.range_succ, List.range_succ_eq_map]
    have e2 : (m + 1 + 1) % (m + 1 + 1) = 0 := Nat.mod_self _
    simp only [e1, List.map_append, List.map_cons, List.map_nil, List.sum_append, List.sum_cons, List.sum_nil, h1, e2, h2,
      List.map_map, add_zero, zero_add]
    congr 1
    apply List.map_congr_left
    intro j hj
    have : j < m := by simpa using hj
    simp only [Function.comp_apply]
    rw [Nat.mod_eq_of_lt (by omega)]

/-- The triangles from the first point are flat or their area is more than `eps / 2`. -/
def NoSmallTriangle (eps : K) (ps : List (Nat → K)) : Prop :=
  ∀ x ∈ fanPts ps, (∀ k < 3, triV (p0 ps) x.1 x.2 k = 0) ∨
    eps * eps < triV (p0 ps) x.1 x.2 0 * triV (p0 ps) x.1 x.2 0 + triV (p0 ps) x.1 x.2 1 * triV (p0 ps) x.1 x.2 1 +
      triV (p0 ps) x.1 x.2 2 * triV (p0 ps) x.1 x.2 2

theorem fanTerm_eq {s : K → K} (hs : IsSqrtF s) {eps : K} (he : 0 ≤ eps) (ar : Nat → K) (norm : K) (hn : norm ≠ 0)
    (q a b : Nat → K) (h : (∀ k < 3, triV q a b k = 0) ∨
      eps * eps < triV q a b 0 * triV q a b 0 + triV q a b 1 * triV q a b 1 + triV q a b 2 * triV q a b 2) (k : Nat) :
    fanTerm s eps ar norm q a b k =
      (ar 0 * triV q a b 0 + ar 1 * triV q a b 1 + ar 2 * triV q a b 2) * ((q k + a k + b k) / 3) / (norm * norm) := by
  unfold fanTerm
  simp only [norm3, areaVector_tri _ _ _ 0 (by omega), areaVector_tri _ _ _ 1 (by omega), areaVector_tri _ _ _ 2 (by omega)]
  obtain ⟨h1, h2⟩ := hs (triV q a b 0 * triV q a b 0 + triV q a b 1 * triV q a b 1 + triV q a b 2 * triV q a b 2)
    (sq3_nonneg _ _ _)
  set n2 := s (triV q a b 0 * triV q a b 0 + triV q a b 1 * triV q a b 1 + triV q a b 2 * triV q a b 2)
  rcases h with h | h
  · have z : n2 = 0 := by
      have : n2 * n2 = 0 := by rw [h2, h 0 (by omega), h 1 (by omega), h 2 (by omega)]; ring
      simpa using this
    rw [if_neg (by rw [z]; exact not_lt.mpr he), h 0 (by omega), h 1 (by omega), h 2 (by omega)]
    ring
  · have hlt : eps < n2 := by
      by_contra hcon
      exact absurd h (not_lt.mpr (h2 ▸ mul_self_le_mul_self h1 (not_lt.mp hcon)))
    have h0 : n2 ≠ 0 := fun h => absurd hlt (by rw [h]; exact not_lt.mpr he)
    rw [if_pos hlt]
    field_simp

omit [LinearOrder K] [IsStrictOrderedRing K] in
theorem triV_normal_sq (n q a b : Nat → K) (S : K) (hn : n 0 * n 0 + n 1 * n 1 + n 2 * n 2 = S)
    (ha : n 0 * (a 0 - q 0) + n 1 * (a 1 - q 1) + n 2 * (a 2 - q 2) = 0)
    (hb : n 0 * (b 0 - q 0) + n 1 * (b 1 - q 1) + n 2 * (b 2 - q 2) = 0) (k : Nat) (hk : k < 3) :
    (n 0 * triV q a b 0 + n 1 * triV q a b 1 + n 2 * triV q a b 2) * n k = S * triV q a b k := by
  have hk3 : k = 0 ∨ k = 1 ∨ k = 2 := by omega
  rcases hk3 with rfl | rfl | rfl <;>
    simp only [triV, if_true, if_false, one_ne_zero, OfNat.ofNat_ne_zero, OfNat.ofNat_ne_one]
  · linear_combination ((a 1 - q 1) * (b 2 - q 2) - (a 2 - q 2) * (b 1 - q 1)) * hn +
      (n 2 * (b 1 - q 1) - n 1 * (b 2 - q 2)) * ha + (n 1 * (a 2 - q 2) - n 2 * (a 1 - q 1)) * hb
  · linear_combination ((a 2 - q 2) * (b 0 - q 0) - (a 0 - q 0) * (b 2 - q 2)) * hn +
      (n 0 * (b 2 - q 2) - n 2 * (b 0 - q 0)) * ha + (n 2 * (a 0 - q 0) - n 0 * (a 2 - q 2)) * hb
  · linear_combination ((a 0 - q 0) * (b 1 - q 1) - (a 1 - q 1) * (b 0 - q 0)) * hn +
      (n 1 * (b 0 - q 0) - n 0 * (b 1 - q 1)) * ha + (n 0 * (a 1 - q 1) - n 1 * (a 0 - q 0)) * hb

/-- Component of the vector product along `n` -/
def triN (n o a b : Nat → K) : K := n 0 * triV o a b 0 + n 1 * triV o a b 1 + n 2 * triV o a b 2

omit [LinearOrder K] [IsStrictOrderedRing K] in
/-- The four triangles of four points of a plane -/
theorem plane_bary (n o q a b : Nat → K) (S : K) (hn : n 0 * n 0 + n 1 * n 1 + n 2 * n 2 = S)
    (hq : n 0 * (q 0 - o 0) + n 1 * (q 1 - o 1) + n 2 * (q 2 - o 2) = 0)
    (ha : n 0 * (a 0 - o 0) + n 1 * (a 1 - o 1) + n 2 * (a 2 - o 2) = 0)
    (hb : n 0 * (b 0 - o 0) + n 1 * (b 1 - o 1) + n 2 * (b 2 - o 2) = 0) (k : Nat) (hk : k < 3) :
    S * (triN n q a b * (q k + a k + b k)) =
      S * (triN n o a b * (o k + a k + b k) + (triN n o q a * (o k + q k + a k) - triN n o q b * (o k + q k + b k))) := by
  set D : K := (q 0 - o 0) * triV q a b 0 + (q 1 - o 1) * triV q a b 1 + (q 2 - o 2) * triV q a b 2 with hD
  have key : triN n q a b * (q k + a k + b k) - (triN n o a b * (o k + a k + b k) +
      (triN n o q a * (o k + q k + a k) - triN n o q b * (o k + q k + b k))) = D * n k := by
    have hk3 : k = 0 ∨ k = 1 ∨ k = 2 := by omega
    rcases hk3 with rfl | rfl | rfl <;>
      simp only [hD, triN, triV, if_true, if_false, one_ne_zero, OfNat.ofNat_ne_zero, OfNat.ofNat_ne_one] <;> ring
  have z : S * D = 0 := by
    have : S * D = triN n o a b * (n 0 * (q 0 - o 0) + n 1 * (q 1 - o 1) + n 2 * (q 2 - o 2)) +
        triN n o q a * (n 0 * (b 0 - o 0) + n 1 * (b 1 - o 1) + n 2 * (b 2 - o 2)) -
        triN n o q b * (n 0 * (a 0 - o 0) + n 1 * (a 1 - o 1) + n 2 * (a 2 - o 2)) := by
      rw [← hn]
      simp only [hD, triN, triV, if_true, if_false, one_ne_zero, OfNat.ofNat_ne_zero, OfNat.ofNat_ne_one]
      ring
    rw [this, hq, ha, hb]
    ring
  linear_combination S * key + n k * z

omit [LinearOrder K] [IsStrictOrderedRing K] in
theorem triV_same (q a : Nat → K) (k : Nat) : triV q q a k = 0 ∧ triV q a q k = 0 := by
  constructor <;> (unfold triV; split_ifs <;> ring)

/-- The center of a plane polygon of the space: the area vector times the center is the sum, over the triangles from any point
of the plane, of the vector products times the centers of the triangles. -/
theorem baryPolyg3_plane {s : K → K} (hs : IsSqrtF s) {tiny eps : K} (ht : 0 ≤ tiny) (he : 0 ≤ eps) (ps : List (Nat → K))
    (hpl : PlanePts ps) (hbig : tiny * tiny < areaSq ps) (hsm : NoSmallTriangle eps ps) :
    ∃ c, baryPolyg3 s tiny eps ps = .ok c ∧ ∀ o : Nat → K,
      areaVector ps 0 * (o 0 - p0 ps 0) + areaVector ps 1 * (o 1 - p0 ps 1) + areaVector ps 2 * (o 2 - p0 ps 2) = 0 →
      ∀ d < 3, ∀ k < 3, areaVector ps d * c k = edgeSum (fun a b => triV o a b d * ((o k + a k + b k) / 3)) ps := by
  have hpos : 0 < areaSq ps := lt_of_le_of_lt (mul_nonneg ht ht) hbig
  obtain ⟨hnn, hn2⟩ := hs (areaSq ps) hpos.le
  have hlt : tiny < norm3 s (areaVector ps) := by
    by_contra hcon
    have : norm3 s (areaVector ps) * norm3 s (areaVector ps) ≤ tiny * tiny :=
      mul_self_le_mul_self hnn (not_lt.mp hcon)
    have e : norm3 s (areaVector ps) * norm3 s (areaVector ps) = areaSq ps := hn2
    exact absurd hbig (not_lt.mpr (e ▸ this))
  have hn0 : norm3 s (areaVector ps) ≠ 0 := (lt_of_le_of_lt ht hlt).ne'
  have e2 : norm3 s (areaVector ps) * norm3 s (areaVector ps) = areaSq ps := hn2
  refine ⟨_, by unfold baryPolyg3; simp only; rw [if_pos hlt], ?_⟩
  intro o ho d hd k hk
  -- the value
  have hval : areaSq ps * ((List.range (ps.length - 2)).map fun j =>
      fanTerm s eps (areaVector ps) (norm3 s (areaVector ps)) (ptRk ps 0) (ptRk ps (j + 1)) (ptRk ps (j + 2)) k).sum =
      edgeSum (fun a b => triN (areaVector ps) (p0 ps) a b * ((p0 ps k + a k + b k) / 3)) ps := by
    rw [cyc_fan (fun a b => triN (areaVector ps) (p0 ps) a b * ((p0 ps k + a k + b k) / 3)) ps
      (fun b => by simp [triN, triV_same]) (fun a => by simp [triN, triV_same])]
    unfold fanPts
    rw [List.map_map, ← sum_map_mul_list]
    congr 1
    apply List.map_congr_left
    intro j hj
    have hm : (ptRk ps (j + 1), ptRk ps (j + 2)) ∈ fanPts ps := List.mem_map_of_mem hj
    rw [fanTerm_eq hs he _ _ hn0 _ _ _ (hsm _ hm) k, e2]
    simp only [Function.comp_apply, triN, p0]
    rw [mul_div_cancel₀ _ hpos.ne']
  have hmem : ∀ p ∈ ps, areaVector ps 0 * (p 0 - o 0) + areaVector ps 1 * (p 1 - o 1) + areaVector ps 2 * (p 2 - o 2) = 0 := by
    intro p hp
    linear_combination hpl p hp - ho
  have hps : ps ≠ [] := by
    rintro rfl
    exact hpos.ne' (by simp [areaSq, areaVector])
  have hmove : areaSq ps * edgeSum (fun a b => triN (areaVector ps) (p0 ps) a b * ((p0 ps k + a k + b k) / 3)) ps =
      areaSq ps * edgeSum (fun a b => triN (areaVector ps) o a b * ((o k + a k + b k) / 3)) ps := by
    rw [← edgeSum_mul, ← edgeSum_mul, ← edgeSum_tele (fun p => areaSq ps * (triN (areaVector ps) o (p0 ps) p *
      ((o k + p0 ps k + p k) / 3))) (fun a b => areaSq ps * (triN (areaVector ps) o a b * ((o k + a k + b k) / 3)))]
    apply edgeSum_congr
    intro x hx
    obtain ⟨m1, m2⟩ := mem_cycPairs hx
    have := plane_bary (areaVector ps) o (p0 ps) x.1 x.2 (areaSq ps) rfl (hmem _ (p0_mem hps)) (hmem _ m1) (hmem _ m2) k hk
    linear_combination this / 3
  have hproj : areaVector ps d * edgeSum (fun a b => triN (areaVector ps) o a b * ((o k + a k + b k) / 3)) ps =
      areaSq ps * edgeSum (fun a b => triV o a b d * ((o k + a k + b k) / 3)) ps := by
    rw [← edgeSum_mul, ← edgeSum_mul]
    apply edgeSum_congr
    intro x hx
    obtain ⟨m1, m2⟩ := mem_cycPairs hx
    have := triV_normal_sq (areaVector ps) o x.1 x.2 (areaSq ps) rfl (hmem _ m1) (hmem _ m2) d hd
    simp only [triN]
    linear_combination ((o k + x.1 k + x.2 k) / 3) * this
  have h1 := mul_left_cancel₀ hpos.ne' hmove
  rw [h1] at hval
  apply mul_left_cancel₀ hpos.ne'
  rw [← hproj, ← hval]
  ring

end

end MC
