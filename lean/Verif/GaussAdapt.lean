import Verif.GaussCellThm

/-!
# C97: default coordinates, barycentres, nearest points, coordinates of another dimension
-/

namespace MC

section
variable {K : Type} [Field K] [LinearOrder K] [IsStrictOrderedRing K]

theorem defaultRef_eq : ∀ t ∈ gaussTable, ∃ e, e ∈ t.2 ∧ defaultRef (K := K) t.1 = .ok (castL e.ref.flatten) := by
  intro t ht
  simp only [gaussTable, List.mem_cons, List.not_mem_nil, or_false] at ht
  rcases ht with rfl | rfl | rfl | rfl | rfl | rfl | rfl | rfl | rfl | rfl | rfl | rfl | rfl | rfl | rfl | rfl | rfl | rfl | rfl <;>
    exact ⟨_, List.mem_cons_self, rfl⟩

/-- **C97.** Every type which accepts Gauss points has default reference coordinates, which are accepted with any Gauss
points; the other types are refused. -/
theorem C97_default_coordinates (ct : Int) :
    (∀ es, (ct, es) ∈ gaussTable → ∃ e ∈ es, defaultRef (K := K) ct = .ok (castL e.ref.flatten) ∧
      ∀ (gauss : List K) (ng : Nat), ng * e.dim ≤ gauss.length →
        ∃ g, newGaussInfo ct e.dim gauss ng (castL e.ref.flatten) e.fn.length = .ok g) ∧
    ((∀ es, (ct, es) ∉ gaussTable) → defaultRef (K := K) ct = throwX) := by
  constructor
  · intro es h
    obtain ⟨e, he, hd⟩ := defaultRef_eq (K := K) _ h
    refine ⟨e, he, hd, fun gauss ng hl => ?_⟩
    obtain ⟨g, hg, _⟩ := C96_reference_cells_are_recognised _ h e he gauss ng hl
    exact ⟨g, hg⟩
  · intro h
    have hc : ∀ c ∈ gaussTable.map (·.1), ct ≠ c := by
      rintro c hc rfl
      obtain ⟨⟨c, es⟩, hm, rfl⟩ := List.mem_map.mp hc
      exact h es hm
    simp only [gaussTable, List.map_cons, List.map_nil, List.mem_cons, List.not_mem_nil, or_false, forall_eq_or_imp, forall_eq] at hc
    unfold defaultRef
    simp [hc]

/-- The mean of the corners of a reference cell: its first nodes, as many as the linear type has. -/
def cornerMean (n d : Nat) (nodes : List (List Rat)) : List Rat :=
  (List.range d).map fun k => ((nodes.take n).map fun r => r.getD k 0).sum / n

/-- Number of corners of each group of types. -/
def RefShape.nbCorners : RefShape → Nat
  | .seg => 2
  | .tri => 3
  | .quad => 4
  | .tetra => 4
  | .hexa => 8
  | .penta => 6
  | .pyra => 5

/-- **C97.** The barycentre of a reference cell is the mean of its corners, except for the triangles which start at a
negative coordinate (see `C97_finding_triangle_barycenter`). -/
theorem C97_barycenter (t : Int × List RefElt) (ht : t ∈ gaussTable) (e : RefElt) (he : e ∈ t.2) (h : e.ref.Nodup)
    (s : RefShape) (hs : refShape t.1 = some s) (htri : s = .tri → e.neg = false) :
    barycenterRef t.1 (castL e.ref.flatten) = .ok (castL (K := K) (cornerMean s.nbCorners e.dim e.ref)) := by
  have hfl : e.ref.flatten ≠ [] := by
    have : ∀ t ∈ gaussTable, ∀ e ∈ t.2, e.ref.flatten ≠ [] := by decide
    exact this t ht e he
  have key : ∀ t ∈ gaussTable, ∀ e ∈ t.2, e.ref.Nodup → ∀ s ∈ (refShape t.1).toList, (s = .tri → e.neg = false) →
      cornerMean s.nbCorners e.dim e.ref = barycenterOf s ((e.ref.flatten).getD 0 0) := by decide +kernel
  rw [key t ht e he h s (by rw [hs]; simp) htri]
  unfold barycenterRef
  rw [hs]
  dsimp only
  rw [if_neg (by rintro ⟨_, h⟩; exact hfl (by simpa [castL] using h))]
  congr 1
  have hc := neg_half_iff (K := K) e hfl
  unfold RefElt.neg at hc
  rw [decide_eq_true_eq] at hc
  unfold barycenterOf
  cases s <;> dsimp only
  · by_cases hn : (e.ref.flatten).getD 0 0 < -(1 / 2)
    · rw [if_pos (hc.mpr hn), if_pos hn]; simp [castL]
    · rw [if_neg (fun h => hn (hc.mp h)), if_neg hn]; simp [castL]
  · by_cases hn : (e.ref.flatten).getD 0 0 < -(1 / 2)
    · rw [if_pos (hc.mpr hn), if_pos hn]; simp [castL]
    · rw [if_neg (fun h => hn (hc.mp h)), if_neg hn]; simp [castL]
  all_goals simp [castL]

/-- Square of the distance of two points. -/
def sqDistG (d : Nat) (p q : List K) : K := ((List.range d).map fun k => (p.getD k 0 - q.getD k 0) * (p.getD k 0 - q.getD k 0)).sum

theorem clamp_in (x a : K) (ha : a ≤ 1) : a ≤ max (min x 1) a ∧ max (min x 1) a ≤ 1 :=
  ⟨le_max_right _ _, max_le (min_le_right _ _) ha⟩

theorem clamp_id (x a : K) (h1 : a ≤ x) (h2 : x ≤ 1) : max (min x 1) a = x := by
  rw [min_eq_left h2, max_eq_left h1]

theorem clamp_near (x a y : K) (h1 : a ≤ y) (h2 : y ≤ 1) :
    (max (min x 1) a - x) * (max (min x 1) a - x) ≤ (y - x) * (y - x) := by
  have ha : a ≤ 1 := h1.trans h2
  rcases le_total x 1 with h | h
  · rw [min_eq_left h]
    rcases le_total a x with h' | h'
    · rw [max_eq_left h']; simp only [sub_self, mul_zero]; exact mul_self_nonneg _
    · rw [max_eq_right h']; exact mul_self_le_mul_self (by linarith) (by linarith)
  · rw [min_eq_right h, max_eq_left ha]
    have := mul_self_le_mul_self (show 0 ≤ x - 1 by linarith) (show x - 1 ≤ x - y by linarith)
    linarith

theorem adaptTri_in (x y : K) :
    0 ≤ (adaptTri 0 x y).1 ∧ 0 ≤ (adaptTri 0 x y).2 ∧ (adaptTri 0 x y).1 + (adaptTri 0 x y).2 ≤ 1 := by
  unfold adaptTri
  split
  · have := clamp_in y 0 zero_le_one
    exact ⟨le_refl _, this.1, by simpa using this.2⟩
  · next h1 =>
    split
    · have := clamp_in x 0 zero_le_one
      exact ⟨this.1, le_refl _, by simpa using this.2⟩
    · next h2 =>
      push Not at h1 h2
      split
      · have hs : 0 < x + y := by linarith
        refine ⟨by positivity, by positivity, ?_⟩
        dsimp only
        rw [← add_div, div_self hs.ne']
      · next h3 => exact ⟨h1.le, h2.le, by push Not at h3; exact h3⟩

theorem adaptTri_id (x y : K) (h1 : 0 ≤ x) (h2 : 0 ≤ y) (h3 : x + y ≤ 1) : adaptTri 0 x y = (x, y) := by
  unfold adaptTri
  split
  · next h =>
    have hx : x = 0 := le_antisymm h h1
    rw [clamp_id y 0 h2 (by linarith), hx]
  · split
    · next h =>
      have hy : y = 0 := le_antisymm h h2
      rw [clamp_id x 0 h1 (by linarith), hy]
    · rw [if_neg (by linarith)]

/-- **C97.** For the segments, the quadrangles, the hexahedra, and the triangles which start at the origin: the adapted point
is in the reference cell, and a point of the reference cell is not changed. For the segments, the quadrangles and the
hexahedra, and for the triangles when a coordinate is not positive, no point of the reference cell is nearer. -/
theorem C97_adapted_point (t : Int × List RefElt) (ht : t ∈ gaussTable) (e : RefElt) (he : e ∈ t.2) (h : e.ref.Nodup)
    (s : RefShape) (hs : refShape t.1 = some s) (hsh : s = .seg ∨ s = .quad ∨ s = .hexa ∨ (s = .tri ∧ e.neg = false))
    (p : List K) (hp : p.length = e.dim) :
    ∃ p', adaptCoor t.1 (castL e.ref.flatten) p = .ok p' ∧ p'.length = e.dim ∧ InHull e.ref p' ∧
      (InHull e.ref p → p' = p) ∧
      ((s = .tri → p.getD 0 0 ≤ 0 ∨ p.getD 1 0 ≤ 0) → ∀ q : List K, q.length = e.dim → InHull e.ref q →
        sqDistG e.dim p' p ≤ sqDistG e.dim q p) := by
  have hfl : e.ref.flatten ≠ [] := by
    have : ∀ t ∈ gaussTable, ∀ e ∈ t.2, e.ref.flatten ≠ [] := by decide
    exact this t ht e he
  have hcn : castL (K := K) e.ref.flatten ≠ [] := by simpa [castL] using hfl
  obtain ⟨s', hs', hd, _, _, _⟩ := gaussTable_cells t ht e he (.inl h)
  rw [hs] at hs'
  obtain rfl := Option.some.inj hs'
  have hno : ¬ ((s.usesRef = true ∧ castL (K := K) e.ref.flatten = []) ∨ p.length < s.dim) := by
    rw [not_or]; exact ⟨fun h => hcn h.2, by omega⟩
  have hdrop : p.drop s.dim = [] := List.drop_eq_nil_of_le (by omega)
  have hr0 : ∀ t ∈ gaussTable, ∀ e ∈ t.2, e.ref.Nodup → ∀ s ∈ (refShape t.1).toList,
      (s = .seg → (e.ref.flatten).getD 0 0 = if e.neg then -1 else 0) ∧
      (s = .tri → e.neg = false → (e.ref.flatten).getD 0 0 = 0) := by decide +kernel
  obtain ⟨r1, r2⟩ := hr0 t ht e he h s (by rw [hs]; simp)
  have hiff (q : List K) (hq : q.length = e.dim) := hull_iff t ht e he (.inl h) s hs q hq
  unfold adaptCoor
  rw [hs]
  dsimp only
  rcases hsh with rfl | rfl | rfl | ⟨rfl, hneg⟩
  · -- segments
    obtain ⟨x, rfl⟩ : ∃ x, p = [x] := by
      match p, hp.trans hd.symm with
      | [x], _ => exact ⟨x, rfl⟩
    have hv : ptOf (castL (K := K) e.ref.flatten) 0 = if e.neg then -1 else 0 := by
      rw [ptOf_cast]; unfold ptOf; dsimp only; rw [r1 rfl]; split <;> simp
    set a : K := if e.neg then -1 else 0 with ha
    have ha1 : a ≤ 1 := by rw [ha]; split <;> linarith [zero_lt_one (α := K)]
    have hin (q : List K) : InsideRef .seg e.neg q ↔ a ≤ ptOf q 0 ∧ ptOf q 0 ≤ 1 := by
      unfold InsideRef
      rw [ha]
      cases e.neg <;> simp [RefShape.faces, linAt, -and_congr_right_iff, -and_congr_left_iff]
      constructor <;> rintro ⟨h1, h2⟩ <;> constructor <;> linarith
    simp only [adapted, ok_bind, if_neg hno, hdrop, hv, List.append_nil]
    refine ⟨_, rfl, by rw [← hd]; rfl, ?_, ?_, ?_⟩
    · rw [hiff _ (by rw [← hd]; rfl), hin]; exact clamp_in x a ha1
    · rw [hiff _ hp, hin]; intro hh; simp only [ptOf] at *; simp only [List.getD_cons_zero] at *
      rw [clamp_id x a hh.1 hh.2]
    · intro _ q hq hh
      rw [hiff _ hq, hin] at hh
      rw [← hd]
      simpa [sqDistG, RefShape.dim, ptOf] using clamp_near x a _ hh.1 hh.2
  · -- quadrangles
    obtain ⟨x, y, rfl⟩ : ∃ x y, p = [x, y] := by
      match p, hp.trans hd.symm with
      | [x, y], _ => exact ⟨x, y, rfl⟩
    have ha1 : (-1 : K) ≤ 1 := by linarith [zero_lt_one (α := K)]
    have hin (q : List K) : InsideRef .quad e.neg q ↔ (-1 ≤ ptOf q 0 ∧ ptOf q 0 ≤ 1) ∧ (-1 ≤ ptOf q 1 ∧ ptOf q 1 ≤ 1) := by
      unfold InsideRef
      simp [RefShape.faces, linAt, -and_congr_right_iff, -and_congr_left_iff]
      constructor
      · rintro ⟨h1, h2, h3, h4⟩; exact ⟨⟨by linarith, by linarith⟩, by linarith, by linarith⟩
      · rintro ⟨⟨h1, h2⟩, h3, h4⟩; exact ⟨by linarith, by linarith, by linarith, by linarith⟩
    simp only [adapted, ok_bind, if_neg hno, hdrop, List.append_nil]
    refine ⟨_, rfl, by rw [← hd]; rfl, ?_, ?_, ?_⟩
    · rw [hiff _ (by rw [← hd]; rfl), hin]; exact ⟨clamp_in x _ ha1, clamp_in y _ ha1⟩
    · rw [hiff _ hp, hin]; rintro ⟨h1, h2⟩
      rw [clamp_id _ _ h1.1 h1.2, clamp_id _ _ h2.1 h2.2]; rfl
    · intro _ q hq hh
      rw [hiff _ hq, hin] at hh
      rw [← hd]
      have c1 := clamp_near x (-1) _ hh.1.1 hh.1.2
      have c2 := clamp_near y (-1) _ hh.2.1 hh.2.2
      simpa [sqDistG, RefShape.dim, ptOf, List.range_succ] using add_le_add c1 c2
  · -- hexahedra
    obtain ⟨x, y, z, rfl⟩ : ∃ x y z, p = [x, y, z] := by
      match p, hp.trans hd.symm with
      | [x, y, z], _ => exact ⟨x, y, z, rfl⟩
    have ha1 : (-1 : K) ≤ 1 := by linarith [zero_lt_one (α := K)]
    have hin (q : List K) : InsideRef .hexa e.neg q ↔ (-1 ≤ ptOf q 0 ∧ ptOf q 0 ≤ 1) ∧ (-1 ≤ ptOf q 1 ∧ ptOf q 1 ≤ 1) ∧
        (-1 ≤ ptOf q 2 ∧ ptOf q 2 ≤ 1) := by
      unfold InsideRef
      simp [RefShape.faces, linAt, -and_congr_right_iff, -and_congr_left_iff]
      constructor
      · rintro ⟨h1, h2, h3, h4, h5, h6⟩
        exact ⟨⟨by linarith, by linarith⟩, ⟨by linarith, by linarith⟩, by linarith, by linarith⟩
      · rintro ⟨⟨h1, h2⟩, ⟨h3, h4⟩, h5, h6⟩
        exact ⟨by linarith, by linarith, by linarith, by linarith, by linarith, by linarith⟩
    simp only [adapted, ok_bind, if_neg hno, hdrop, List.append_nil]
    refine ⟨_, rfl, by rw [← hd]; rfl, ?_, ?_, ?_⟩
    · rw [hiff _ (by rw [← hd]; rfl), hin]; exact ⟨clamp_in x _ ha1, clamp_in y _ ha1, clamp_in z _ ha1⟩
    · rw [hiff _ hp, hin]; rintro ⟨h1, h2, h3⟩
      rw [clamp_id _ _ h1.1 h1.2, clamp_id _ _ h2.1 h2.2, clamp_id _ _ h3.1 h3.2]; rfl
    · intro _ q hq hh
      rw [hiff _ hq, hin] at hh
      rw [← hd]
      have c1 := clamp_near x (-1) _ hh.1.1 hh.1.2
      have c2 := clamp_near y (-1) _ hh.2.1.1 hh.2.1.2
      have c3 := clamp_near z (-1) _ hh.2.2.1 hh.2.2.2
      simpa [sqDistG, RefShape.dim, ptOf, List.range_succ, add_assoc] using add_le_add c1 (add_le_add c2 c3)
  · -- triangles
    obtain ⟨x, y, rfl⟩ : ∃ x y, p = [x, y] := by
      match p, hp.trans hd.symm with
      | [x, y], _ => exact ⟨x, y, rfl⟩
    have hv : ptOf (castL (K := K) e.ref.flatten) 0 = 0 := by
      rw [ptOf_cast]; unfold ptOf; dsimp only; rw [r2 rfl hneg]; simp
    have hin (q : List K) : InsideRef .tri e.neg q ↔ 0 ≤ ptOf q 0 ∧ 0 ≤ ptOf q 1 ∧ ptOf q 0 + ptOf q 1 ≤ 1 := by
      unfold InsideRef
      rw [hneg]
      simp [RefShape.faces, linAt]
    simp only [adapted, ok_bind, if_neg hno, hdrop, List.append_nil, hv]
    refine ⟨_, rfl, by rw [← hd]; rfl, ?_, ?_, ?_⟩
    · rw [hiff _ (by rw [← hd]; rfl), hin]; exact adaptTri_in x y
    · rw [hiff _ hp, hin]; rintro ⟨h1, h2, h3⟩
      rw [adaptTri_id _ _ h1 h2 h3]; rfl
    · intro hxy q hq hh
      rw [hiff _ hq, hin] at hh
      rw [← hd]
      obtain ⟨q1, q2, q3⟩ := hh
      have hxy' : x ≤ 0 ∨ y ≤ 0 := hxy trivial
      clear hxy
      simp only [sqDistG, RefShape.dim, ptOf, List.range_succ, List.range_zero, List.nil_append, List.cons_append,
        List.map_cons, List.map_nil, List.sum_cons, List.sum_nil, List.getD_cons_zero, List.getD_cons_succ, add_zero] at *
      unfold adaptTri
      split
      · next hx =>
        have c2 := clamp_near y 0 _ q2 (by linarith)
        have c1 := mul_self_le_mul_self (show (0 : K) ≤ 0 - x by linarith) (show 0 - x ≤ q.getD 0 0 - x by linarith)
        exact add_le_add c1 c2
      · next hx =>
        have hy : y ≤ 0 := hxy'.resolve_left hx
        rw [if_pos hy]
        have c1 := clamp_near x 0 _ q1 (by linarith)
        have c2 := mul_self_le_mul_self (show (0 : K) ≤ 0 - y by linarith) (show 0 - y ≤ q.getD 1 0 - y by linarith)
        exact add_le_add c1 c2

/-- **C97.** The tetrahedra, the prisms and the pyramids are refused, and the types without reference cell. -/
theorem C97_adapt_refused (ct : Int) (ref p : List K)
    (h : refShape ct = none ∨ refShape ct = some .tetra ∨ refShape ct = some .penta ∨ refShape ct = some .pyra) :
    adaptCoor ct ref p = throwX := by
  unfold adaptCoor
  rcases h with h | h | h | h <;> rw [h] <;> rfl

/-- **C97.** Coordinates of another dimension than the cell: there are as many points as before, their coordinates are kept as
far as the dimension of the cell, and the missing ones are null. -/
theorem C97_normalized_coordinates (ct : Int) (cm : CellModel) (hcm : getCellModel ct = .ok cm) (dim : Nat) (hd : 0 < dim)
    (a : List K) (n : Nat) (ha : a.length = n * dim) :
    ∃ b, normalizeCoords ct dim a = .ok b ∧ b.length = n * cm.dim ∧
      ∀ i j, i < n → j < cm.dim → b[i * cm.dim + j]? = some (if j < dim then a.getD (i * dim + j) 0 else 0) := by
  unfold normalizeCoords
  rw [if_neg (by omega), if_neg (by rw [ha, Nat.mul_mod_left]; simp), hcm]
  dsimp only
  split
  · next h =>
    refine ⟨a, rfl, by rw [h, ha], fun i j hi hj => ?_⟩
    rw [h] at hj ⊢
    have : i * dim + j < a.length := by
      have := Nat.mul_le_mul_right dim (show i + 1 ≤ n by omega)
      rw [Nat.add_mul] at this; omega
    rw [if_pos hj, List.getElem?_eq_getElem this, List.getD_eq_getElem?_getD, List.getElem?_eq_getElem this]; rfl
  · rw [ha, Nat.mul_div_cancel _ hd]
    have hlen : ∀ n, ((List.range n).flatMap (normItem dim cm.dim a)).length = n * cm.dim := by
      intro n
      induction n with
      | zero => simp
      | succ n ih => rw [List.range_succ, List.flatMap_append, List.length_append, ih, Nat.add_mul]; simp [normItem]
    refine ⟨_, rfl, hlen n, fun i j hi hj => ?_⟩
    clear ha
    induction n with
    | zero => omega
    | succ n ih =>
      rw [List.range_succ, List.flatMap_append]
      by_cases h : i < n
      · rw [List.getElem?_append_left, ih h]
        rw [hlen]
        have := Nat.mul_le_mul_right cm.dim (show i + 1 ≤ n by omega)
        rw [Nat.add_mul] at this; omega
      · obtain rfl : i = n := by omega
        rw [List.getElem?_append_right (by rw [hlen]; omega), hlen, Nat.add_sub_cancel_left]
        simp [normItem, hj]

/-- **C97.** Coordinates which are not those of points of the dimension are refused. -/
theorem C97_normalized_refused (ct : Int) (dim : Nat) (a : List K) (h : dim = 0 ∨ a.length % dim ≠ 0) :
    normalizeCoords ct dim a = throwX := by
  unfold normalizeCoords
  by_cases hd : dim = 0
  · rw [if_pos hd]
  · rw [if_neg hd, if_pos (h.resolve_left hd)]

end

end MC
