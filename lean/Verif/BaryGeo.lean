import Verif.Bary
import Verif.MeasureGeo
import Mathlib.Tactic.Linarith

/-!
# C102: centers of mass, the algebra of moments
-/

namespace MC

section
variable {K : Type} [Field K]

/-! ## Sums over edges -/

theorem edgeSum_cyc (g : (Nat → K) → (Nat → K) → K) (ps : List (Nat → K)) :
    edgeSum g ps = ((cycPairs ps).map fun x => g x.1 x.2).sum := by
  have h := range_cyc g (fun _ => 0) ps
  unfold edgeSum ptRk
  rw [h]

theorem edgeSum_congr {g g' : (Nat → K) → (Nat → K) → K} (ps : List (Nat → K))
    (h : ∀ x ∈ cycPairs ps, g x.1 x.2 = g' x.1 x.2) : edgeSum g ps = edgeSum g' ps := by
  rw [edgeSum_cyc, edgeSum_cyc]
  congr 1
  exact List.map_congr_left h

theorem edgeSum_add (g g' : (Nat → K) → (Nat → K) → K) (ps : List (Nat → K)) :
    edgeSum (fun a b => g a b + g' a b) ps = edgeSum g ps + edgeSum g' ps := by
  simp only [edgeSum_cyc]
  exact sum_map_add_list _ _ _

theorem edgeSum_mul (c : K) (g : (Nat → K) → (Nat → K) → K) (ps : List (Nat → K)) :
    edgeSum (fun a b => c * g a b) ps = c * edgeSum g ps := by
  simp only [edgeSum_cyc]
  exact sum_map_mul_list _ _ _

theorem edgeSum_tele (f : (Nat → K) → K) (g : (Nat → K) → (Nat → K) → K) (ps : List (Nat → K)) :
    edgeSum (fun a b => g a b + (f a - f b)) ps = edgeSum g ps := by
  simp only [edgeSum_cyc]
  exact sum_cyc_diff f (fun x => g x.1 x.2) ps

/-- The points of the edges are those of the polygon. -/
theorem mem_cycPairs {α : Type} {l : List α} {x : α × α} (h : x ∈ cycPairs l) : x.1 ∈ l ∧ x.2 ∈ l := by
  have := List.of_mem_zip (show (x.1, x.2) ∈ _ from h)
  refine ⟨this.1, ?_⟩
  rcases List.mem_append.mp this.2 with h2 | h2
  · exact List.mem_of_mem_tail h2
  · exact List.mem_of_mem_take h2

/-! ## Plane -/

/-- Twice the area of the triangle, with the sign of the orientation -/
def tri2 (o a b : Nat → K) : K := (a 0 - o 0) * (b 1 - o 1) - (a 1 - o 1) * (b 0 - o 0)

theorem cross_from (o : Nat → K) (ps : List (Nat → K)) :
    edgeSum (fun a b => a 0 * b 1 - a 1 * b 0) ps = edgeSum (tri2 o) ps := by
  rw [← edgeSum_tele (fun p => o 0 * p 1 - o 1 * p 0) (fun a b => a 0 * b 1 - a 1 * b 0)]
  apply edgeSum_congr
  intro x _
  simp only [tri2]
  ring

theorem moment2_from (o : Nat → K) (k : Nat) (hk : k < 2) (ps : List (Nat → K)) :
    edgeSum (fun a b => (a 0 * b 1 - a 1 * b 0) * (a k + b k)) ps = edgeSum (fun a b => tri2 o a b * (o k + a k + b k)) ps := by
  have h : edgeSum (fun a b => tri2 o a b * (o k + a k + b k)) ps =
      edgeSum (fun a b => ((a 0 * b 1 - a 1 * b 0) * (a k + b k)) +
        ((o 0 * a 1 - o 1 * a 0) * (o k + a k) - (o 0 * b 1 - o 1 * b 0) * (o k + b k))) ps := by
    apply edgeSum_congr
    intro x _
    have : k = 0 ∨ k = 1 := by omega
    rcases this with rfl | rfl <;> simp only [tri2] <;> ring
  rw [h, edgeSum_tele (fun p => (o 0 * p 1 - o 1 * p 0) * (o k + p k)) (fun a b => (a 0 * b 1 - a 1 * b 0) * (a k + b k))]

/-! ## Space -/

/-- The vector product of the sides of a triangle -/
def triV (o a b : Nat → K) (k : Nat) : K :=
  if k = 0 then (a 1 - o 1) * (b 2 - o 2) - (a 2 - o 2) * (b 1 - o 1)
  else if k = 1 then (a 2 - o 2) * (b 0 - o 0) - (a 0 - o 0) * (b 2 - o 2)
  else (a 0 - o 0) * (b 1 - o 1) - (a 1 - o 1) * (b 0 - o 0)

/-- Volume of a tetrahedron, with the sign of the orientation -/
def tetV (o q a b : Nat → K) : K :=
  ((q 0 - o 0) * triV q a b 0 + (q 1 - o 1) * triV q a b 1 + (q 2 - o 2) * triV q a b 2) / 6

theorem areaVector_from (o : Nat → K) (ps : List (Nat → K)) (k : Nat) (hk : k < 3) :
    areaVector ps k = edgeSum (fun a b => triV o a b k) ps := by
  have hk3 : k = 0 ∨ k = 1 ∨ k = 2 := by omega
  rcases hk3 with rfl | rfl | rfl
  · have h : areaVector ps 0 = edgeSum (fun a b => a 1 * b 2 - a 2 * b 1) ps := by simp [areaVector, edgeSum]
    rw [h, ← edgeSum_tele (fun p => o 1 * p 2 - o 2 * p 1) (fun a b => a 1 * b 2 - a 2 * b 1)]
    apply edgeSum_congr
    intro x _
    simp only [triV, if_true]
    ring
  · have h : areaVector ps 1 = edgeSum (fun a b => a 2 * b 0 - a 0 * b 2) ps := by simp [areaVector, edgeSum]
    rw [h, ← edgeSum_tele (fun p => o 2 * p 0 - o 0 * p 2) (fun a b => a 2 * b 0 - a 0 * b 2)]
    apply edgeSum_congr
    intro x _
    simp only [triV, one_ne_zero, if_false, if_true]
    ring
  · have h : areaVector ps 2 = edgeSum (fun a b => a 0 * b 1 - a 1 * b 0) ps := by simp [areaVector, edgeSum]
    rw [h, ← edgeSum_tele (fun p => o 0 * p 1 - o 1 * p 0) (fun a b => a 0 * b 1 - a 1 * b 0)]
    apply edgeSum_congr
    intro x _
    simp only [triV, OfNat.ofNat_ne_zero, OfNat.ofNat_ne_one, if_false]
    ring

/-- The integral of the square over a triangle, up to a factor -/
def quad6 (x y z : K) : K := x * x + y * y + z * z + x * y + y * z + z * x

/-- The integrals over the three edges give the integral over the triangle. -/
theorem line3D_tri (A B C u1 v1 u2 v2 u3 v3 : K) (h24 : (24 : K) ≠ 0) :
    line3D u1 v1 u2 v2 A B C + line3D u2 v2 u3 v3 A B C + line3D u3 v3 u1 v1 A B C =
      ((u2 - u1) * (v3 - v1) - (v2 - v1) * (u3 - u1)) *
        quad6 (A * u1 + B * v1 + C) (A * u2 + B * v2 + C) (A * u3 + B * v3 + C) / 24 := by
  unfold line3D quad6
  field_simp
  ring

theorem line3D_anti (A B C u1 v1 u2 v2 : K) : line3D u2 v2 u1 v1 A B C = -line3D u1 v1 u2 v2 A B C := by
  unfold line3D
  ring

/-- The flux of half the square of a coordinate through a triangle -/
def flux (o a b : Nat → K) (k : Nat) : K := triV o a b k * quad6 (o k) (a k) (b k) / 24

theorem flux_anti (o a b : Nat → K) (k : Nat) : flux o b a k = -flux o a b k := by
  have h : triV o b a k = -triV o a b k := by
    unfold triV; split_ifs <;> ring
  unfold flux quad6
  rw [h]
  ring

theorem flux_rot (o a b : Nat → K) (k : Nat) : flux a b o k = flux o a b k := by
  have h : triV a b o k = triV o a b k := by
    unfold triV; split_ifs <;> ring
  unfold flux quad6
  rw [h]
  ring

/-- The flux through the four faces of a tetrahedron is the moment. -/
theorem flux_tet (o q a b : Nat → K) (k : Nat) (hk : k < 3) (h24 : (24 : K) ≠ 0) :
    flux q a b k = tetV o q a b * ((o k + q k + a k + b k) / 4) + (flux o a b k + (flux o q a k - flux o q b k)) := by
  have h4 : (4 : K) ≠ 0 := fun h => h24 (by linear_combination 6 * h)
  have h6 : (6 : K) ≠ 0 := fun h => h24 (by linear_combination 4 * h)
  have hk3 : k = 0 ∨ k = 1 ∨ k = 2 := by omega
  rcases hk3 with rfl | rfl | rfl <;>
    simp only [flux, tetV, triV, quad6, if_true, if_false, one_ne_zero, OfNat.ofNat_ne_zero, OfNat.ofNat_ne_one] <;>
    field_simp <;> ring

theorem trip_tet (o q a b : Nat → K) (h6 : (6 : K) ≠ 0) :
    trip q a b / 6 = tetV o q a b + (trip o a b / 6 + (trip o q a / 6 - trip o q b / 6)) := by
  simp only [tetV, triV, trip, if_true, if_false, one_ne_zero, OfNat.ofNat_ne_zero, OfNat.ofNat_ne_one]
  field_simp
  ring

/-- The first point of a face -/
abbrev p0 (ps : List (Nat → K)) : Nat → K := ptRk ps 0

/-- Volume of the polyhedron, cut in tetrahedra from any point. -/
theorem polyVol_from [CharZero K] (o : Nat → K) (fs : List (List (Nat → K))) (hc : ClosedFaces fs) :
    polyVol fs = (fs.map fun ps => edgeSum (fun a b => tetV o (p0 ps) a b) ps).sum := by
  unfold polyVol
  have h6 : (6 : K) ≠ 0 := by norm_num
  have h1 : (fs.map faceTerm).sum / 6 = (fs.map fun ps => edgeSum (fun a b => trip (p0 ps) a b / 6) ps).sum := by
    rw [div_eq_inv_mul, ← sum_map_mul_list]
    congr 1
    apply List.map_congr_left
    intro ps _
    rw [faceTerm_eq, edgeSum_cyc, ← sum_map_mul_list]
    congr 1
    apply List.map_congr_left
    intro x _
    rw [div_eq_inv_mul]
  rw [h1]
  have h2 : (fs.map fun ps => edgeSum (fun a b => trip (p0 ps) a b / 6) ps) = fs.map fun ps =>
      edgeSum (fun a b => tetV o (p0 ps) a b) ps + ((cycPairs ps).map fun x => trip o x.1 x.2 / 6).sum := by
    apply List.map_congr_left
    intro ps _
    rw [← edgeSum_cyc (fun a b => trip o a b / 6), ← edgeSum_add,
      ← edgeSum_tele (fun p => trip o (p0 ps) p / 6) (fun a b => tetV o (p0 ps) a b + trip o a b / 6)]
    apply edgeSum_congr
    intro x _
    rw [trip_tet o _ _ _ h6]
    ring
  rw [h2, sum_map_add_list, ← sum_flatMap_map (fun x : (Nat → K) × (Nat → K) => trip o x.1 x.2 / 6),
    sum_closed (fun x : (Nat → K) × (Nat → K) => trip o x.1 x.2 / 6) _ _ hc, add_zero]
  intro x
  simp only [Prod.fst_swap, Prod.snd_swap, trip]
  ring

/-- Moment of the polyhedron, cut in tetrahedra from any point. -/
theorem flux_from [CharZero K] (o : Nat → K) (fs : List (List (Nat → K))) (hc : ClosedFaces fs) (k : Nat) (hk : k < 3) :
    (fs.map fun ps => edgeSum (fun a b => flux (p0 ps) a b k) ps).sum =
      (fs.map fun ps => edgeSum (fun a b => tetV o (p0 ps) a b * ((o k + p0 ps k + a k + b k) / 4)) ps).sum := by
  have h24 : (24 : K) ≠ 0 := by norm_num
  have h2 : (fs.map fun ps => edgeSum (fun a b => flux (p0 ps) a b k) ps) = fs.map fun ps =>
      edgeSum (fun a b => tetV o (p0 ps) a b * ((o k + p0 ps k + a k + b k) / 4)) ps +
        ((cycPairs ps).map fun x => flux o x.1 x.2 k).sum := by
    apply List.map_congr_left
    intro ps _
    rw [← edgeSum_cyc (fun a b => flux o a b k), ← edgeSum_add,
      ← edgeSum_tele (fun p => flux o (p0 ps) p k)
        (fun a b => tetV o (p0 ps) a b * ((o k + p0 ps k + a k + b k) / 4) + flux o a b k)]
    apply edgeSum_congr
    intro x _
    rw [flux_tet o _ _ _ k hk h24]
    ring
  rw [h2, sum_map_add_list, ← sum_flatMap_map (fun x : (Nat → K) × (Nat → K) => flux o x.1 x.2 k),
    sum_closed (fun x : (Nat → K) × (Nat → K) => flux o x.1 x.2 k) _ _ hc, add_zero]
  intro x
  simp only [Prod.fst_swap, Prod.snd_swap]
  exact flux_anti _ _ _ _

end

/-! ## One face of a polyhedron -/

section
variable {K : Type} [Field K]

/-- The rotation keeps areas. -/
theorem rot_area (u0 u1 s c : K) (hu : u0 * u0 + u1 * u1 = 1) (q a b : Nat → K) :
    let A := u0 * u0 * (1 - c) + c
    let B := u0 * u1 * (1 - c)
    let D := u1 * s
    let G := u1 * u1 * (1 - c) + c
    let H := -u0 * s
    (A * b 0 + B * b 1 + D * b 2 - (A * a 0 + B * a 1 + D * a 2)) * (B * q 0 + G * q 1 + H * q 2 - (B * a 0 + G * a 1 + H * a 2)) -
      (B * b 0 + G * b 1 + H * b 2 - (B * a 0 + G * a 1 + H * a 2)) *
        (A * q 0 + B * q 1 + D * q 2 - (A * a 0 + B * a 1 + D * a 2)) =
      -u1 * s * triV q a b 0 + u0 * s * triV q a b 1 + c * triV q a b 2 := by
  intro A B D G H
  simp only [A, B, D, G, H, triV, if_true, if_false, one_ne_zero, OfNat.ofNat_ne_zero, OfNat.ofNat_ne_one]
  linear_combination (1 - c) * (-u1 * s * ((a 1 - q 1) * (b 2 - q 2) - (a 2 - q 2) * (b 1 - q 1)) +
    u0 * s * ((a 2 - q 2) * (b 0 - q 0) - (a 0 - q 0) * (b 2 - q 2)) +
    c * ((a 0 - q 0) * (b 1 - q 1) - (a 1 - q 1) * (b 0 - q 0))) * hu

theorem rot_x (u0 u1 s c x y z : K) (hu : u0 * u0 + u1 * u1 = 1) (hs : s * s + c * c = 1) :
    (u0 * u0 * (1 - c) + c) * ((u0 * u0 * (1 - c) + c) * x + u0 * u1 * (1 - c) * y + u1 * s * z) +
      u0 * u1 * (1 - c) * (u0 * u1 * (1 - c) * x + (u1 * u1 * (1 - c) + c) * y + -u0 * s * z) +
      -(-u1 * s * x + u0 * s * y + c * z) * (u1 * s) = x := by
  linear_combination (x * (u0 * u0 * (1 - c) * (1 - c) + s * s) + y * (u0 * u1 * (1 - c) * (1 - c))) * hu +
    (x * (1 - u0 * u0) - y * (u0 * u1)) * hs

theorem rot_y (u0 u1 s c x y z : K) (hu : u0 * u0 + u1 * u1 = 1) (hs : s * s + c * c = 1) :
    (u0 * u1 * (1 - c)) * ((u0 * u0 * (1 - c) + c) * x + u0 * u1 * (1 - c) * y + u1 * s * z) +
      (u1 * u1 * (1 - c) + c) * (u0 * u1 * (1 - c) * x + (u1 * u1 * (1 - c) + c) * y + -u0 * s * z) +
      -(-u1 * s * x + u0 * s * y + c * z) * (-u0 * s) = y := by
  linear_combination (y * (u1 * u1 * (1 - c) * (1 - c) + s * s) + x * (u0 * u1 * (1 - c) * (1 - c))) * hu +
    (y * (1 - u1 * u1) - x * (u0 * u1)) * hs

theorem rot_z (u0 u1 s c x y z : K) (hu : u0 * u0 + u1 * u1 = 1) (hs : s * s + c * c = 1) :
    -u1 * s * ((u0 * u0 * (1 - c) + c) * x + u0 * u1 * (1 - c) * y + u1 * s * z) +
      u0 * s * (u0 * u1 * (1 - c) * x + (u1 * u1 * (1 - c) + c) * y + -u0 * s * z) +
      -(-u1 * s * x + u0 * s * y + c * z) * c = -z := by
  linear_combination (-z * (s * s)) * hu - z * hs

theorem quad6_rot (x y z : K) : quad6 x y z = quad6 z x y := by
  unfold quad6; ring

theorem quad6_neg (x y z : K) : quad6 (-x) (-y) (-z) = quad6 x y z := by
  unfold quad6; ring

/-- In the plane of the face the rotation gives back the coordinates, and keeps areas. -/
theorem edgeMoment_tri (u0 u1 s c w : K) (hu : u0 * u0 + u1 * u1 = 1) (hs : s * s + c * c = 1) (n : Nat → K)
    (hn0 : n 0 = -u1 * s) (hn1 : n 1 = u0 * s) (hn2 : n 2 = c) (q a b : Nat → K)
    (hq : n 0 * q 0 + n 1 * q 1 + n 2 * q 2 = w) (ha : n 0 * a 0 + n 1 * a 1 + n 2 * a 2 = w)
    (hb : n 0 * b 0 + n 1 * b 1 + n 2 * b 2 = w) (h24 : (24 : K) ≠ 0) (k : Nat) (hk : k < 3) :
    edgeMoment n u0 u1 s c w a b k + edgeMoment n u0 u1 s c w b q k + edgeMoment n u0 u1 s c w q a k =
      (n 0 * triV q a b 0 + n 1 * triV q a b 1 + n 2 * triV q a b 2) * n k * quad6 (q k) (a k) (b k) / 24 := by
  have hA := rot_area u0 u1 s c hu q a b
  simp only at hA
  rw [hn0, hn1, hn2] at hq ha hb
  have hx : ∀ p : Nat → K, -u1 * s * p 0 + u0 * s * p 1 + c * p 2 = w → _ := fun p hp =>
    hp ▸ rot_x u0 u1 s c (p 0) (p 1) (p 2) hu hs
  have hy : ∀ p : Nat → K, -u1 * s * p 0 + u0 * s * p 1 + c * p 2 = w → _ := fun p hp =>
    hp ▸ rot_y u0 u1 s c (p 0) (p 1) (p 2) hu hs
  have hz : ∀ p : Nat → K, -u1 * s * p 0 + u0 * s * p 1 + c * p 2 = w → _ := fun p hp =>
    hp ▸ rot_z u0 u1 s c (p 0) (p 1) (p 2) hu hs
  have hk3 : k = 0 ∨ k = 1 ∨ k = 2 := by omega
  rcases hk3 with rfl | rfl | rfl
  · simp only [edgeMoment, if_true]
    rw [← add_mul, ← add_mul, line3D_tri _ _ _ _ _ _ _ _ _ h24, hA, hx q hq, hx a ha, hx b hb, quad6_rot, hn0, hn1, hn2]
    ring
  · simp only [edgeMoment, if_true, one_ne_zero, if_false]
    rw [← add_mul, ← add_mul, line3D_tri _ _ _ _ _ _ _ _ _ h24, hA, hy q hq, hy a ha, hy b hb, quad6_rot, hn0, hn1, hn2]
    ring
  · simp only [edgeMoment, if_false, OfNat.ofNat_ne_zero, OfNat.ofNat_ne_one]
    rw [← add_mul, ← add_mul, line3D_tri _ _ _ _ _ _ _ _ _ h24, hA, hz q hq, hz a ha, hz b hb, quad6_neg, quad6_rot, hn0,
      hn1, hn2]
    ring

theorem edgeMoment_anti (n : Nat → K) (u0 u1 s c w : K) (a b : Nat → K) (k : Nat) :
    edgeMoment n u0 u1 s c w b a k = -edgeMoment n u0 u1 s c w a b k := by
  simp only [edgeMoment]
  split_ifs <;> rw [line3D_anti] <;> ring

end

end MC
