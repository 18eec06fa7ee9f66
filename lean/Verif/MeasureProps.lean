import Verif.MeasureVol
import Verif.CellModelProps
import Verif.DescThm

/-!
# Lemmas on lengths, areas and volumes
-/

namespace MC

section
variable {K : Type} [Field K]

/-- The affine map `p ↦ A p + b` on points of `sd` coordinates -/
def affL (sd : Nat) (A : Nat → Nat → K) (b : Nat → K) (p : List K) : List K :=
  (List.range sd).map fun d => ((List.range sd).map fun c => A d c * p.getD c 0).sum + b d

/-- The same on points given by their coordinates -/
def affPt (sd : Nat) (A : Nat → Nat → K) (b : Nat → K) (p : Nat → K) : Nat → K := fun d =>
  if d < sd then ((List.range sd).map fun c => A d c * p c).sum + b d else 0

theorem tupPt_affL (sd : Nat) (A : Nat → Nat → K) (b : Nat → K) (p : List K) :
    tupPt (affL sd A b p) = affPt sd A b (tupPt p) := by
  funext d
  by_cases h : d < sd
  · simp [tupPt, affL, affPt, List.getD_eq_getElem?_getD, h]
  · simp [tupPt, affL, affPt, List.getD_eq_getElem?_getD, h, List.getElem?_eq_none (l := List.range sd) (i := d) (by simpa using h)]

theorem nodePt_map (F : List K → List K) (G : (Nat → K) → (Nat → K)) (h : ∀ p, tupPt (F p) = G (tupPt p))
    (coords : List (List K)) (n : Int) : nodePt (coords.map F) n = (nodePt coords n).map G := by
  unfold nodePt
  rw [rd_map]
  cases rd coords n with
  | error e => rfl
  | ok p => simp only [Except.map, ok_bind, h]

theorem mapM_map_ex {α β γ : Type} (f : β → γ) (F : α → M β) (G : α → M γ) (l : List α) (h : ∀ i ∈ l, G i = (F i).map f) :
    l.mapM G = (l.mapM F).map (List.map f) := by
  induction l with
  | nil => rfl
  | cons i l ih =>
    simp only [List.mapM_cons]
    rw [h i (by simp), ih fun j hj => h j (by simp [hj])]
    cases F i with
    | error e => rfl
    | ok a =>
      simp only [Except.map, ok_bind]
      cases l.mapM F with
      | error e => rfl
      | ok b => rfl

theorem nodePts_map (F : List K → List K) (G : (Nat → K) → (Nat → K)) (h : ∀ p, tupPt (F p) = G (tupPt p))
    (coords : List (List K)) (nodes : List Int) (n : Nat) :
    nodePts (coords.map F) nodes n = (nodePts coords nodes n).map (List.map G) := by
  unfold nodePts
  refine mapM_map_ex G _ _ _ fun i _ => ?_
  cases rd nodes i with
  | error e => rfl
  | ok c => simp only [ok_bind, nodePt_map F G h]

theorem nodePts_length {coords : List (List K)} {nodes : List Int} {n : Nat} {ps : List (Nat → K)}
    (h : nodePts coords nodes n = .ok ps) : ps.length = n := by
  have := mapM_length h
  simpa using this

theorem ptRk_map (G : (Nat → K) → (Nat → K)) (ps : List (Nat → K)) (i : Nat) (h : i < ps.length) :
    ptRk (ps.map G) i = G (ptRk ps i) := by
  simp [ptRk, List.getD_eq_getElem?_getD, h]

/-- Pairs of a point and of the next one, the last one being followed by the first one -/
def cycPairs {α : Type} (l : List α) : List (α × α) := l.zip (l.tail ++ l.take 1)

theorem cycPairs_map {α β : Type} (f : α → β) (l : List α) : cycPairs (l.map f) = (cycPairs l).map (Prod.map f f) := by
  unfold cycPairs
  rw [← List.map_tail, ← List.map_take, ← List.map_append, List.zip_map]

theorem getD_of_lt {α : Type} {l : List α} {i : Nat} (d : α) (h : i < l.length) : l.getD i d = l[i] := by
  simp [List.getD_eq_getElem?_getD, h]

theorem range_cyc {α β : Type} (g : α → α → β) (d : α) (l : List α) :
    ((List.range l.length).map fun i => g (l.getD i d) (l.getD ((i + 1) % l.length) d)) =
      (cycPairs l).map fun x => g x.1 x.2 := by
  refine List.ext_getElem ?_ ?_
  · cases l with
    | nil => simp [cycPairs]
    | cons a l => simp [cycPairs]
  · intro i h1 h2
    have hi : i < l.length := by simpa using h1
    simp only [List.getElem_map, List.getElem_range, cycPairs, List.getElem_zip]
    rw [getD_of_lt _ hi]
    have hlt : (i + 1) % l.length < l.length := Nat.mod_lt _ (by omega)
    rw [getD_of_lt _ hlt]
    congr 1
    by_cases hl : i + 1 < l.length
    · rw [List.getElem_append_left (by simp; omega)]
      simp [Nat.mod_eq_of_lt hl]
    · have he : i + 1 = l.length := by omega
      have h0 : i - (l.length - 1) = 0 := by omega
      rw [List.getElem_append_right (by simp; omega)]
      simp [he, h0]

theorem sum_cyc_swap (f : (Nat → K) → K) (l : List (Nat → K)) :
    ((cycPairs l).map fun x => f x.1).sum = ((cycPairs l).map fun x => f x.2).sum := by
  have h1 : (cycPairs l).map (fun x => f x.1) = l.map f := by
    have : (cycPairs l).map Prod.fst = l := by
      unfold cycPairs
      cases l with
      | nil => rfl
      | cons a l => rw [List.map_fst_zip]; simp
    conv_rhs => rw [← this]
    simp [List.map_map, Function.comp_def]
  have h2 : (cycPairs l).map (fun x => f x.2) = (l.tail ++ l.take 1).map f := by
    have : (cycPairs l).map Prod.snd = l.tail ++ l.take 1 := by
      unfold cycPairs
      cases l with
      | nil => rfl
      | cons a l => rw [List.map_snd_zip]; simp
    conv_rhs => rw [← this]
    simp [List.map_map, Function.comp_def]
  rw [h1, h2]
  cases l with
  | nil => rfl
  | cons a l => simp [add_comm]

theorem cycPairs_rotate_one {α : Type} (a : α) (l : List α) : (cycPairs (l ++ [a])).Perm (cycPairs (a :: l)) := by
  cases l with
  | nil => exact List.Perm.refl _
  | cons b l =>
    have h1 : cycPairs (b :: l ++ [a]) = (b :: l).zip (l ++ [a]) ++ [(a, b)] := by
      unfold cycPairs
      simp only [List.cons_append, List.tail_cons, List.take_succ_cons, List.take_zero]
      rw [← List.cons_append, List.zip_append (by simp)]
      rfl
    have h2 : cycPairs (a :: b :: l) = (a, b) :: (b :: l).zip (l ++ [a]) := by
      unfold cycPairs
      simp
    rw [h1, h2]
    exact List.perm_append_singleton _ _

theorem cycPairs_rotate {α : Type} (k : Nat) (l : List α) : (cycPairs (l.rotate k)).Perm (cycPairs l) := by
  induction k generalizing l with
  | zero => simp
  | succ k ih =>
    cases l with
    | nil => simp
    | cons a l =>
      rw [List.rotate_cons_succ]
      exact (ih _).trans (cycPairs_rotate_one a l)

theorem zip_rev {α β : Type} (l : List α) (m : List β) (h : l.length = m.length) :
    (l.zip m).reverse = l.reverse.zip m.reverse := by
  induction l generalizing m with
  | nil => cases m <;> simp
  | cons a l ih =>
    cases m with
    | nil => simp at h
    | cons b m =>
      simp only [List.length_cons, Nat.add_right_cancel_iff] at h
      simp only [List.zip_cons_cons, List.reverse_cons, ih m h]
      rw [List.zip_append (by simpa using h)]
      rfl

theorem cycPairs_inv {α : Type} (a : α) (l : List α) :
    cycPairs (a :: l.reverse) = ((cycPairs (a :: l)).map Prod.swap).reverse := by
  unfold cycPairs
  simp only [List.tail_cons, List.take_succ_cons, List.take_zero]
  rw [List.zip_swap, zip_rev _ _ (by simp)]
  simp

theorem cycPairs_reverse {α : Type} (l : List α) : (cycPairs l.reverse).Perm ((cycPairs l).map Prod.swap) := by
  cases l with
  | nil => exact List.Perm.refl _
  | cons a l =>
    rw [List.reverse_cons]
    refine (cycPairs_rotate_one a l.reverse).trans ?_
    rw [cycPairs_inv]
    exact List.reverse_perm _

theorem sum_map_perm {α : Type} (f : α → K) {l l' : List α} (h : l.Perm l') : (l.map f).sum = (l'.map f).sum :=
  (h.map f).sum_eq

theorem sum_map_add_list {α : Type} (f g : α → K) (l : List α) : (l.map fun x => f x + g x).sum = (l.map f).sum + (l.map g).sum := by
  induction l with
  | nil => simp
  | cons a l ih => simp only [List.map_cons, List.sum_cons, ih]; ring

theorem sum_map_mul_list {α : Type} (c : K) (f : α → K) (l : List α) : (l.map fun x => c * f x).sum = c * (l.map f).sum := by
  induction l with
  | nil => simp
  | cons a l ih => simp only [List.map_cons, List.sum_cons, ih]; ring

theorem sum_cyc_diff (f : (Nat → K) → K) (g : (Nat → K) × (Nat → K) → K) (l : List (Nat → K)) :
    ((cycPairs l).map fun x => g x + (f x.1 - f x.2)).sum = ((cycPairs l).map g).sum := by
  have h : (fun x : (Nat → K) × (Nat → K) => g x + (f x.1 - f x.2)) = fun x => (g x + f x.1) + (-1) * f x.2 := by
    funext x; ring
  rw [h, sum_map_add_list, sum_map_add_list, sum_map_mul_list (-1) (fun x : (Nat → K) × (Nat → K) => f x.2), sum_cyc_swap f l]
  ring

/-- The sum of a function of the oriented edges which changes its sign with the edge is null when each edge has its
opposite. -/
theorem sum_closed [CharZero K] {α : Type} (E : α × α → K) (hE : ∀ x, E x.swap = -E x) (l : List (α × α))
    (h : l.Perm (l.map Prod.swap)) : (l.map E).sum = 0 := by
  have h1 := sum_map_perm E h
  rw [List.map_map] at h1
  have h2 : (E ∘ Prod.swap) = fun x => (-1) * E x := by
    funext x; simp [hE]
  rw [h2, sum_map_mul_list] at h1
  have : (2 : K) * (l.map E).sum = 0 := by linear_combination h1
  simpa using this

/-! ## Plane -/

def cross2 (a b : Nat → K) : K := a 0 * b 1 - b 0 * a 1

theorem areaPolyg2_eq [CharZero K] (sqrtF : K → K) (ps : List (Nat → K)) :
    areaPolyg sqrtF 2 ps = -((cycPairs ps).map fun x => cross2 x.1 x.2).sum / 2 := by
  unfold areaPolyg
  have h := range_cyc (fun a b => areaTria sqrtF 2 a b (baryDyn ps)) (fun _ => 0) ps
  unfold ptRk
  rw [h]
  have h2 : (fun x : (Nat → K) × (Nat → K) => areaTria sqrtF 2 x.1 x.2 (baryDyn ps)) = fun x =>
      (-1 / 2) * cross2 x.1 x.2 + (cross2 x.1 (baryDyn ps) / 2 - cross2 x.2 (baryDyn ps) / 2) := by
    funext x
    simp only [areaTria, if_true, areaTria2, cross2]
    ring
  rw [h2, sum_cyc_diff (fun p => cross2 p (baryDyn ps) / 2) (fun x => (-1 / 2) * cross2 x.1 x.2),
    sum_map_mul_list (-1 / 2) (fun x : (Nat → K) × (Nat → K) => cross2 x.1 x.2)]
  ring

/-! ## Volumes -/

def trip (a b c : Nat → K) : K :=
  a 0 * (b 1 * c 2 - b 2 * c 1) + a 1 * (b 2 * c 0 - b 0 * c 2) + a 2 * (b 0 * c 1 - b 1 * c 0)

theorem faceTerm_eq (ps : List (Nat → K)) :
    faceTerm ps = ((cycPairs ps).map fun x => trip (ptRk ps 0) x.1 x.2).sum := by
  unfold faceTerm areaVector
  have h0 := range_cyc (fun a b : Nat → K => a 1 * b 2 - a 2 * b 1) (fun _ => 0) ps
  have h1 := range_cyc (fun a b : Nat → K => a 2 * b 0 - a 0 * b 2) (fun _ => 0) ps
  have h2 := range_cyc (fun a b : Nat → K => a 0 * b 1 - a 1 * b 0) (fun _ => 0) ps
  simp only [ptRk, if_true, one_ne_zero, if_false, OfNat.ofNat_ne_zero, OfNat.ofNat_ne_one] at h0 h1 h2 ⊢
  rw [h0, h1, h2, ← sum_map_mul_list, ← sum_map_mul_list, ← sum_map_mul_list, ← sum_map_add_list, ← sum_map_add_list]
  rfl

def det3 (A : Nat → Nat → K) : K :=
  A 0 0 * (A 1 1 * A 2 2 - A 1 2 * A 2 1) - A 0 1 * (A 1 0 * A 2 2 - A 1 2 * A 2 0) +
    A 0 2 * (A 1 0 * A 2 1 - A 1 1 * A 2 0)

def det2 (A : Nat → Nat → K) : K := A 0 0 * A 1 1 - A 0 1 * A 1 0

theorem affPt3 (A : Nat → Nat → K) (b p : Nat → K) (d : Nat) (h : d < 3) :
    affPt 3 A b p d = A d 0 * p 0 + A d 1 * p 1 + A d 2 * p 2 + b d := by
  simp [affPt, h, List.range_succ, add_assoc]

theorem affPt2 (A : Nat → Nat → K) (b p : Nat → K) (d : Nat) (h : d < 2) :
    affPt 2 A b p d = A d 0 * p 0 + A d 1 * p 1 + b d := by
  simp [affPt, h, List.range_succ]

theorem volTetra_aff (A : Nat → Nat → K) (b p1 p2 p3 p4 : Nat → K) :
    volTetra (affPt 3 A b p1) (affPt 3 A b p2) (affPt 3 A b p3) (affPt 3 A b p4) = det3 A * volTetra p1 p2 p3 p4 := by
  simp only [volTetra, affPt3 _ _ _ _ (show 0 < 3 by omega), affPt3 _ _ _ _ (show 1 < 3 by omega),
    affPt3 _ _ _ _ (show 2 < 3 by omega), det3]
  ring

/-- The linear part -/
def linPt (A : Nat → Nat → K) (p : Nat → K) : Nat → K := affPt 3 A (fun _ => 0) p

theorem faceTerm_aff (A : Nat → Nat → K) (b : Nat → K) (ps : List (Nat → K)) (hne : ps ≠ []) :
    faceTerm (ps.map (affPt 3 A b)) =
      det3 A * faceTerm ps + ((cycPairs ps).map fun x => trip b (linPt A x.1) (linPt A x.2)).sum := by
  rw [faceTerm_eq, faceTerm_eq, cycPairs_map, List.map_map]
  have hl : 0 < ps.length := List.length_pos_iff.mpr hne
  rw [ptRk_map _ _ _ hl]
  set p := ptRk ps 0
  have h : ((fun x : (Nat → K) × (Nat → K) => trip (affPt 3 A b p) x.1 x.2) ∘ Prod.map (affPt 3 A b) (affPt 3 A b)) =
      fun x => (det3 A * trip p x.1 x.2 + trip b (linPt A x.1) (linPt A x.2)) +
        (trip (affPt 3 A b p) (linPt A x.1) b - trip (affPt 3 A b p) (linPt A x.2) b) := by
    funext x
    simp only [Function.comp_apply, Prod.map_fst, Prod.map_snd, trip, linPt, affPt3 _ _ _ _ (show 0 < 3 by omega),
      affPt3 _ _ _ _ (show 1 < 3 by omega), affPt3 _ _ _ _ (show 2 < 3 by omega), det3]
    ring
  rw [h, sum_cyc_diff (fun q => trip (affPt 3 A b p) (linPt A q) b)
    (fun x => det3 A * trip p x.1 x.2 + trip b (linPt A x.1) (linPt A x.2)), sum_map_add_list, sum_map_mul_list]

/-- Every oriented edge of the faces is, the other way round, an oriented edge of the faces. -/
def ClosedFaces {α : Type} (fs : List (List α)) : Prop :=
  (fs.flatMap cycPairs).Perm ((fs.flatMap cycPairs).map Prod.swap)

theorem ClosedFaces.map {α β : Type} (f : α → β) {fs : List (List α)} (h : ClosedFaces fs) :
    ClosedFaces (fs.map (List.map f)) := by
  unfold ClosedFaces at *
  have h1 : (fs.map (List.map f)).flatMap cycPairs = (fs.flatMap cycPairs).map (Prod.map f f) := by
    induction fs with
    | nil => rfl
    | cons a l ih =>
      simp only [List.map_cons, List.flatMap_cons, List.map_append, cycPairs_map, List.flatMap_map, List.map_flatMap]
  rw [h1]
  have := h.map (Prod.map f f)
  rw [List.map_map] at this ⊢
  exact this

/-- The volume of a polyhedron from the points of its faces -/
def polyVol (fs : List (List (Nat → K))) : K := (fs.map faceTerm).sum / 6

theorem sum_flatMap_map {α β : Type} (E : β → K) (g : α → List β) (l : List α) :
    ((l.flatMap g).map E).sum = (l.map fun a => ((g a).map E).sum).sum := by
  induction l with
  | nil => rfl
  | cons a l ih => simp [ih]

theorem polyVol_aff [CharZero K] (A : Nat → Nat → K) (b : Nat → K) (fs : List (List (Nat → K))) (hne : ∀ f ∈ fs, f ≠ [])
    (hc : ClosedFaces fs) : polyVol (fs.map (List.map (affPt 3 A b))) = det3 A * polyVol fs := by
  unfold polyVol
  rw [List.map_map]
  have h1 : fs.map (faceTerm ∘ List.map (affPt 3 A b)) = fs.map fun ps =>
      det3 A * faceTerm ps + ((cycPairs ps).map fun x => trip b (linPt A x.1) (linPt A x.2)).sum :=
    List.map_congr_left fun ps hp => faceTerm_aff A b ps (hne ps hp)
  rw [h1, sum_map_add_list, sum_map_mul_list, ← sum_flatMap_map (fun x : (Nat → K) × (Nat → K) => trip b (linPt A x.1) (linPt A x.2)),
    sum_closed (fun x : (Nat → K) × (Nat → K) => trip b (linPt A x.1) (linPt A x.2)) _ _ hc]
  · ring
  · intro x
    simp only [Prod.fst_swap, Prod.snd_swap, trip]
    ring

end
end MC
