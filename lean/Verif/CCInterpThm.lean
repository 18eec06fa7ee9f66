import Verif.CCInterpFill
import Verif.RemapperProps
import Mathlib.Data.Rat.Floor
import Mathlib.Tactic.NormNum

/-!
# The matrix of the intersections of two Cartesian grids
-/

set_option linter.unusedSectionVars false

namespace MC
section
open Finset
variable {K : Type} [Field K] [LinearOrder K] [IsStrictOrderedRing K]

/-! ## Vocabulary -/

/-- the numbers of cells along the axes -/
def nbAlong (axes : List (List K)) : List Nat := axes.map fun x => x.length - 1

/-- the position along the axes of the cell of a given number, the first axis being the fastest -/
def gridPos : List Nat → Nat → List Nat
  | [], _ => []
  | n :: ns, id => id % n :: gridPos ns (id / n)

/-- the common volume of two cells given by their positions: the product of the common lengths -/
def cutVol : (src tgt : List (List K)) → (I J : List Nat) → K
  | s :: src, t :: tgt, i :: I, j :: J => max 0 (cutLen s t i j) * cutVol src tgt I J
  | _, _, _, _ => 1

/-- the volume of a cell given by its position: the product of its lengths -/
def cellVol : (axes : List (List K)) → (I : List Nat) → K
  | x :: axes, i :: I => (x.getD (i + 1) 0 - x.getD i 0) * cellVol axes I
  | _, _ => 1

/-- Two grids of the same dimension, no cell of which is smaller than the precision along an axis. -/
structure GridsOK (eps : K) (src tgt : List (List K)) : Prop where
  pos : 0 < eps
  dim : src.length = tgt.length
  ne : src ≠ []
  srcOK : ∀ x ∈ src, x ≠ [] ∧ AxisOK eps x
  tgtOK : ∀ x ∈ tgt, x ≠ [] ∧ AxisOK eps x

/-- Along each axis, a coordinate of a grid and a coordinate of the other one are equal or `eps` apart. -/
def Separated (eps : K) (src tgt : List (List K)) : Prop :=
  List.Forall₂ (fun s t => ∀ a ∈ s, ∀ b ∈ t, a = b ∨ eps ≤ |a - b|) src tgt

/-- Along each axis the coordinates of the second grid lie between the first and the last coordinates of the first one. -/
def Covers (src tgt : List (List K)) : Prop :=
  List.Forall₂ (fun s t => s.getD 0 0 ≤ t.getD 0 0 ∧ t.getD (t.length - 1) 0 ≤ s.getD (s.length - 1) 0) src tgt

/-! ## Numbers and positions -/

theorem cellNo_lt {ns I : List Nat} (h : List.Forall₂ (fun i n => i < n) I ns) : cellNo ns I < ns.prod := by
  induction h with
  | nil => simp [cellNo]
  | @cons i n I ns hi _ ih =>
    rw [cellNo, List.prod_cons]
    calc i + n * cellNo ns I < n + n * cellNo ns I := by omega
      _ = n * (cellNo ns I + 1) := by ring
      _ ≤ n * ns.prod := Nat.mul_le_mul_left _ ih

theorem gridPos_cellNo {ns I : List Nat} (h : List.Forall₂ (fun i n => i < n) I ns) : gridPos ns (cellNo ns I) = I := by
  induction h with
  | nil => rfl
  | @cons i n I ns hi _ ih =>
    rw [cellNo, gridPos, Nat.add_mul_mod_self_left, Nat.mod_eq_of_lt hi, Nat.add_mul_div_left _ _ (by omega), Nat.div_eq_of_lt hi, Nat.zero_add, ih]

theorem gridPos_lt {ns : List Nat} : ∀ {id : Nat}, id < ns.prod → List.Forall₂ (fun i n => i < n) (gridPos ns id) ns ∧ cellNo ns (gridPos ns id) = id := by
  induction ns with
  | nil => intro id h; simp only [List.prod_nil] at h; exact ⟨List.Forall₂.nil, by simp [cellNo]; omega⟩
  | cons n ns ih =>
    intro id h
    rw [List.prod_cons] at h
    have hn : 0 < n := Nat.pos_of_ne_zero (by rintro rfl; simp at h)
    obtain ⟨h1, h2⟩ := ih (Nat.div_lt_of_lt_mul h)
    exact ⟨List.Forall₂.cons (Nat.mod_lt _ hn) h1, by rw [gridPos, cellNo, h2]; exact Nat.mod_add_div _ _⟩

theorem gridCells_nat {axes : List (List K)} (h : ∀ x ∈ axes, x ≠ []) : gridCells axes = ((nbAlong axes).prod : Nat) := by
  have key : ∀ (axes : List (List K)) (p : Int), (∀ x ∈ axes, x ≠ []) → axes.foldl (fun p x => p * axisCells x) p = p * ((nbAlong axes).prod : Nat) := by
    intro axes
    induction axes with
    | nil => intro p _; simp [nbAlong]
    | cons x axes ih =>
      intro p h
      have hx : 0 < x.length := List.length_pos_iff.mpr (h x (by simp))
      rw [List.foldl_cons, ih _ fun y hy => h y (List.mem_cons_of_mem _ hy)]
      simp only [nbAlong, List.map_cons, List.prod_cons, axisCells]
      have : (x.length : Int) - 1 = ((x.length - 1 : Nat) : Int) := by omega
      rw [this]; push_cast; ring
  rw [gridCells, key axes 1 h, one_mul]

/-! ## The interferences along all the axes -/

/-- the interferences of all the axes -/
def AxesFound (eps : K) : (src tgt : List (List K)) → (ls : List (List (Interf K))) → Prop
  | [], [], [] => True
  | s :: src, t :: tgt, l :: ls => AxisFound eps s t 0 0 l ∧ AxesFound eps src tgt ls
  | _, _, _ => False

/-- no interference along an axis -/
def AxisEmpty (eps : K) : (src tgt : List (List K)) → Prop
  | s :: src, t :: tgt => AxisFound eps s t 0 0 [] ∨ AxisEmpty eps src tgt
  | _, _ => False

theorem ccAxes_ok {eps : K} (he : 0 < eps) {fuel : Nat} : ∀ {src tgt : List (List K)}, src.length = tgt.length → (∀ x ∈ src, AxisOK eps x) →
    (∀ x ∈ tgt, AxisOK eps x) → (∀ s ∈ src, ∀ t ∈ tgt, s.length + t.length ≤ fuel) →
    (ccAxes eps fuel src tgt = .ok (some none) ∧ AxisEmpty eps src tgt) ∨ ∃ ls, ccAxes eps fuel src tgt = .ok (some (some ls)) ∧ AxesFound eps src tgt ls
  | [], [], _, _, _, _ => Or.inr ⟨[], rfl, trivial⟩
  | [], _ :: _, h, _, _, _ => by simp at h
  | _ :: _, [], h, _, _, _ => by simp at h
  | s :: src, t :: tgt, h, hs, ht, hf => by
    rcases ccAxis_ok he (hs s (by simp)) (ht t (by simp)) (fuel := fuel) (by have := hf s (by simp) t (by simp); omega) with ⟨e1, e2⟩ | ⟨l, e1, e2⟩
    · left
      exact ⟨by rw [ccAxes, e1, ok_bind], Or.inl e2⟩
    · rcases ccAxes_ok he (src := src) (tgt := tgt) (fuel := fuel) (by simpa using h) (fun x hx => hs x (List.mem_cons_of_mem _ hx))
          (fun x hx => ht x (List.mem_cons_of_mem _ hx)) (fun a ha b hb => hf a (List.mem_cons_of_mem _ ha) b (List.mem_cons_of_mem _ hb)) with ⟨f1, f2⟩ | ⟨ls, f1, f2⟩
      · left
        refine ⟨?_, Or.inr f2⟩
        rw [ccAxes, e1, ok_bind]
        simp only
        rw [f1]; rfl
      · right
        refine ⟨l :: ls, ?_, e2, f2⟩
        rw [ccAxes, e1, ok_bind]
        simp only
        rw [f1]; rfl

/-- along some axis the common length of the two cells is smaller than the precision -/
def Thin (eps : K) : (src tgt : List (List K)) → (I J : List Nat) → Prop
  | s :: src, t :: tgt, i :: I, j :: J => cutLen s t i j < eps ∨ Thin eps src tgt I J
  | _, _, _, _ => False

theorem thin_of_empty {eps : K} : ∀ {src tgt : List (List K)} {I J : List Nat}, AxisEmpty eps src tgt → List.Forall₂ (fun i n => i < n) I (nbAlong src) →
    List.Forall₂ (fun i n => i < n) J (nbAlong tgt) → Thin eps src tgt I J
  | s :: src, t :: tgt, i :: I, j :: J, h, hI, hJ => by
    simp only [nbAlong, List.map_cons] at hI hJ
    cases hI with
    | cons hi hI =>
    cases hJ with
    | cons hj hJ =>
    rcases h with h | h
    · rcases h.all i j (by omega) (by omega) (by omega) (by omega) with ⟨e, he, _⟩ | h
      · cases he
      · exact Or.inl h
    · exact Or.inr (thin_of_empty h hI hJ)
  | [], _, _, _, h, _, _ => absurd h (by simp [AxisEmpty])
  | _ :: _, [], _, _, h, _, _ => absurd h (by simp [AxisEmpty])
  | _ :: _, _ :: _, [], _, _, hI, _ => by simp [nbAlong] at hI
  | _ :: _, _ :: _, _ :: _, [], _, _, hJ => by simp [nbAlong] at hJ

/-- the interferences with the numbers of cells, as natural numbers -/
def withN : List (List (Interf K)) → (src tgt : List (List K)) → List (List (Interf K) × Nat × Nat)
  | l :: ls, s :: src, t :: tgt => (l, s.length - 1, t.length - 1) :: withN ls src tgt
  | _, _, _ => []

theorem withN_facts {eps : K} : ∀ {src tgt : List (List K)} {ls : List (List (Interf K))}, AxesFound eps src tgt ls → (∀ x ∈ src, x ≠ []) → (∀ x ∈ tgt, x ≠ []) →
    withCells ls src tgt = (withN ls src tgt).map (fun a => (a.1, (a.2.1 : Int), (a.2.2 : Int))) ∧
    (withN ls src tgt).map (fun a => a.2.1) = nbAlong src ∧ (withN ls src tgt).map (fun a => a.2.2) = nbAlong tgt
  | [], [], [], _, _, _ => ⟨rfl, rfl, rfl⟩
  | s :: src, t :: tgt, l :: ls, h, hs, ht => by
    obtain ⟨i1, i2, i3⟩ := withN_facts h.2 (fun x hx => hs x (List.mem_cons_of_mem _ hx)) (fun x hx => ht x (List.mem_cons_of_mem _ hx))
    have a1 : 0 < s.length := List.length_pos_iff.mpr (hs s (by simp))
    have a2 : 0 < t.length := List.length_pos_iff.mpr (ht t (by simp))
    refine ⟨?_, ?_, ?_⟩
    · rw [withCells, withN, List.map_cons, i1]
      congr 1
      simp only [axisCells, Prod.mk.injEq, true_and]
      omega
    · rw [withN, List.map_cons, i2]; rfl
    · rw [withN, List.map_cons, i3]; rfl
  | [], _ :: _, _, h, _, _ => h.elim
  | [], [], _ :: _, h, _, _ => h.elim
  | _ :: _, [], _, h, _, _ => h.elim
  | _ :: _, _ :: _, [], h, _, _ => h.elim

/-- a choice of interferences gives two positions and the common volume -/
theorem choice_facts {eps : K} : ∀ {src tgt : List (List K)} {ls : List (List (Interf K))} {ch : List (Interf K)}, AxesFound eps src tgt ls →
    List.Forall₂ (fun i (a : List (Interf K) × Nat × Nat) => i ∈ a.1) ch (withN ls src tgt) →
    List.Forall₂ (fun i n => i < n) (ch.map Interf.src) (nbAlong src) ∧ List.Forall₂ (fun i n => i < n) (ch.map Interf.tgt) (nbAlong tgt) ∧
    (ch.map Interf.len).prod = cutVol src tgt (ch.map Interf.src) (ch.map Interf.tgt) ∧ 0 < (ch.map Interf.len).prod
  | [], [], [], ch, _, h => by
    obtain rfl := List.forall₂_nil_right_iff.mp h
    exact ⟨List.Forall₂.nil, List.Forall₂.nil, rfl, by simp⟩
  | s :: src, t :: tgt, l :: ls, ch, h, hc => by
    rw [withN] at hc
    obtain ⟨i, ch', hi, hc', rfl⟩ := List.forall₂_cons_right_iff.mp hc
    obtain ⟨a1, a2, a3, a4⟩ := choice_facts h.2 hc'
    obtain ⟨b1, b2, b3, b4⟩ := h.1.mem i hi
    refine ⟨List.Forall₂.cons (by simp only; omega) a1, List.Forall₂.cons (by simp only; omega) a2, ?_, ?_⟩
    · simp only [List.map_cons, List.prod_cons, cutVol, a3]
      rw [max_eq_right (by rw [← b3]; exact b4.le), b3]
    · simp only [List.map_cons, List.prod_cons]
      exact mul_pos b4 a4
  | [], _ :: _, _, _, h, _ => h.elim
  | [], [], _ :: _, _, h, _ => h.elim
  | _ :: _, [], _, _, h, _ => h.elim
  | _ :: _, _ :: _, [], _, h, _ => h.elim

theorem choice_exists {eps : K} : ∀ {src tgt : List (List K)} {ls : List (List (Interf K))} {I J : List Nat}, AxesFound eps src tgt ls →
    List.Forall₂ (fun i n => i < n) I (nbAlong src) → List.Forall₂ (fun i n => i < n) J (nbAlong tgt) →
    (∃ ch, List.Forall₂ (fun i (a : List (Interf K) × Nat × Nat) => i ∈ a.1) ch (withN ls src tgt) ∧ ch.map Interf.src = I ∧ ch.map Interf.tgt = J) ∨ Thin eps src tgt I J
  | [], [], [], I, J, _, hI, hJ => by
    obtain rfl := List.forall₂_nil_right_iff.mp hI
    obtain rfl := List.forall₂_nil_right_iff.mp hJ
    exact Or.inl ⟨[], List.Forall₂.nil, rfl, rfl⟩
  | s :: src, t :: tgt, l :: ls, I, J, h, hI, hJ => by
    simp only [nbAlong, List.map_cons] at hI hJ
    obtain ⟨i, I', hi, hI', rfl⟩ := List.forall₂_cons_right_iff.mp hI
    obtain ⟨j, J', hj, hJ', rfl⟩ := List.forall₂_cons_right_iff.mp hJ
    rcases choice_exists h.2 hI' hJ' with ⟨ch, c1, c2, c3⟩ | ht
    · rcases h.1.all i j (by omega) (by omega) (by omega) (by omega) with ⟨e, e1, e2, e3⟩ | h'
      · exact Or.inl ⟨e :: ch, List.Forall₂.cons e1 c1, by rw [List.map_cons, e2, c2], by rw [List.map_cons, e3, c3]⟩
      · exact Or.inr (Or.inl h')
    · exact Or.inr (Or.inr ht)
  | [], _ :: _, _, _, _, h, _, _ => h.elim
  | [], [], _ :: _, _, _, h, _, _ => h.elim
  | _ :: _, [], _, _, _, h, _, _ => h.elim
  | _ :: _, _ :: _, [], _, _, h, _, _ => h.elim

/-- what is known of the matrix -/
theorem matrix_gen {eps : K} {src tgt : List (List K)} (h : GridsOK eps src tgt) {fuel : Nat} (hf : ∀ s ∈ src, ∀ t ∈ tgt, s.length + t.length ≤ fuel) :
    ∃ W, interpolateCC eps fuel src tgt = .ok (some W) ∧ CrudeOK W (nbAlong tgt).prod (nbAlong src).prod ∧ (∀ row ∈ W, ∀ e ∈ row, 0 < e.2) ∧
      ∀ i < (nbAlong tgt).prod, ∀ j < (nbAlong src).prod,
        coef W i j = cutVol src tgt (gridPos (nbAlong src) j) (gridPos (nbAlong tgt) i) ∨
        (coef W i j = 0 ∧ Thin eps src tgt (gridPos (nbAlong src) j) (gridPos (nbAlong tgt) i)) := by
  have hn : (gridCells tgt).toNat = (nbAlong tgt).prod := by rw [gridCells_nat fun x hx => (h.tgtOK x hx).1]; rfl
  rcases ccAxes_ok h.pos h.dim (fun x hx => (h.srcOK x hx).2) (fun x hx => (h.tgtOK x hx).2) hf with ⟨e1, e2⟩ | ⟨ls, e1, e2⟩
  · refine ⟨List.replicate (nbAlong tgt).prod [], ?_, ⟨by simp, ?_, ?_⟩, ?_, ?_⟩
    · rw [interpolateCC, e1, hn, ok_bind]
    · intro row hrow; rw [List.eq_of_mem_replicate hrow]; simp [StrictSorted]
    · intro row hrow; rw [List.eq_of_mem_replicate hrow]; simp
    · intro row hrow; rw [List.eq_of_mem_replicate hrow]; simp
    · intro i hi j hj
      refine Or.inr ⟨?_, thin_of_empty e2 (gridPos_lt hj).1 (gridPos_lt hi).1⟩
      rw [coef, List.getD_eq_getElem _ _ (by simpa using hi), List.getElem_replicate]
      rfl
  · obtain ⟨w1, w2, w3⟩ := withN_facts e2 (fun x hx => (h.srcOK x hx).1) (fun x hx => (h.tgtOK x hx).1)
    have hne : withN ls src tgt ≠ [] := by
      intro h0
      rw [h0] at w2
      have : src = [] := by simpa [nbAlong] using w2.symm
      exact h.ne this
    have hmem := fun e => mem_fillList (withN ls src tgt) 0 0 1 1 (1 : K) e hne
    rw [← w1] at hmem
    simp only [w2, w3, Nat.zero_add, Nat.one_mul, mul_one, Nat.cast_zero, Nat.cast_one] at hmem
    set L := fillList (withCells ls src tgt) 0 0 1 1 (1 : K) with hL
    obtain ⟨W, W1, W2⟩ := insert_all (n := (nbAlong tgt).prod) (L := L)
      (by
        intro e he
        obtain ⟨ch, c1, rfl⟩ := (hmem e).mp he
        obtain ⟨f1, f2, f3, f4⟩ := choice_facts e2 c1
        have := cellNo_lt f2
        simp only
        omega)
      (by
        intro t s v v' hv hv'
        obtain ⟨ch, c1, c2⟩ := (hmem _).mp hv
        obtain ⟨ch', c1', c2'⟩ := (hmem _).mp hv'
        simp only [Prod.mk.injEq] at c2 c2'
        obtain ⟨f1, f2, f3, f4⟩ := choice_facts e2 c1
        obtain ⟨f1', f2', f3', f4'⟩ := choice_facts e2 c1'
        rw [c2.2.2, c2'.2.2, f3, f3', ← gridPos_cellNo f1, ← gridPos_cellNo f2, ← gridPos_cellNo f1', ← gridPos_cellNo f2']
        have q1 : cellNo (nbAlong src) (ch.map Interf.src) = cellNo (nbAlong src) (ch'.map Interf.src) := by
          have := c2.2.1.symm.trans c2'.2.1; omega
        have q2 : cellNo (nbAlong tgt) (ch.map Interf.tgt) = cellNo (nbAlong tgt) (ch'.map Interf.tgt) := by
          have := c2.1.symm.trans c2'.1; omega
        rw [q1, q2])
    have elem : ∀ row ∈ W, ∀ e ∈ row, ∃ t < (nbAlong tgt).prod, ((t : Int), e.1, e.2) ∈ L := by
      intro row hrow e he
      obtain ⟨t, ht, rfl⟩ := List.mem_iff_getElem.mp hrow
      refine ⟨t, by rw [← W2.len]; exact ht, (W2.find t (by rw [← W2.len]; exact ht) _ _).mp ?_⟩
      rw [List.getD_eq_getElem _ _ ht]
      exact mapFind_of_mem (W2.sorted _ hrow) he
    refine ⟨W, ?_, ⟨W2.len, W2.sorted, ?_⟩, ?_, ?_⟩
    · rw [interpolateCC, e1, hn, ok_bind]
      simp only
      rw [ccFill_eq, ← hL, W1, ok_bind]
    · intro row hrow e he
      obtain ⟨t, ht, hm⟩ := elem row hrow e he
      obtain ⟨ch, c1, c2⟩ := (hmem _).mp hm
      simp only [Prod.mk.injEq] at c2
      have := cellNo_lt (choice_facts e2 c1).1
      rw [c2.2.1]
      omega
    · intro row hrow e he
      obtain ⟨t, ht, hm⟩ := elem row hrow e he
      obtain ⟨ch, c1, c2⟩ := (hmem _).mp hm
      simp only [Prod.mk.injEq] at c2
      rw [c2.2.2]
      exact (choice_facts e2 c1).2.2.2
    · intro i hi j hj
      obtain ⟨j1, j2⟩ := gridPos_lt hj
      obtain ⟨i1, i2⟩ := gridPos_lt hi
      rcases choice_exists e2 j1 i1 with ⟨ch, c1, c2, c3⟩ | ht
      · left
        have hm : ((i : Int), (j : Int), (ch.map Interf.len).prod) ∈ L := (hmem _).mpr ⟨ch, c1, by rw [c2, c3, i2, j2]⟩
        have := (W2.find i hi _ _).mpr hm
        rw [coef, rowAt, mapAt, this, Option.getD_some, (choice_facts e2 c1).2.2.1, c2, c3]
      · cases hfd : mapFind (W.getD i []) (j : Int) with
        | none => exact Or.inr ⟨by rw [coef, rowAt, mapAt, hfd]; rfl, ht⟩
        | some v =>
          left
          obtain ⟨ch, c1, c2⟩ := (hmem _).mp ((W2.find i hi _ _).mp hfd)
          simp only [Prod.mk.injEq] at c2
          obtain ⟨f1, f2, f3, f4⟩ := choice_facts e2 c1
          rw [coef, rowAt, mapAt, hfd, Option.getD_some, c2.2.2, f3, ← gridPos_cellNo f1, ← gridPos_cellNo f2]
          have q1 : cellNo (nbAlong src) (ch.map Interf.src) = j := by have := c2.2.1; omega
          have q2 : cellNo (nbAlong tgt) (ch.map Interf.tgt) = i := by have := c2.1; omega
          rw [q1, q2]

end
end MC
