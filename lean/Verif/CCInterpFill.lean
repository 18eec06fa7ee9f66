import Verif.CCInterpAxis
import Verif.RemapperMat
import Mathlib.Algebra.BigOperators.Group.List.Basic
import Mathlib.Algebra.BigOperators.Ring.Finset
import Mathlib.Tactic.Ring

/-!
# The matrix filled with the interferences of two Cartesian grids
-/

set_option linter.unusedSectionVars false

namespace MC
section
variable {K : Type} [Field K] [LinearOrder K] [IsStrictOrderedRing K]

/-- the number of a cell from its position along the axes, the first axis being the fastest -/
def cellNo : List Nat → List Nat → Nat
  | n :: ns, i :: I => i + n * cellNo ns I
  | _, _ => 0

/-- the elements which `ccFill` inserts: row, column, value -/
def fillList : List (List (Interf K) × Int × Int) → (srcI tgtI srcA tgtA : Int) → K → List (Int × Int × K)
  | [], _, _, _, _, _ => []
  | [(l, _, _)], srcI, tgtI, srcA, tgtA, prev => l.map fun i => (i.tgt * tgtA + tgtI, i.src * srcA + srcI, i.len * prev)
  | (l, ns, nt) :: a :: rest, srcI, tgtI, srcA, tgtA, prev =>
    l.flatMap fun i => fillList (a :: rest) (i.src * srcA + srcI) (i.tgt * tgtA + tgtI) (srcA * ns) (tgtA * nt) (i.len * prev)

theorem foldlM_map' {α β σ : Type} (l : List α) (g : α → β) (f : σ → β → M σ) (s : σ) : (l.map g).foldlM f s = l.foldlM (fun s a => f s (g a)) s := by
  induction l generalizing s with
  | nil => rfl
  | cons a l ih => simp only [List.map_cons, List.foldlM_cons, ih]

theorem foldlM_flatMap' {α β σ : Type} (l : List α) (g : α → List β) (f : σ → β → M σ) (s : σ) :
    (l.flatMap g).foldlM f s = l.foldlM (fun s a => (g a).foldlM f s) s := by
  induction l generalizing s with
  | nil => rfl
  | cons a l ih => simp only [List.flatMap_cons, List.foldlM_cons, List.foldlM_append, ih]

theorem ccFill_eq : ∀ (A : List (List (Interf K) × Int × Int)) (srcI tgtI srcA tgtA : Int) (v : K) (W : List (Row K)),
    ccFill A srcI tgtI srcA tgtA v W = (fillList A srcI tgtI srcA tgtA v).foldlM (fun W e => insertCoef W e.1 e.2.1 e.2.2) W
  | [], _, _, _, _, _, _ => rfl
  | [(l, _, _)], _, _, _, _, _, _ => by rw [ccFill, fillList, foldlM_map']
  | (l, ns, nt) :: a :: rest, _, _, _, _, _, _ => by
    rw [ccFill, fillList, foldlM_flatMap']
    congr 1
    funext W i
    exact ccFill_eq (a :: rest) _ _ _ _ _ _

theorem mem_fillList : ∀ (A : List (List (Interf K) × Nat × Nat)) (srcI tgtI srcA tgtA : Nat) (v : K) (e : Int × Int × K), A ≠ [] →
    (e ∈ fillList (A.map fun a => (a.1, (a.2.1 : Int), (a.2.2 : Int))) srcI tgtI srcA tgtA v ↔
      ∃ ch, List.Forall₂ (fun i a => i ∈ a.1) ch A ∧
        e = (((tgtI + tgtA * cellNo (A.map fun a => a.2.2) (ch.map Interf.tgt) : Nat) : Int),
             ((srcI + srcA * cellNo (A.map fun a => a.2.1) (ch.map Interf.src) : Nat) : Int), (ch.map Interf.len).prod * v))
  | [], _, _, _, _, _, _, h => absurd rfl h
  | [(l, ns, nt)], srcI, tgtI, srcA, tgtA, v, e, _ => by
    simp only [List.map_cons, List.map_nil, fillList, List.mem_map]
    constructor
    · rintro ⟨i, hi, rfl⟩
      refine ⟨[i], by simpa using hi, ?_⟩
      simp only [List.map_cons, List.map_nil, cellNo, List.prod_cons, List.prod_nil, Prod.mk.injEq]
      refine ⟨?_, ?_, ?_⟩
      · push_cast; ring
      · push_cast; ring
      · ring
    · rintro ⟨ch, hch, rfl⟩
      obtain ⟨i, ch', hi, hch', rfl⟩ := List.forall₂_cons_right_iff.mp hch
      obtain rfl := List.forall₂_nil_right_iff.mp hch'
      refine ⟨i, hi, ?_⟩
      simp only [List.map_cons, List.map_nil, cellNo, List.prod_cons, List.prod_nil, Prod.mk.injEq]
      refine ⟨?_, ?_, ?_⟩
      · push_cast; ring
      · push_cast; ring
      · ring
  | (l, ns, nt) :: a :: rest, srcI, tgtI, srcA, tgtA, v, e, _ => by
    have ih := fun (i : Interf K) => mem_fillList (a :: rest) (i.src * srcA + srcI) (i.tgt * tgtA + tgtI) (srcA * ns) (tgtA * nt) (i.len * v) e (by simp)
    simp only [List.map_cons, fillList, List.mem_flatMap] at ih ⊢
    constructor
    · rintro ⟨i, hi, hm⟩
      obtain ⟨ch, h1, rfl⟩ := (ih i).mp (by push_cast; exact hm)
      refine ⟨i :: ch, List.Forall₂.cons hi h1, ?_⟩
      simp only [List.map_cons, cellNo, List.prod_cons, Prod.mk.injEq]
      refine ⟨?_, ?_, ?_⟩
      · push_cast; ring
      · push_cast; ring
      · ring
    · rintro ⟨ch, hch, rfl⟩
      obtain ⟨i, ch', hi, hch', rfl⟩ := List.forall₂_cons_right_iff.mp hch
      refine ⟨i, hi, ?_⟩
      have := (mem_fillList (a :: rest) (i.src * srcA + srcI) (i.tgt * tgtA + tgtI) (srcA * ns) (tgtA * nt) (i.len * v) _ (by simp)).mpr ⟨ch', hch', rfl⟩
      simp only [List.map_cons] at this
      push_cast at this
      simp only [List.map_cons, cellNo, List.prod_cons]
      convert this using 2
      · push_cast; ring
      · congr 1
        · push_cast; ring
        · ring

/-! ## Insertions -/

/-- the state of the matrix after the insertion of the elements `L` -/
structure Inserted (n : Nat) (L : List (Int × Int × K)) (W : List (Row K)) : Prop where
  len : W.length = n
  sorted : ∀ row ∈ W, StrictSorted (mapKeys row)
  find : ∀ t < n, ∀ s v, mapFind (W.getD t []) s = some v ↔ ((t : Int), s, v) ∈ L

theorem sorted_insert {row : Row K} (h : StrictSorted (mapKeys row)) (k : Int) (v : K) : StrictSorted (mapKeys (mapInsert row k v)) := by
  unfold mapInsert
  split
  · exact h
  · exact sorted_mapSet h k v

theorem insert_all {n : Nat} {L : List (Int × Int × K)} (hr : ∀ e ∈ L, 0 ≤ e.1 ∧ e.1 < n)
    (hfun : ∀ t s v v', (t, s, v) ∈ L → (t, s, v') ∈ L → v = v') :
    ∃ W, L.foldlM (fun W e => insertCoef W e.1 e.2.1 e.2.2) (List.replicate n ([] : Row K)) = .ok W ∧ Inserted n L W := by
  refine wp_exists (wp_foldlM (fun pre W => Inserted n pre W) ⟨by simp, ?_, ?_⟩ ?_)
  · intro row hrow
    rw [List.eq_of_mem_replicate hrow]
    simp [StrictSorted]
  · intro t ht s v
    simp [List.getD_eq_getElem _ _ (show t < (List.replicate n ([] : Row K)).length by simpa using ht), mapFind]
  · rintro pre ⟨t0, s0, v0⟩ suf hL W hW
    have hx : (t0, s0, v0) ∈ L := by rw [hL]; simp
    have hb := hr _ hx
    simp only at hb
    obtain ⟨t1, rfl⟩ : ∃ t1 : Nat, t0 = (t1 : Int) := ⟨t0.toNat, by omega⟩
    have ht1 : t1 < n := by omega
    have hlen := hW.len
    have ht1' : t1 < W.length := by omega
    simp only [insertCoef]
    rw [rd_natCast ht1', ok_bind, wr_natCast ht1', wp_ok]
    refine ⟨by rw [List.length_set, hlen], ?_, ?_⟩
    · intro row hrow
      rcases List.mem_or_eq_of_mem_set hrow with h | h
      · exact hW.sorted _ h
      · rw [h]; exact sorted_insert (hW.sorted _ (List.getElem_mem ht1')) _ _
    · intro t ht s v
      have hold := hW.find t ht s v
      have ht' : t < W.length := by omega
      rw [List.getD_eq_getElem _ _ (by rw [List.length_set]; omega), List.getElem_set]
      rw [List.getD_eq_getElem _ _ ht'] at hold
      by_cases htt : t1 = t
      · subst htt
        rw [if_pos rfl]
        rw [List.mem_append, List.mem_singleton, ← hold]
        unfold mapInsert
        split
        · rename_i v1 hv1
          have hm1 := (hW.find t1 ht1 s0 v1).mp (by rw [List.getD_eq_getElem _ _ ht']; exact hv1)
          have hv10 : v1 = v0 := hfun t1 s0 v1 v0 (by rw [hL]; simp [hm1]) hx
          constructor
          · exact Or.inl
          · rintro (h | h)
            · exact h
            · simp only [Prod.mk.injEq] at h
              rw [h.2.1, h.2.2, ← hv10]; exact hv1
        · rename_i hv1
          rw [mapFind_set]
          by_cases hs : s = s0
          · subst hs
            rw [if_pos rfl, hv1]
            simp [eq_comm]
          · rw [if_neg hs]
            simp [hs]
      · rw [if_neg htt, List.mem_append, ← hold]
        have : ((t : Int), s, v) ∉ [((t1 : Int), s0, v0)] := by simp; omega
        simp [this]

end
end MC
