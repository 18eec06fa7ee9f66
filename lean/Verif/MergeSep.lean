import Verif.MergeCenter

/-! # C103: merge of well separated nodes -/

namespace MC
section
variable {K : Type} [Field K] [LinearOrder K] [IsStrictOrderedRing K]

/-- C103: when closeness is transitive on the nodes, `mergeNodes` leaves no two close nodes, the old nodes are close to the new ones, and two old nodes become
one exactly when they are close; merging again then changes nothing. -/
theorem C103_mergeNodes_separated (a : DArr K) {conn connI : List Int} {cells : List Cell} (hm : IsMesh conn connI cells)
    (hu : ∀ n, UsedNode cells n → n < a.nt) (prec big : K) (h1 : 1 ≤ a.nc) (h4 : a.nc ≤ 4)
    (ht : ∀ i j k, i < a.nt → j < a.nt → k < a.nt → CloseTup a.nc a.data prec i j → CloseTup a.nc a.data prec j k → CloseTup a.nc a.data prec i k) :
    ∃ (c : List K) (conn' r : List Int) (b : Bool) (nb : Nat) (hw : c.length = nb * a.nc), mergeNodes a conn connI prec big = .ok (c.map some, conn', r, b, (nb : Int)) ∧
      (∀ v w, v < nb → w < nb → CloseTup a.nc c prec v w → v = w) ∧
      (∀ i j, i < a.nt → j < a.nt → (r[i]? = r[j]? ↔ CloseTup a.nc a.data prec i j)) ∧
      (∀ k < a.nt, ∃ v : Nat, v < nb ∧ r[k]? = some (v : Int) ∧ ∀ d, d < a.nc → |ptC a.nc c d v - ptC a.nc a.data d k| ≤ |prec|) ∧
      ∃ r', mergeNodes (⟨nb, a.nc, c, hw⟩ : DArr K) conn' connI prec big = .ok (c.map some, conn', r', false, (nb : Int)) := by
  obtain ⟨c, conn', r, kept, e1, e2, e3, e4, e5, e6⟩ := C103_mergeNodes a hm hu prec big h1 h4
  have hcl : ∀ i j, i < a.nt → j < a.nt → (r[i]? = r[j]? ↔ CloseTup a.nc a.data prec i j) := fun i j hi hj =>
    e2.classes (by omega) (fun i _ => CloseTup.refl _ _ _ i) (fun i j _ _ h => h.symm) ht hi hj
  have hsep : ∀ v w, v < kept.length → w < kept.length → CloseTup a.nc c prec v w → v = w := by
    intro v w hv hw hvw
    obtain ⟨i, hi, i1, -, i2⟩ := e5 v hv
    obtain ⟨j, hj, j1, -, j2⟩ := e5 w hw
    have : CloseTup a.nc a.data prec i j := fun d hd => by
      have := hvw d hd
      rwa [ptC_of_tup i2 hd, ptC_of_tup j2 hd] at this
    have := (hcl i j hi hj).mpr this
    rw [i1, j1] at this
    simpa using this
  refine ⟨c, conn', r, _, kept.length, e3, e1, hsep, hcl, fun k hk => ?_, ?_⟩
  · obtain ⟨v, hv, hrk, -⟩ := e6 k hk
    refine ⟨v, hv, hrk, fun d hd => ?_⟩
    obtain ⟨i, hi, i1, -, i2⟩ := e5 v hv
    rw [ptC_of_tup i2 hd]
    exact (hcl i k hi hk).mp (by rw [i1, hrk]) d hd
  · obtain ⟨r', b, nb, f1, f2, f3⟩ := C103_none (⟨kept.length, a.nc, c, e3⟩ : DArr K) prec (-1) big h1 h4
    have hb : b = false := f2.mpr fun i j hij hj _ hc => by
      have := hsep i j (by have : j < kept.length := hj; omega) hj hc
      omega
    subst hb
    refine ⟨r', ?_⟩
    unfold mergeNodes
    rw [f1, ok_bind]
    simp only [Bool.false_eq_true, if_false, (f3 rfl).1]

instance (nc : Nat) (data : List K) (eps : K) (i j : Nat) : Decidable (CloseTup nc data eps i j) := inferInstanceAs (Decidable (∀ d, d < nc → _))

/-- three places, six nodes -/
example : ∀ i < 6, ∀ j < 6, ∀ k < 6, CloseTup 1 ([0, 5, 9, 5, 0, 1/2] : List ℚ) (1/2) i j → CloseTup 1 ([0, 5, 9, 5, 0, 1/2] : List ℚ) (1/2) j k →
    CloseTup 1 ([0, 5, 9, 5, 0, 1/2] : List ℚ) (1/2) i k := by decide +kernel

example : (mergeNodes (⟨6, 1, [0, 5, 9, 5, 0, 1/2], rfl⟩ : DArr ℚ) [] [0] (1/2) 1000).map (fun x => (x.1, x.2.2.1)) =
    .ok ([some (1/2), some 5, some 9], [0, 1, 2, 1, 0, 0]) := by decide +kernel

end
end MC
