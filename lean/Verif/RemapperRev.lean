import Verif.RemapperProd

/-!
# Reverse products of the remapper
-/

set_option linter.unusedSectionVars false

namespace MC
section
open Finset
variable {K : Type} [Field K] [LinearOrder K] [IsStrictOrderedRing K]

theorem rowAt_cons {k : Int} {w : K} {row : Row K} (j : Nat) : rowAt ((k, w) :: row) j = if (j : Int) = k then w else rowAt row j := by
  rw [rowAt, mapAt, mapFind]
  split <;> rfl

/-- one row of the reverse product: values and marks -/
theorem revRow_ok {nc n m i : Nat} {input : List K} (hin : input.length = n * nc) (hi : i < n) {denoR : List (Row K)} (hdl : denoR.length = m) {g : Nat → K}
    {row : Row K} (hs : StrictSorted (mapKeys row)) (hr : ∀ e ∈ row, 0 ≤ e.1 ∧ e.1 < (m : Int))
    (hd : ∀ e ∈ row, mapFind (denoR.getD e.1.toNat []) (i : Int) = some (g e.1.toNat)) {s : List K × List Bool} (h1 : s.1.length = m * nc) (h2 : s.2.length = m) :
    ∃ t : List K × List Bool, row.foldlM (fun (s : List K × List Bool) e => do
        let reached ← wr s.2 e.1 true
        let d ← rd denoR e.1
        let res ← addScaled nc input i (e.2 / mapAt d 0 (i : Int)) e.1 s.1
        .ok (res, reached)) s = .ok t ∧ t.1.length = m * nc ∧ t.2.length = m ∧
      (∀ j c, c < nc → rtup nc t.1 j c = rtup nc s.1 j c + rtup nc input i c * (rowAt row j / g j)) ∧
      ∀ j, t.2.getD j false = true ↔ s.2.getD j false = true ∨ (j : Int) ∈ mapKeys row := by
  induction row generalizing s with
  | nil => exact ⟨s, rfl, h1, h2, fun j c _ => by simp [rowAt, mapAt, mapFind], fun j => by simp [mapKeys]⟩
  | cons e row ih =>
    obtain ⟨k, w⟩ := e
    have he := hr (k, w) (by simp)
    simp only at he
    simp only [mapKeys, List.map_cons, StrictSorted, List.pairwise_cons] at hs
    have hcast : ((k.toNat : Nat) : Int) = k := by omega
    have hdk := hd (k, w) (by simp)
    simp only at hdk
    obtain ⟨u, u1, u2, u3⟩ := addScaled_ok (q := w / g k.toNat) (a := i) (b := k.toNat) hin hi h1 (by omega)
    rw [hcast] at u1
    have hmd : mapAt (denoR.getD k.toNat []) 0 (i : Int) = g k.toNat := by rw [mapAt, hdk]; rfl
    obtain ⟨t, t1, t2, t3, t4, t5⟩ := ih hs.2 (fun e he => hr e (List.mem_cons_of_mem _ he)) (fun e he => hd e (List.mem_cons_of_mem _ he))
      (s := (u, s.2.set k.toNat true)) (u2.trans h1) (by rw [List.length_set]; exact h2)
    refine ⟨t, ?_, t2, t3, fun j c hc => ?_, fun j => ?_⟩
    · rw [List.foldlM_cons, wr_ok he.1 (by omega), ok_bind, rd_ok he.1 (by omega), ok_bind]
      rw [← List.getD_eq_getElem denoR [] (by omega), hmd, u1, ok_bind, ok_bind]
      exact t1
    · rw [t4 j c hc, u3 j c hc, rowAt_cons]
      by_cases h : j = k.toNat
      · have hz : rowAt row j = 0 := by
          rw [rowAt, mapAt, mapFind_eq_none.mpr]; rfl
          intro hm
          have := hs.1 _ hm
          omega
        rw [if_pos h, if_pos (by omega), hz, zero_div, mul_zero, add_zero, h]
      · rw [if_neg h, if_neg (by omega)]
    · rw [t5]
      by_cases h : j = k.toNat
      · subst h
        rw [List.getD_eq_getElem _ _ (by rw [List.length_set]; omega), List.getElem_set_self, hcast]
        simp [mapKeys]
      · rw [List.getD_eq_getElem?_getD, List.getElem?_set_ne (Ne.symm h), ← List.getD_eq_getElem?_getD]
        simp only [mapKeys, List.map_cons, List.mem_cons]
        rw [show ((j : Int) = k) = False from propext ⟨fun h' => h (by omega), False.elim⟩, false_or]

/-- `computeReverseProduct` with the denominators `g`. -/
theorem computeReverseProduct_ok {W : List (Row K)} {n m : Nat} (hW : CrudeOK W n m) {r : Rem K} (hm : r.matrix = W) {g : Nat → Nat → K}
    (hd : DenROK W n m g r.denoR) {nc : Nat} {input res : List K} (hin : input.length = n * nc) (hres : res.length = m * nc) (dft : K) :
    ∃ s, computeReverseProduct r input nc dft res = .ok s ∧ s.length = m * nc ∧ ∀ j < m, ∀ c < nc,
      ((∃ i < n, inRow W i j) → rtup nc s j c = ∑ i ∈ range n, rtup nc input i c * (coef W i j / g i j)) ∧
      ((¬ ∃ i < n, inRow W i j) → rtup nc s j c = dft) := by
  obtain ⟨z, z1, z2, z3⟩ := fillN_ok (res := res) (a := 0) (k := nc * m) (v := 0) (by rw [hres, Nat.mul_comm]; omega)
  have zz : ∀ j < m, ∀ c < nc, rtup nc z j c = 0 := by
    intro j hj c hc
    rw [rtup, z3, if_pos]
    have := idx_lt hj hc
    rw [Nat.mul_comm] at this
    rw [Nat.mul_comm nc m]
    rw [Nat.mul_comm j nc]
    omega
  have a : wp (loop W.length (z, List.replicate m false) fun i s => do
      let row ← rd W i
      row.foldlM (fun (s : List K × List Bool) e => do
        let reached ← wr s.2 e.1 true
        let d ← rd r.denoR e.1
        let res ← addScaled nc input i (e.2 / mapAt d 0 (i : Int)) e.1 s.1
        .ok (res, reached)) s) (fun s => s.1.length = m * nc ∧ s.2.length = m ∧
          (∀ j < m, ∀ c < nc, rtup nc s.1 j c = ∑ i ∈ range W.length, rtup nc input i c * (coef W i j / g i j)) ∧
          ∀ j, s.2.getD j false = true ↔ ∃ i < W.length, inRow W i j) False := by
    refine wp_loop (fun k (s : List K × List Bool) => s.1.length = m * nc ∧ s.2.length = m ∧
          (∀ j < m, ∀ c < nc, rtup nc s.1 j c = ∑ i ∈ range k, rtup nc input i c * (coef W i j / g i j)) ∧
          ∀ j, s.2.getD j false = true ↔ ∃ i < k, inRow W i j)
      ⟨z2.trans hres, by simp, fun j hj c hc => by rw [zz j hj c hc, range_zero, sum_empty], fun j => by
        simp only [Nat.not_lt_zero, false_and, exists_false, iff_false]
        by_cases h : j < m
        · rw [List.getD_eq_getElem _ _ (by simpa using h)]; simp
        · rw [List.getD_eq_default _ _ (by simpa using h)]; simp⟩ ?_
    rintro k hk s ⟨h1, h2, h3, h4⟩
    rw [hW.len] at hk
    obtain ⟨e1, e2, e3⟩ := hW.row hk
    rw [e1, ok_bind]
    obtain ⟨t, t1, t2, t3, t4, t5⟩ := revRow_ok hin hk hd.1 (g := g k) e2 e3 (fun e he => by
      refine hd.2 k hk e.1.toNat ?_
      rw [inRow, show ((e.1.toNat : Nat) : Int) = e.1 by have := e3 e he; omega]
      exact List.mem_map.mpr ⟨e, he, rfl⟩) h1 h2
    rw [t1, wp_ok]
    refine ⟨t2, t3, fun j hj c hc => ?_, fun j => ?_⟩
    · rw [t4 j c hc, h3 j hj c hc, sum_range_succ]; rfl
    · rw [t5, h4]
      constructor
      · rintro (⟨i, hi, h⟩ | h)
        · exact ⟨i, by omega, h⟩
        · exact ⟨k, by omega, h⟩
      · rintro ⟨i, hi, h⟩
        rcases Nat.lt_succ_iff_lt_or_eq.mp hi with hi | rfl
        · exact Or.inl ⟨i, hi, h⟩
        · exact Or.inr h
  obtain ⟨s, s1, s2, s3, s4, s5⟩ := wp_exists a
  rw [hW.len] at s4 s5
  have b : wp (loop s.2.length s.1 fun j res => do
      let b ← rd s.2 j
      if b then .ok res else fillN res (j * nc) nc dft) (fun t => t.length = m * nc ∧ ∀ j < m, ∀ c < nc,
        rtup nc t j c = if j < s.2.length ∧ s.2.getD j false = false then dft else rtup nc s.1 j c) False := by
    refine wp_loop (fun k (t : List K) => t.length = m * nc ∧ ∀ j < m, ∀ c < nc,
        rtup nc t j c = if j < k ∧ s.2.getD j false = false then dft else rtup nc s.1 j c) ⟨s2, fun j _ c _ => by rw [if_neg (fun h => Nat.not_lt_zero _ h.1)]⟩ ?_
    rintro k hk t ⟨h1, h2⟩
    have hg : s.2.getD k false = s.2[k] := List.getD_eq_getElem _ _ hk
    rw [rd_natCast hk, ok_bind, ← hg]
    cases hb : s.2.getD k false with
    | true =>
      rw [if_pos rfl, wp_ok]
      refine ⟨h1, fun j hj c hc => ?_⟩
      rw [h2 j hj c hc]
      by_cases he : j = k
      · subst he; rw [if_neg (by omega), if_neg (by rw [hb]; simp)]
      · congr 1; apply propext; constructor <;> rintro ⟨x, y⟩ <;> exact ⟨by omega, y⟩
    | false =>
      rw [if_neg (by simp)]
      obtain ⟨u, u1, u2, u3⟩ := fillTup_ok (v := dft) (by omega : k < m) h1
      rw [u1, wp_ok]
      refine ⟨u2.trans h1, fun j hj c hc => ?_⟩
      rw [u3 j c hc, h2 j hj c hc]
      by_cases he : j = k
      · subst he; rw [if_pos rfl, if_pos ⟨by omega, hb⟩]
      · rw [if_neg he]; congr 1; apply propext; constructor <;> rintro ⟨x, y⟩ <;> exact ⟨by omega, y⟩
  obtain ⟨t, t1, t2, t3⟩ := wp_exists b
  refine ⟨t, ?_, t2, fun j hj c hc => ⟨fun h => ?_, fun h => ?_⟩⟩
  · rw [computeReverseProduct, hd.1, z1, ok_bind, hm, s1, ok_bind]
    exact t1
  · rw [t3 j hj c hc, if_neg (by rw [(s5 j).mpr h]; simp), s4 j hj c hc]
  · rw [t3 j hj c hc, if_pos ⟨by omega, by cases hb : s.2.getD j false with
      | true => exact absurd ((s5 j).mp hb) h
      | false => rfl⟩]

end
end MC
