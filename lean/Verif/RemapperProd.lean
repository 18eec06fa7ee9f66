import Verif.RemapperDeno
import Mathlib.Tactic.Ring

/-!
# Products of the remapper
-/

set_option linter.unusedSectionVars false

namespace MC
section
open Finset
variable {K : Type} [Field K] [LinearOrder K] [IsStrictOrderedRing K]

/-- component `c` of tuple `i` in an array with `nc` components -/
def rtup (nc : Nat) (l : List K) (i c : Nat) : K := l.getD (i * nc + c) 0

theorem idx_lt {nc n i c : Nat} (hi : i < n) (hc : c < nc) : i * nc + c < n * nc := by
  calc i * nc + c < i * nc + nc := by omega
    _ = (i + 1) * nc := by rw [Nat.add_mul, one_mul]
    _ ≤ n * nc := Nat.mul_le_mul_right _ hi

theorem idx_inj {nc i c i' c' : Nat} (hc : c < nc) (hc' : c' < nc) (h : i * nc + c = i' * nc + c') : i = i' ∧ c = c' := by
  have hp : 0 < nc := by omega
  have h1 : (i * nc + c) / nc = i := by rw [Nat.mul_comm, Nat.mul_add_div hp, Nat.div_eq_of_lt hc, add_zero]
  have h2 : (i' * nc + c') / nc = i' := by rw [Nat.mul_comm, Nat.mul_add_div hp, Nat.div_eq_of_lt hc', add_zero]
  have : i = i' := by rw [← h1, ← h2, h]
  subst this
  exact ⟨rfl, by omega⟩

theorem getD_set (l : List K) (p q : Nat) (v : K) (hp : p < l.length) : (l.set p v).getD q 0 = if q = p then v else l.getD q 0 := by
  by_cases h : q = p
  · subst h; rw [if_pos rfl, List.getD_eq_getElem _ _ (by rw [List.length_set]; exact hp), List.getElem_set_self]
  · rw [if_neg h, List.getD_eq_getElem?_getD, List.getElem?_set_ne (Ne.symm h), ← List.getD_eq_getElem?_getD]

theorem fillN_ok {res : List K} {a k : Nat} {v : K} (h : a + k ≤ res.length) :
    ∃ s, fillN res a k v = .ok s ∧ s.length = res.length ∧ ∀ p, s.getD p 0 = if a ≤ p ∧ p < a + k then v else res.getD p 0 := by
  have : wp (fillN res a k v) (fun s => s.length = res.length ∧ ∀ p, s.getD p 0 = if a ≤ p ∧ p < a + k then v else res.getD p 0) False := by
    refine wp_loop (fun i (s : List K) => s.length = res.length ∧ ∀ p, s.getD p 0 = if a ≤ p ∧ p < a + i then v else res.getD p 0)
      ⟨rfl, fun p => by rw [if_neg (by omega)]⟩ ?_
    rintro i hi s ⟨h1, h2⟩
    rw [wr_natCast (by omega), wp_ok]
    refine ⟨by rw [List.length_set, h1], fun p => ?_⟩
    rw [getD_set _ _ _ _ (by omega), h2]
    by_cases hp : p = a + i
    · rw [if_pos hp, if_pos (by omega)]
    · rw [if_neg hp]
      by_cases hq : a ≤ p ∧ p < a + i
      · rw [if_pos hq, if_pos (by omega)]
      · rw [if_neg hq, if_neg (by omega)]
  exact wp_exists this

/-- filling one tuple -/
theorem fillTup_ok {res : List K} {n nc i : Nat} {v : K} (hi : i < n) (h : res.length = n * nc) :
    ∃ s, fillN res (i * nc) nc v = .ok s ∧ s.length = res.length ∧ ∀ i' c, c < nc → rtup nc s i' c = if i' = i then v else rtup nc res i' c := by
  have hle : i * nc + nc ≤ n * nc := by
    calc i * nc + nc = (i + 1) * nc := by rw [Nat.add_mul, one_mul]
      _ ≤ n * nc := Nat.mul_le_mul_right _ hi
  obtain ⟨s, s1, s2, s3⟩ := fillN_ok (v := v) (h ▸ hle)
  refine ⟨s, s1, s2, fun i' c hc => ?_⟩
  rw [rtup, s3, rtup]
  by_cases he : i' = i
  · subst he; rw [if_pos rfl, if_pos (by omega)]
  · rw [if_neg he, if_neg]
    rintro ⟨g1, g2⟩
    have : i' * nc + c = i * nc + (i' * nc + c - i * nc) := by omega
    exact he (idx_inj hc (by omega) this).1

theorem addScaled_ok {nc m n : Nat} {input res : List K} {a b : Nat} {q : K} (hin : input.length = m * nc) (ha : a < m) (hres : res.length = n * nc) (hb : b < n) :
    ∃ s, addScaled nc input a q b res = .ok s ∧ s.length = res.length ∧
      ∀ i c, c < nc → rtup nc s i c = if i = b then rtup nc res i c + rtup nc input a c * q else rtup nc res i c := by
  have : wp (addScaled nc input a q b res) (fun s => s.length = res.length ∧
      ∀ i c, c < nc → rtup nc s i c = if i = b ∧ c < nc then rtup nc res i c + rtup nc input a c * q else rtup nc res i c) False := by
    refine wp_loop (fun k (s : List K) => s.length = res.length ∧
      ∀ i c, c < nc → rtup nc s i c = if i = b ∧ c < k then rtup nc res i c + rtup nc input a c * q else rtup nc res i c)
      ⟨rfl, fun i c _ => by rw [if_neg (by omega)]⟩ ?_
    rintro k hk s ⟨h1, h2⟩
    have ea : ((a : Int) * nc + k) = ((a * nc + k : Nat) : Int) := by push_cast; ring
    have eb : ((b : Int) * nc + k) = ((b * nc + k : Nat) : Int) := by push_cast; ring
    have la : a * nc + k < input.length := hin ▸ idx_lt ha hk
    have lb : b * nc + k < s.length := by rw [h1, hres]; exact idx_lt hb hk
    rw [ea, eb, rd_natCast la, ok_bind, rd_natCast lb, ok_bind, wr_natCast lb, wp_ok]
    refine ⟨by rw [List.length_set, h1], fun i c hc => ?_⟩
    rw [rtup, getD_set _ _ _ _ lb]
    by_cases he : i * nc + c = b * nc + k
    · obtain ⟨rfl, rfl⟩ := idx_inj hc hk he
      rw [if_pos rfl, if_pos ⟨rfl, Nat.lt_succ_self _⟩, ← List.getD_eq_getElem _ 0 la, ← List.getD_eq_getElem _ 0 lb]
      have := h2 i c hc
      rw [if_neg (by omega), rtup] at this
      rw [this]; rfl
    · rw [if_neg he]
      have := h2 i c hc
      rw [rtup] at this
      rw [this]
      by_cases h3 : i = b ∧ c < k
      · rw [if_pos h3, if_pos (by omega)]
      · rw [if_neg h3, if_neg]
        rintro ⟨rfl, h4⟩
        exact h3 ⟨rfl, by rcases Nat.lt_succ_iff_lt_or_eq.mp h4 with h | rfl; exact h; exact absurd rfl he⟩
  obtain ⟨s, s1, s2, s3⟩ := wp_exists this
  refine ⟨s, s1, s2, fun i c hc => ?_⟩
  rw [s3 i c hc]
  by_cases h : i = b
  · rw [if_pos ⟨h, hc⟩, if_pos h]
  · rw [if_neg (fun h' => h h'.1), if_neg h]

theorem productRow_ok {nc m n idx : Nat} {input : List K} (hin : input.length = m * nc) (hi : idx < n) (g : Int → K) {row : Row K}
    (hr : ∀ e ∈ row, 0 ≤ e.1 ∧ e.1 < (m : Int)) {res : List K} (hres : res.length = n * nc) :
    ∃ s, productRow nc input idx row (row.map fun e => (e.1, g e.1)) res = .ok s ∧ s.length = res.length ∧
      ∀ i c, c < nc → rtup nc s i c = if i = idx then rtup nc res i c + (row.map fun e => rtup nc input e.1.toNat c * (e.2 / g e.1)).sum else rtup nc res i c := by
  induction row generalizing res with
  | nil => exact ⟨res, rfl, rfl, fun i c _ => by simp⟩
  | cons e row ih =>
    have he := hr e (by simp)
    obtain ⟨s, s1, s2, s3⟩ := addScaled_ok (q := e.2 / g e.1) (a := e.1.toNat) (b := idx) hin (by omega) hres hi
    obtain ⟨t, t1, t2, t3⟩ := ih (fun e he => hr e (List.mem_cons_of_mem _ he)) (s2.trans hres)
    refine ⟨t, ?_, t2.trans s2, fun i c hc => ?_⟩
    · rw [List.map_cons, productRow]
      rw [show ((e.1.toNat : Nat) : Int) = e.1 by omega] at s1
      rw [s1, ok_bind, t1]
    · rw [t3 i c hc, s3 i c hc]
      by_cases h : i = idx
      · rw [if_pos h, if_pos h, if_pos h, List.map_cons, List.sum_cons, add_assoc]
      · rw [if_neg h, if_neg h, if_neg h]

/-- `computeProduct` with the denominators `g`. -/
theorem computeProduct_ok {W : List (Row K)} {n m : Nat} (hW : CrudeOK W n m) {r : Rem K} (hm : r.matrix = W) {g : Nat → Nat → K} (hd : DenOK W n g r.deno)
    {nc : Nat} {input res : List K} (hin : input.length = m * nc) (hres : res.length = n * nc) (dft : Option K) :
    ∃ s, computeProduct r input nc dft res = .ok s ∧ s.length = n * nc ∧ ∀ i < n, ∀ c < nc, rtup nc s i c =
      if W.getD i [] = [] then dft.getD (rtup nc res i c) else ∑ j ∈ range m, rtup nc input j c * (coef W i j / g i j) := by
  have : wp (computeProduct r input nc dft res) (fun s => s.length = n * nc ∧ ∀ i < n, ∀ c < nc, rtup nc s i c =
      if i < n then (if W.getD i [] = [] then dft.getD (rtup nc res i c) else ∑ j ∈ range m, rtup nc input j c * (coef W i j / g i j))
      else rtup nc res i c) False := by
    rw [computeProduct, hm, hW.len]
    refine wp_loop (fun k (s : List K) => s.length = n * nc ∧ ∀ i < n, ∀ c < nc, rtup nc s i c =
      if i < k then (if W.getD i [] = [] then dft.getD (rtup nc res i c) else ∑ j ∈ range m, rtup nc input j c * (coef W i j / g i j))
      else rtup nc res i c) ⟨hres, fun i _ c _ => by rw [if_neg (Nat.not_lt_zero _)]⟩ ?_
    rintro k hk s ⟨h1, h2⟩
    obtain ⟨e1, e2, e3⟩ := hW.row hk
    rw [e1, ok_bind]
    -- the tuples other than `k` do not change
    have key : ∀ t : List K, t.length = n * nc → (∀ i < n, ∀ c < nc, i ≠ k → rtup nc t i c = rtup nc s i c) →
        (∀ c < nc, rtup nc t k c = if W.getD k [] = [] then dft.getD (rtup nc res k c) else
          ∑ j ∈ range m, rtup nc input j c * (coef W k j / g k j)) →
        t.length = n * nc ∧ ∀ i < n, ∀ c < nc, rtup nc t i c =
          if i < k + 1 then (if W.getD i [] = [] then dft.getD (rtup nc res i c) else
            ∑ j ∈ range m, rtup nc input j c * (coef W i j / g i j)) else rtup nc res i c := by
      intro t t1 t2 t3
      refine ⟨t1, fun i hi c hc => ?_⟩
      by_cases he : i = k
      · subst he; rw [if_pos (Nat.lt_succ_self _), t3 c hc]
      · rw [t2 i hi c hc he, h2 i hi c hc]
        by_cases hlt : i < k
        · rw [if_pos hlt, if_pos (show i < k + 1 by omega)]
        · rw [if_neg hlt, if_neg (show ¬ i < k + 1 by omega)]
    by_cases hrow : W.getD k [] = []
    · rw [if_pos hrow]
      cases dft with
      | some v =>
        obtain ⟨t, t1, t2, t3⟩ := fillTup_ok (v := v) hk h1
        simp only
        rw [t1, wp_ok]
        refine key t (t2.trans h1) (fun i _ c hc he => by rw [t3 i c hc, if_neg he]) (fun c hc => ?_)
        rw [t3 k c hc, if_pos rfl, if_pos hrow]; rfl
      | none =>
        simp only [wp_ok]
        refine key s h1 (fun _ _ _ _ _ => rfl) (fun c hc => ?_)
        rw [h2 k hk c hc, if_neg (lt_irrefl _), if_pos hrow]; rfl
    · rw [if_neg hrow]
      obtain ⟨t, t1, t2, t3⟩ := fillTup_ok (v := (0 : K)) hk h1
      rw [t1, ok_bind]
      have hdl : k < r.deno.length := by rw [hd.1]; exact hk
      have hdk : rd r.deno (k : Int) = .ok ((W.getD k []).map fun e => (e.1, g k e.1.toNat)) := by
        rw [rd_natCast hdl, ← hd.2 k hk, List.getD_eq_getElem _ _ hdl]
      rw [hdk, ok_bind]
      obtain ⟨u, u1, u2, u3⟩ := productRow_ok hin hk (fun e => g k e.toNat) e3 (t2.trans h1)
      rw [u1, wp_ok]
      refine key u (u2.trans (t2.trans h1)) (fun i _ c hc he => by rw [u3 i c hc, if_neg he, t3 i c hc, if_neg he]) (fun c hc => ?_)
      rw [u3 k c hc, if_pos rfl, t3 k c hc, if_pos rfl, zero_add, if_neg hrow]
      exact row_sum e2 e3 (fun j w => rtup nc input j c * (w / g k j)) fun j => by rw [zero_div, mul_zero]
  obtain ⟨s, s1, s2, s3⟩ := wp_exists this
  exact ⟨s, s1, s2, fun i hi c hc => by rw [s3 i hi c hc, if_pos hi]⟩

end
end MC
