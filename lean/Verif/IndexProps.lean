import Verif.Index
import Verif.SlicesProps
import Verif.PermsProps

/-! # C15, C16, C17, C31, C37 – theorems -/

namespace MC

theorem forall₂_at {α β : Type} {R : α → β → Prop} {l : List α} {r : List β} (h : List.Forall₂ R l r) {i : Nat} {x : α}
    (hx : l[i]? = some x) : ∃ y, r[i]? = some y ∧ R x y := by
  obtain ⟨hi, rfl⟩ := List.getElem?_eq_some_iff.mp hx
  have hi' : i < r.length := by rw [← h.length_eq]; exact hi
  exact ⟨r[i], by simp, h.get hi hi'⟩

/-! ## C15 -/

/-- **C15.** `computeOffsetsFull` gives the `n+1` partial sums, starting at 0. -/
theorem C15_offsets_full (l : List Int) :
    ∃ r : List Int, computeOffsetsFull l = .ok (r.map some) ∧ r.length = l.length + 1 ∧
      ∀ k : Nat, k ≤ l.length → r[k]? = some (l.take k).sum := by
  have main : wp (computeOffsetsFull l) (fun b => b = ((List.range (l.length + 1)).map fun k => some (l.take k).sum)) False := by
    unfold computeOffsetsFull
    rw [wp_bind]
    apply wp_wr (by omega) (by simp [mallocN])
    refine wp_mono (wp_loop (E := False) (fun k b => b = ((List.range (k + 1)).map fun k => some (l.take k).sum) ++
      List.replicate (l.length - k) none) ?_ ?_) ?_ id
    · simp [mallocN, List.replicate_succ]
    · intro i hi b hb
      unfold computeOffsetsFullStep
      rw [wp_bind]
      apply wp_rd (by omega) (by simpa using hi)
      have : rdI b (i : Int) = .ok (l.take i).sum := by
        apply rdI_ok (by omega)
        rw [hb, Int.toNat_natCast, List.getElem?_append_left (by simp)]
        simp [List.getElem?_range]
      rw [this]
      show wp (wr b _ _) _ _
      apply wp_wr (by omega) (by rw [hb]; simp; omega)
      rw [hb, show ((i : Int) + 1).toNat = i + 1 by omega, List.set_append_right _ _ (by simp)]
      obtain ⟨m, hm⟩ : ∃ m, l.length - i = m + 1 := ⟨l.length - i - 1, by omega⟩
      rw [hm, show l.length - (i + 1) = m by omega, List.range_succ (n := i + 1)]
      simp only [List.length_map, List.length_range, Nat.sub_self, List.replicate_succ, List.set_cons_zero, List.map_append,
        List.map_cons, List.map_nil, List.append_assoc, List.singleton_append]
      congr 3
      rw [List.take_succ_eq_append_getElem hi, List.sum_append, List.sum_singleton, Int.add_comm]; simp
    · intro b hb
      simpa using hb
  obtain ⟨b, hb, e⟩ := wp_exists main
  refine ⟨(List.range (l.length + 1)).map fun k => (l.take k).sum, by rw [hb, e]; simp, by simp, ?_⟩
  intro k hk
  simp [List.getElem?_range (show k < l.length + 1 by omega)]

/-- **C15.** `deltaShiftIndex` inverts `computeOffsetsFull`. -/
theorem C15_delta_of_offsets (l r : List Int) (h : computeOffsetsFull l = .ok (r.map some)) : deltaShiftIndex r = .ok l := by
  obtain ⟨r', h1, h2, h3⟩ := C15_offsets_full l
  rw [h] at h1
  have : r = r' := by
    have := Except.ok.inj h1
    exact List.map_injective_iff.mpr (Option.some_injective _) this
  subst this
  unfold deltaShiftIndex
  rw [if_neg (by omega)]
  congr 1
  apply List.ext_getElem?
  intro i
  by_cases hi : i < l.length
  · have a1 := h3 i (by omega)
    have a2 := h3 (i + 1) (by omega)
    rw [List.getElem?_zipWith, List.getElem?_tail, a1, a2]
    rw [List.take_succ_eq_append_getElem hi, List.sum_append, List.sum_singleton, List.getElem?_eq_getElem hi]
    simp
  · rw [List.getElem?_eq_none (by simp; omega), List.getElem?_eq_none (by omega)]

/-- **C15.** `computeOffsetsFull` of the differences of a non-empty array is the array shifted to start at 0. -/
theorem C15_offsets_of_delta (a : Int) (l : List Int) :
    ∃ d, deltaShiftIndex (a :: l) = .ok d ∧ computeOffsetsFull d = .ok (((a :: l).map (· - a)).map some) := by
  refine ⟨List.zipWith (fun a b => a - b) l (a :: l), rfl, ?_⟩
  obtain ⟨r, h1, h2, h3⟩ := C15_offsets_full (List.zipWith (fun a b => a - b) l (a :: l))
  rw [h1]
  congr 2
  have hlen : (List.zipWith (fun a b : Int => a - b) l (a :: l)).length = l.length := by simp
  apply List.ext_getElem?
  intro i
  by_cases hi : i ≤ l.length
  · rw [h3 i (by omega)]
    have key : ∀ k : Nat, k ≤ l.length → ∀ x, (a :: l)[k]? = some x →
        ((List.zipWith (fun a b : Int => a - b) l (a :: l)).take k).sum = x - a := by
      intro k
      induction k with
      | zero => intro _ x hx; simp at hx; simp [hx]
      | succ k ih =>
        intro hk x hx
        have hk' : k < (List.zipWith (fun a b : Int => a - b) l (a :: l)).length := by omega
        rw [List.take_succ_eq_append_getElem hk', List.sum_append, ih (by omega) ((a :: l)[k]'(by simp; omega)) (by simp)]
        simp only [List.getElem?_cons_succ] at hx
        obtain ⟨hxl, hxe⟩ := List.getElem?_eq_some_iff.mp hx
        simp [hxe]
    have hx : (a :: l)[i]? = some ((a :: l)[i]'(by simp; omega)) := by simp
    rw [key i hi _ hx, List.getElem?_map, hx]
    rfl
  · rw [List.getElem?_eq_none (by omega), List.getElem?_eq_none (by simp; omega)]

/-- **C15.** `computeOffsets` gives the `n` first partial sums. -/
theorem C15_offsets (l : List Int) :
    ∃ r : List Int, computeOffsets l = .ok r ∧ r.length = l.length ∧
      ∀ k : Nat, k < l.length → r[k]? = some (l.take k).sum := by
  unfold computeOffsets
  by_cases hl : l.length = 0
  · exact ⟨l, if_pos hl, rfl, by omega⟩
  rw [if_neg hl]
  have main : wp (do
      let tmp ← rd l 0
      let w ← wr l 0 0
      let s ← loop (l.length - 1) (w, tmp) computeOffsetsStep
      .ok s.1 : M (List Int)) (fun r => r.length = l.length ∧
      ∀ k : Nat, k < l.length → r[k]? = some (l.take k).sum) False := by
    rw [wp_bind]
    apply wp_rd (by omega) (by simp; omega)
    rw [wp_bind]
    apply wp_wr (by omega) (by simp; omega)
    rw [wp_bind]
    refine wp_mono (wp_loop (E := False) (fun i (s : List Int × Int) => s.1.length = l.length ∧ l[i]? = some s.2 ∧
      ∀ k : Nat, k < l.length → s.1[k]? = if k ≤ i then some (l.take k).sum else l[k]?) ?_ ?_) ?_ id
    · refine ⟨by simp, by simp, fun k hk => ?_⟩
      by_cases hk0 : k = 0
      · subst hk0
        show (l.set 0 0)[0]? = _
        rw [List.getElem?_set_self hk]; simp
      · rw [if_neg (by omega)]
        show (l.set 0 0)[k]? = _
        rw [List.getElem?_set_ne (by omega)]
    · rintro i hi ⟨w, tmp⟩ ⟨h1, h2, h3⟩
      simp only at h1 h2 h3
      unfold computeOffsetsStep
      rw [wp_bind]
      simp only
      have e1 : w[((i : Int) + 1).toNat]? = some (l[i + 1]'(by omega)) := by
        rw [show ((i : Int) + 1).toNat = i + 1 by omega, h3 (i + 1) (by omega), if_neg (by omega)]; simp
      apply wp_rd' (by omega) e1
      rw [wp_bind]
      have e2 : w[((i : Int)).toNat]? = some (l.take i).sum := by
        rw [Int.toNat_natCast, h3 i (by omega), if_pos (le_refl _)]
      apply wp_rd' (by omega) e2
      rw [wp_bind]
      apply wp_wr (by omega) (by rw [h1]; omega)
      refine ⟨by simp [h1], by simp, fun k hk => ?_⟩
      simp only
      rw [show ((i : Int) + 1).toNat = i + 1 by omega]
      by_cases hk1 : k = i + 1
      · subst hk1
        rw [List.getElem?_set_self (by omega), if_pos (le_refl _), List.take_succ_eq_append_getElem (by omega)]
        obtain ⟨_, h2'⟩ := List.getElem?_eq_some_iff.mp h2
        simp [h2']
      · rw [List.getElem?_set_ne (by omega), h3 k hk]
        by_cases hki : k ≤ i
        · rw [if_pos hki, if_pos (by omega)]
        · rw [if_neg hki, if_neg (by omega)]
    · rintro ⟨w, tmp⟩ ⟨h1, h2, h3⟩
      refine ⟨h1, fun k hk => ?_⟩
      have := h3 k hk
      rwa [if_pos (by omega)] at this
  obtain ⟨r, h1, h2⟩ := wp_exists main
  exact ⟨r, h1, h2⟩

example : computeOffsetsFull [3, 5, 1] = .ok [some 0, some 3, some 8, some 9] ∧ deltaShiftIndex [2, 5, 10, 11] = .ok [3, 5, 1] ∧
    computeOffsets [3, 5, 1] = .ok [0, 3, 8] := by decide

/-! ## C16 -/

/-- The integers of `[a,b)` in increasing order. -/
def interval (a b : Int) : List Int := (List.range (b - a).toNat).map fun j : Nat => a + (j : Int)

theorem mem_interval {a b x : Int} : x ∈ interval a b ↔ a ≤ x ∧ x < b := by
  simp only [interval, List.mem_map, List.mem_range]
  constructor
  · rintro ⟨j, hj, rfl⟩; omega
  · rintro ⟨h1, h2⟩; exact ⟨(x - a).toNat, by omega, by omega⟩

/-- `v` designates an interval of `off`, which is not inverted. -/
def ValidRange (off : List Int) (v : Int) : Prop :=
  0 ≤ v ∧ ∃ a b, off[v.toNat]? = some a ∧ off[v.toNat + 1]? = some b ∧ a ≤ b

/-- bounds of interval number `v` -/
def lowOf (off : List Int) (v : Int) : Int := (off[v.toNat]?).getD 0
def highOf (off : List Int) (v : Int) : Int := (off[v.toNat + 1]?).getD 0

theorem ValidRange.get {off : List Int} {v : Int} (h : ValidRange off v) :
    0 ≤ v ∧ v < (off.length : Int) - 1 ∧ off[v.toNat]? = some (lowOf off v) ∧ off[(v + 1).toNat]? = some (highOf off v) ∧
      lowOf off v ≤ highOf off v := by
  obtain ⟨h0, a, b, ha, hb, hab⟩ := h
  have := (List.getElem?_eq_some_iff.mp hb).1
  refine ⟨h0, by omega, by simp [lowOf, ha], ?_, by simp [lowOf, highOf, ha, hb, hab]⟩
  rw [show (v + 1).toNat = v.toNat + 1 by omega]; simp [highOf, hb]

theorem validRange_of {off : List Int} {v a b : Int} (h0 : 0 ≤ v) (h1 : v < (off.length : Int) - 1)
    (ha : rd off v = .ok a) (hb : rd off (v + 1) = .ok b) (hab : a ≤ b) : ValidRange off v := by
  refine ⟨h0, a, b, ?_, ?_, hab⟩
  · rw [rd_ok h0 (by omega)] at ha
    rw [← Except.ok.inj ha]; simp
  · rw [rd_ok (by omega) (by omega)] at hb
    rw [← Except.ok.inj hb]; simp [show (v + 1).toNat = v.toNat + 1 by omega]

/-- Both expansions have the same structure: a counting pass with checks, then a filling pass. -/
theorem expand_wp (off : List Int) (cf : Int → Int → M Int) (ff : Cur Int → Int → M (Cur Int)) (out : Int → List Int)
    (ids : List Int) (E : Prop)
    (hc : ∀ n v, v ∈ ids → wp (cf n v) (fun m => ValidRange off v ∧ m = n + (highOf off v - lowOf off v))
      (E))
    (hlen : ∀ v, ValidRange off v → ((out v).length : Int) = highOf off v - lowOf off v)
    (hf : ∀ v, ValidRange off v → ∀ (l : List Int) n, l.length + (out v).length ≤ n →
      ff (filled l n) v = .ok (filled (l ++ out v) n)) :
    wp (do let n ← ids.foldlM cf 0; let s ← ids.foldlM ff (newCur Int n.toNat); .ok s.1 : M (List (Option Int)))
      (fun r => (∀ v ∈ ids, ValidRange off v) ∧ r = ((ids.map out).flatten).map some) E := by
  rw [wp_bind]
  refine wp_mono (wp_foldlM (E := E) (fun pre n => (∀ v ∈ pre, ValidRange off v) ∧ n = (((pre.map out).flatten).length : Int)) ?_ ?_) ?_ id
  · simp
  · rintro pre x suf hl n ⟨h1, h2⟩
    refine wp_mono (hc n x (by rw [hl]; simp)) (fun m hm => ?_) id
    obtain ⟨hm1, hm2⟩ := hm
    refine ⟨fun v hv => ?_, ?_⟩
    · rcases List.mem_append.mp hv with hv | hv
      · exact h1 v hv
      · simp at hv; subst hv; exact hm1
    · have := hlen x hm1
      simp only [List.map_append, List.map_cons, List.map_nil, List.flatten_append, List.flatten_cons, List.flatten_nil,
        List.append_nil, List.length_append]
      push_cast
      omega
  · rintro n ⟨hv, hn⟩
    rw [wp_bind]
    refine wp_mono (wp_foldlM (E := E) (fun pre s => s = filled ((pre.map out).flatten) n.toNat) ?_ ?_) ?_ id
    · rw [newCur_eq]; rfl
    · rintro pre x suf hl s rfl
      have hx := hv x (by rw [hl]; simp)
      rw [hf x hx _ _ (by
        rw [hn, hl]; simp only [List.map_append, List.map_cons, List.flatten_append, List.flatten_cons, List.length_append,
          Int.toNat_natCast]; omega)]
      show filled _ _ = filled _ _
      simp
    · rintro s rfl
      refine ⟨hv, filled_full (by omega)⟩

/-- **C16.** `buildExplicitArrByRanges(offsets)` is the concatenation of the selected intervals; it throws exactly when an id
designates no interval or an inverted one, and never accesses out of bounds. -/
theorem C16_explicit (l off : List Int) :
    ((∀ v ∈ l, ValidRange off v) → buildExplicitArrByRanges l off =
      .ok (((l.map fun v => interval (lowOf off v) (highOf off v)).flatten).map some)) ∧
    ((∃ v ∈ l, ¬ ValidRange off v) → buildExplicitArrByRanges l off = .error .exn) := by
  have main : ∀ E : Prop, ((∃ v ∈ l, ¬ ValidRange off v) → E) → wp (buildExplicitArrByRanges l off)
      (fun r => (∀ v ∈ l, ValidRange off v) ∧
        r = ((l.map fun v => interval (lowOf off v) (highOf off v)).flatten).map some) E := by
    intro E hE
    apply expand_wp off
    · intro n v hv
      unfold explicitCount
      apply wp_ite
      · rintro ⟨h0, h1⟩
        rw [rd_ok (by omega) (by omega : (v + 1).toNat < off.length), rd_ok h0 (by omega : v.toNat < off.length)]
        have e1 : off[v.toNat]? = some (off[v.toNat]'(by omega)) := by simp
        have e2 : off[v.toNat + 1]? = some (off[(v + 1).toNat]'(by omega)) := by
          simp [show (v + 1).toNat = v.toNat + 1 by omega]
        show wp (if _ then _ else _) _ _
        apply wp_ite
        · intro h2
          refine ⟨⟨h0, _, _, e1, e2, by omega⟩, ?_⟩
          simp [highOf, lowOf, e1, e2]
        · intro h2
          refine hE ⟨v, hv, fun hh => ?_⟩
          obtain ⟨_, a, b, ha, hb, hab⟩ := hh
          rw [e1] at ha; rw [e2] at hb
          simp only [Option.some.injEq] at ha hb
          omega
      · intro h
        refine hE ⟨v, hv, fun hh => h ⟨hh.get.1, hh.get.2.1⟩⟩
    · intro v hv
      have := hv.get.2.2.2.2
      simp [interval]; omega
    · intro v hv k n hk
      obtain ⟨h0, h1, h2, h3, h4⟩ := hv.get
      unfold explicitFill
      rw [rd_of_getElem? h0 h2]
      show (rd off (v + 1) >>= _) = _
      rw [rd_of_getElem? (by omega) h3]
      show loop _ _ _ = _
      rw [emit_loop (fun j : Nat => lowOf off v + (j : Int)) (by simpa [interval] using hk)]
      rfl
  constructor
  · intro h
    obtain ⟨r, hr, _, e⟩ := wp_exists (main False (by rintro ⟨v, hv, h'⟩; exact h' (h v hv)))
    rw [hr, e]
  · rintro ⟨v, hv, h'⟩
    exact wp_throws (wp_mono (main True fun _ => trivial) (fun r h => h' (h.1 v hv)) id)

example : buildExplicitArrByRanges [0, 2, 3] [0, 3, 6, 10, 14, 20] =
    .ok ([0, 1, 2, 6, 7, 8, 9, 10, 11, 12, 13].map some) := by decide
example : buildExplicitArrByRanges [0, 5] [0, 3, 6, 10, 14, 20] = .error .exn := by decide

/-- **C16.** `buildExplicitArrOfSliceOnScaledArr(bg,stop,step)` repeats each term of the slice as many times as the length of
the interval of that rank; it throws exactly when the slice is malformed, the scale is empty or a term designates no interval
or an inverted one. -/
theorem C16_slice_on_scaled (ids : List Int) (bg stop step : Int) (n : Nat) (hn : IsTermCount bg stop step n)
    (hok : SliceOk bg stop step) (hne : ids ≠ []) :
    ((∀ v ∈ progression bg step n, ValidRange ids v) → buildExplicitArrOfSliceOnScaledArr ids bg stop step =
      .ok ((((progression bg step n).map fun v => List.replicate (highOf ids v - lowOf ids v).toNat v).flatten).map some)) ∧
    ((∃ v ∈ progression bg step n, ¬ ValidRange ids v) → buildExplicitArrOfSliceOnScaledArr ids bg stop step = .error .exn) := by
  obtain ⟨n', hn', ht⟩ := (C01_relative_count bg stop step).1 hok
  have := ht.unique hn
  subst this
  have hrun : buildExplicitArrOfSliceOnScaledArr ids bg stop step = (do
      let sz ← (progression bg step n).foldlM (scaledCount ids) 0
      let s ← (progression bg step n).foldlM (scaledFill ids) (newCur Int sz.toNat)
      .ok s.1) := by
    unfold buildExplicitArrOfSliceOnScaledArr
    rw [if_neg (by simpa using hne), hn']
    rfl
  rw [hrun]
  have main : ∀ E : Prop, ((∃ v ∈ progression bg step n, ¬ ValidRange ids v) → E) → wp (do
      let sz ← (progression bg step n).foldlM (scaledCount ids) 0
      let s ← (progression bg step n).foldlM (scaledFill ids) (newCur Int sz.toNat)
      .ok s.1)
      (fun r => (∀ v ∈ progression bg step n, ValidRange ids v) ∧
        r = (((progression bg step n).map fun v => List.replicate (highOf ids v - lowOf ids v).toNat v).flatten).map some) E := by
    intro E hE
    apply expand_wp ids
    · intro m v hv
      unfold scaledCount
      apply wp_ite
      · rintro ⟨h0, h1⟩
        rw [rd_ok (by omega) (by omega : (v + 1).toNat < ids.length), rd_ok h0 (by omega : v.toNat < ids.length)]
        have e1 : ids[v.toNat]? = some (ids[v.toNat]'(by omega)) := by simp
        have e2 : ids[v.toNat + 1]? = some (ids[(v + 1).toNat]'(by omega)) := by
          simp [show (v + 1).toNat = v.toNat + 1 by omega]
        show wp (if _ then _ else _) _ _
        apply wp_ite
        · intro h2
          refine hE ⟨v, hv, fun hh => ?_⟩
          obtain ⟨_, a, b, ha, hb, hab⟩ := hh
          rw [e1] at ha; rw [e2] at hb
          simp only [Option.some.injEq] at ha hb
          omega
        · intro h2
          refine ⟨⟨h0, _, _, e1, e2, by omega⟩, ?_⟩
          simp [highOf, lowOf, e1, e2]
      · intro h
        refine hE ⟨v, hv, fun hh => h ⟨hh.get.1, hh.get.2.1⟩⟩
    · intro v hv
      have := hv.get.2.2.2.2
      simp; omega
    · intro v hv k m hk
      obtain ⟨h0, h1, h2, h3, h4⟩ := hv.get
      unfold scaledFill
      rw [rd_of_getElem? (by omega) h3]
      show (rd ids v >>= _) = _
      rw [rd_of_getElem? h0 h2]
      show loop _ _ _ = _
      rw [emit_loop (fun _ : Nat => v) (by simpa using hk)]
      simp
  constructor
  · intro h
    obtain ⟨r, hr, _, e⟩ := wp_exists (main False (by rintro ⟨v, hv, h'⟩; exact h' (h v hv)))
    rw [hr, e]
  · rintro ⟨v, hv, h'⟩
    exact wp_throws (wp_mono (main True fun _ => trivial) (fun r h => h' (h.1 v hv)) id)

theorem C16_slice_on_scaled_throws (ids : List Int) (bg stop step : Int) (h : ¬ SliceOk bg stop step ∨ ids = []) :
    buildExplicitArrOfSliceOnScaledArr ids bg stop step = .error .exn := by
  unfold buildExplicitArrOfSliceOnScaledArr
  by_cases he : ids.length = 0
  · rw [if_pos he]; rfl
  · rw [if_neg he, (C01_relative_count bg stop step).2 (h.resolve_right (by simpa using he))]; rfl

example : buildExplicitArrOfSliceOnScaledArr [0, 3, 6, 10, 14, 20] 0 5 2 =
    .ok ([0, 0, 0, 2, 2, 2, 2, 4, 4, 4, 4, 4, 4].map some) := by decide
example : buildExplicitArrOfSliceOnScaledArr [0, 3, 6, 10, 14, 20] 4 (-1) (-3) =
    .ok ([4, 4, 4, 4, 4, 4, 1, 1, 1].map some) := by decide

/-! ## C17 -/

/-- `v` belongs to the half-open interval -/
def InRange (r : Int × Int) (v : Int) : Prop := r.1 ≤ v ∧ v < r.2

theorem firstRange_some {ranges : List (Int × Int)} {v : Int} {j : Nat} (h : firstRange ranges v = some j) :
    ∃ r, ranges[j]? = some r ∧ InRange r v ∧ ∀ k r', k < j → ranges[k]? = some r' → ¬ InRange r' v := by
  rw [firstRange, List.findIdx?_eq_some_iff_getElem] at h
  obtain ⟨hj, h1, h2⟩ := h
  refine ⟨ranges[j], by simp, by simpa [InRange] using h1, ?_⟩
  intro k r' hk hr'
  have := h2 k hk
  obtain ⟨hkl, rfl⟩ := List.getElem?_eq_some_iff.mp hr'
  simpa [InRange] using this

theorem firstRange_none {ranges : List (Int × Int)} {v : Int} :
    firstRange ranges v = none ↔ ∀ r ∈ ranges, ¬ InRange r v := by
  rw [firstRange, List.findIdx?_eq_none_iff]
  simp [InRange]

/-- **C17.** Each value is located in the first interval which contains it, `findIdInRangeForEachTuple` gives its offset there
(so interval begin + offset rebuilds the value); both throw exactly when some value is in no interval. -/
theorem C17_find_range (l : List Int) (ranges : List (Int × Int)) :
    ((∀ v ∈ l, ∃ r ∈ ranges, InRange r v) → ∃ ids pos : List Int, findRangeIdForEachTuple l ranges = .ok ids ∧
      findIdInRangeForEachTuple l ranges = .ok pos ∧ ids.length = l.length ∧ pos.length = l.length ∧
      ∀ i : Nat, ∀ v, l[i]? = some v → ∃ (j : Nat) (r : Int × Int) (p : Int), ids[i]? = some (j : Int) ∧ pos[i]? = some p ∧
        ranges[j]? = some r ∧ InRange r v ∧ r.1 + p = v ∧
        ∀ k r', k < j → ranges[k]? = some r' → ¬ InRange r' v) ∧
    ((∃ v ∈ l, ∀ r ∈ ranges, ¬ InRange r v) → findRangeIdForEachTuple l ranges = .error .exn ∧
      findIdInRangeForEachTuple l ranges = .error .exn) := by
  have m1 : ∀ E : Prop, ((∃ v ∈ l, ∀ r ∈ ranges, ¬ InRange r v) → E) → wp (findRangeIdForEachTuple l ranges)
      (List.Forall₂ (fun v p => ∃ j : Nat, firstRange ranges v = some j ∧ p = (j : Int)) l) E := by
    intro E hE
    apply wp_mapM
    intro v hv
    cases hf : firstRange ranges v with
    | none => exact hE ⟨v, hv, firstRange_none.mp hf⟩
    | some j => exact ⟨j, rfl, rfl⟩
  have m2 : ∀ E : Prop, ((∃ v ∈ l, ∀ r ∈ ranges, ¬ InRange r v) → E) → wp (findIdInRangeForEachTuple l ranges)
      (List.Forall₂ (fun v p => ∃ (j : Nat) (r : Int × Int), firstRange ranges v = some j ∧ ranges[j]? = some r ∧ p = v - r.1) l) E := by
    intro E hE
    apply wp_mapM
    intro v hv
    cases hf : firstRange ranges v with
    | none => exact hE ⟨v, hv, firstRange_none.mp hf⟩
    | some j =>
      obtain ⟨r, hr, _⟩ := firstRange_some hf
      simp only
      rw [wp_bind]
      apply wp_rd' (by omega) (by simpa using hr)
      exact ⟨j, r, rfl, hr, rfl⟩
  constructor
  · intro h
    have hno : ¬ ∃ v ∈ l, ∀ r ∈ ranges, ¬ InRange r v := by
      rintro ⟨v, hv, h'⟩; obtain ⟨r, hr, hi⟩ := h v hv; exact h' r hr hi
    obtain ⟨ids, e1, f1⟩ := wp_exists (m1 False hno)
    obtain ⟨pos, e2, f2⟩ := wp_exists (m2 False hno)
    refine ⟨ids, pos, e1, e2, f1.length_eq.symm, f2.length_eq.symm, fun i v hv => ?_⟩
    obtain ⟨p1, hp1, j, hj, rfl⟩ := forall₂_at f1 hv
    obtain ⟨p2, hp2, j', r, hj', hr, rfl⟩ := forall₂_at f2 hv
    rw [hj] at hj'; simp at hj'; subst hj'
    obtain ⟨r', hr', hin, hmin⟩ := firstRange_some hj
    rw [hr] at hr'; simp at hr'; subst hr'
    exact ⟨j, r, v - r.1, hp1, hp2, hr, hin, by omega, hmin⟩
  · rintro ⟨v, hv, h⟩
    constructor
    · refine wp_throws (wp_mono (m1 True fun _ => trivial) (fun ids f => ?_) id)
      obtain ⟨i, hi⟩ := List.mem_iff_getElem?.mp hv
      obtain ⟨_, _, j, hj, _⟩ := forall₂_at f hi
      rw [firstRange_none.mpr h] at hj; simp at hj
    · refine wp_throws (wp_mono (m2 True fun _ => trivial) (fun ids f => ?_) id)
      obtain ⟨i, hi⟩ := List.mem_iff_getElem?.mp hv
      obtain ⟨_, _, j, _, hj, _⟩ := forall₂_at f hi
      rw [firstRange_none.mpr h] at hj; simp at hj

example : findRangeIdForEachTuple [1, 24, 7, 8, 10, 17] [(0, 3), (3, 8), (8, 15), (15, 22), (22, 30)] = .ok [0, 4, 1, 2, 2, 3] ∧
    findIdInRangeForEachTuple [1, 24, 7, 8, 10, 17] [(0, 3), (3, 8), (8, 15), (15, 22), (22, 30)] = .ok [1, 2, 4, 0, 2, 2] := by
  decide

/-! ## C31 -/

/-- `v` is cast at `j`: it is at or above bound `j` and below all the later bounds (there is at least one). -/
def IsCast (arr : List Int) (v : Int) (j : Nat) : Prop :=
  j + 1 < arr.length ∧ (∀ a, arr[j]? = some a → a ≤ v) ∧ ∀ k a, j < k → arr[k]? = some a → v < a

theorem IsCast.unique {arr : List Int} {v : Int} {j k : Nat} (h : IsCast arr v j) (h' : IsCast arr v k) : j = k := by
  by_contra hne
  rcases Nat.lt_or_gt_of_ne hne with hlt | hlt
  · have := h.2.2 k (arr[k]'(by have := h'.1; omega)) hlt (by simp)
    have := h'.2.1 (arr[k]'(by have := h'.1; omega)) (by simp)
    omega
  · have := h'.2.2 j (arr[j]'(by have := h.1; omega)) hlt (by simp)
    have := h.2.1 (arr[j]'(by have := h.1; omega)) (by simp)
    omega

theorem castOf_wp (arr : List Int) (v : Int) (E : Prop) (hE : (∀ j, ¬ IsCast arr v j) → E) :
    wp (castOf arr v) (fun p => ∃ j : Nat, IsCast arr v j ∧ p.1 = (j : Int) ∧ arr[j]? = some (v - p.2)) E := by
  unfold castOf
  cases hf : arr.reverse.findIdx? (fun a => decide (a ≤ v)) with
  | none =>
    refine hE fun j hj => ?_
    rw [List.findIdx?_eq_none_iff] at hf
    have := hf (arr[j]'(by have := hj.1; omega)) (by simp)
    have := hj.2.1 (arr[j]'(by have := hj.1; omega)) (by simp)
    simp_all
  | some pos =>
    rw [List.findIdx?_eq_some_iff_getElem] at hf
    obtain ⟨hp, h1, h2⟩ := hf
    simp only [List.length_reverse] at hp
    simp only [List.getElem_reverse, decide_eq_true_eq] at h1 h2
    have later : ∀ k a, arr.length - 1 - pos < k → arr[k]? = some a → v < a := by
      intro k a hk ha
      obtain ⟨hkl, rfl⟩ := List.getElem?_eq_some_iff.mp ha
      have := h2 (arr.length - 1 - k) (by omega)
      have e : arr.length - 1 - (arr.length - 1 - k) = k := by omega
      simp only [e] at this
      omega
    simp only
    apply wp_ite
    · intro hlt
      rw [wp_bind]
      apply wp_rd (by omega) (by simp; omega)
      refine ⟨arr.length - 1 - pos, ⟨by omega, ?_, later⟩, rfl, ?_⟩
      · intro a ha
        obtain ⟨hkl, rfl⟩ := List.getElem?_eq_some_iff.mp ha
        exact h1
      · simp
    · intro hge
      refine hE fun j hj => ?_
      have hp0 : pos = 0 := by omega
      subst hp0
      have := hj.2.2 (arr.length - 1) (arr[arr.length - 1]'(by omega)) (by have := hj.1; omega) (by simp)
      simp at h1
      omega

/-- **C31.** `splitByValueRange(arr)` casts each value `v` at the unique `j` such that `arr[j] <= v` and `v` is below every
later bound (for an increasing `arr`: `arr[j] <= v < arr[j+1]`), gives `v - arr[j]`, and the increasing list of the casts used;
it throws exactly when some value has no cast (or when there are less than two bounds). -/
theorem C31_split (l arr : List Int) :
    (2 ≤ arr.length → (∀ v ∈ l, ∃ j, IsCast arr v j) → ∃ cast rank present, splitByValueRange l arr = .ok (cast, rank, present) ∧
      cast.length = l.length ∧ rank.length = l.length ∧
      (∀ i : Nat, ∀ v, l[i]? = some v → ∃ (j : Nat) (p : Int), cast[i]? = some (j : Int) ∧ rank[i]? = some p ∧ IsCast arr v j ∧
        arr[j]? = some (v - p)) ∧
      StrictSorted present ∧ ∀ c, c ∈ present ↔ c ∈ cast) ∧
    ((arr.length < 2 ∨ ∃ v ∈ l, ∀ j, ¬ IsCast arr v j) → splitByValueRange l arr = .error .exn) := by
  have m : ∀ E : Prop, ((∃ v ∈ l, ∀ j, ¬ IsCast arr v j) → E) → wp (l.mapM (castOf arr))
      (List.Forall₂ (fun v p => ∃ j : Nat, IsCast arr v j ∧ p.1 = (j : Int) ∧ arr[j]? = some (v - p.2)) l) E := by
    intro E hE
    apply wp_mapM
    intro v hv
    exact castOf_wp arr v E fun h => hE ⟨v, hv, h⟩
  unfold splitByValueRange
  constructor
  · intro h2 h
    rw [if_neg (by omega)]
    obtain ⟨r, e, f⟩ := wp_exists (m False (by rintro ⟨v, hv, h'⟩; obtain ⟨j, hj⟩ := h v hv; exact h' j hj))
    rw [e]
    refine ⟨r.map Prod.fst, r.map Prod.snd, setInsertAll [] (r.map Prod.fst), rfl, by simp [f.length_eq], by simp [f.length_eq], ?_,
      sorted_setInsertAll List.Pairwise.nil, fun c => by rw [mem_setInsertAll]; simp⟩
    intro i v hv
    obtain ⟨p, hp, j, hj, h1, h2⟩ := forall₂_at f hv
    exact ⟨j, p.2, by simp [hp, h1], by simp [hp], hj, h2⟩
  · rintro (h | ⟨v, hv, h⟩)
    · rw [if_pos h]; rfl
    · by_cases h2 : arr.length < 2
      · rw [if_pos h2]; rfl
      · rw [if_neg h2]
        have : l.mapM (castOf arr) = .error .exn := by
          refine wp_throws (wp_mono (m True fun _ => trivial) (fun r f => ?_) id)
          obtain ⟨i, hi⟩ := List.mem_iff_getElem?.mp hv
          obtain ⟨_, _, j, hj, _⟩ := forall₂_at f hi
          exact h j hj
        rw [this]; rfl

example : splitByValueRange [6, 5, 0, 3, 2, 7, 8, 1, 4] [0, 4, 9] =
    .ok ([1, 1, 0, 0, 0, 1, 1, 0, 1], [2, 1, 0, 3, 2, 3, 4, 1, 0], [0, 1]) := by decide

/-! ## C37 -/

/-- The intervals of `off` (numbered from `k`) all of whose ids are in `l`. -/
def fetched (l : List Int) : (k : Nat) → (off : List Int) → List (Nat × Int × Int)
  | k, lo :: hi :: os => (if ∀ x ∈ interval lo hi, x ∈ l then [(k, lo, hi)] else []) ++ fetched l (k + 1) (hi :: os)
  | _, _ => []

theorem fetched_congr {l l' : List Int} {off : List Int} (k : Nat) (hs : StrictSorted off)
    (h : ∀ x, (∃ b ∈ off.head?, b ≤ x) → (x ∈ l ↔ x ∈ l')) : fetched l k off = fetched l' k off := by
  induction off generalizing k with
  | nil => rfl
  | cons lo off ih =>
    cases off with
    | nil => rfl
    | cons hi os =>
      rw [StrictSorted, List.pairwise_cons] at hs
      have hlt := hs.1 hi (by simp)
      unfold fetched
      rw [ih (k + 1) hs.2 (fun x ⟨b, hb, hx⟩ => h x ⟨lo, by simp, by simp at hb; omega⟩)]
      have : (∀ x ∈ interval lo hi, x ∈ l) ↔ (∀ x ∈ interval lo hi, x ∈ l') := by
        apply forall₂_congr
        intro x hx
        rw [mem_interval] at hx
        exact h x ⟨lo, by simp, hx.1⟩
      simp only [this]

theorem mem_fetched {l off : List Int} {k0 k : Nat} {lo hi : Int} :
    (k, lo, hi) ∈ fetched l k0 off ↔ k0 ≤ k ∧ off[k - k0]? = some lo ∧ off[k - k0 + 1]? = some hi ∧ ∀ x, lo ≤ x → x < hi → x ∈ l := by
  induction off generalizing k0 with
  | nil => simp [fetched]
  | cons a off ih =>
    cases off with
    | nil => simp [fetched]
    | cons b os =>
      unfold fetched
      rw [List.mem_append, ih]
      constructor
      · rintro (h | ⟨h1, h2, h3, h4⟩)
        · split at h
          · rename_i hf
            simp at h
            obtain ⟨rfl, rfl, rfl⟩ := h
            exact ⟨le_refl _, by simp, by simp, fun x h1 h2 => hf x (mem_interval.mpr ⟨h1, h2⟩)⟩
          · simp at h
        · have e : k - k0 = (k - (k0 + 1)) + 1 := by omega
          exact ⟨by omega, by rw [e]; simpa using h2, by rw [e]; simpa using h3, h4⟩
      · rintro ⟨h1, h2, h3, h4⟩
        by_cases hk : k = k0
        · subst hk
          simp at h2 h3
          obtain ⟨rfl, rfl⟩ := And.intro h2 h3
          left
          rw [if_pos (fun x hx => h4 x (mem_interval.mp hx).1 (mem_interval.mp hx).2)]
          simp
        · right
          have e : k - k0 = (k - (k0 + 1)) + 1 := by omega
          rw [e] at h2 h3
          exact ⟨by omega, by simpa using h2, by simpa using h3, h4⟩

theorem fetched_sorted (l off : List Int) (k0 : Nat) : StrictSorted ((fetched l k0 off).map fun p => (p.1 : Int)) := by
  induction off generalizing k0 with
  | nil => simp [fetched, StrictSorted]
  | cons a off ih =>
    cases off with
    | nil => simp [fetched, StrictSorted]
    | cons b os =>
      unfold fetched
      split
      · rw [List.singleton_append, List.map_cons, StrictSorted, List.pairwise_cons]
        refine ⟨fun x hx => ?_, ih (k0 + 1)⟩
        simp only [List.mem_map] at hx
        obtain ⟨⟨k, lo, hi⟩, hp, rfl⟩ := hx
        have := (mem_fetched.mp hp).1
        show (k0 : Int) < (k : Int)
        omega
      · simpa using ih (k0 + 1)

theorem interval_self (a : Int) : interval a a = [] := by simp [interval]

theorem interval_cons {a b : Int} (h : a < b) : interval a b = a :: interval (a + 1) b := by
  unfold interval
  obtain ⟨m, hm⟩ : ∃ m, (b - a).toNat = m + 1 := ⟨(b - a).toNat - 1, by omega⟩
  rw [hm, show (b - (a + 1)).toNat = m by omega, List.range_succ_eq_map]
  simp only [List.map_cons, List.map_map]
  congr 1
  · simp
  · apply List.map_congr_left
    intro j _
    simp only [Function.comp_apply]; push_cast; ring

theorem scanRange_spec (hi : Int) (tup : List Int) : ∀ i : Int, i ≤ hi → StrictSorted tup → (∀ x ∈ tup, i ≤ x) →
    (∃ rest, tup = interval i hi ++ rest ∧ scanRange hi i tup = .ok (hi, rest)) ∨
    (∃ j rest, i ≤ j ∧ j < hi ∧ tup = interval i j ++ rest ∧ j ∉ tup ∧ scanRange hi i tup = .ok (j, rest)) ∨
    (∃ j, i ≤ j ∧ j < hi ∧ tup = interval i j) := by
  induction tup with
  | nil =>
    intro i hi' _ _
    by_cases h : i = hi
    · subst h
      left; exact ⟨[], by rw [interval_self]; rfl, by simp [scanRange]⟩
    · right; right; exact ⟨i, le_refl _, by omega, by rw [interval_self]⟩
  | cons t ts ih =>
    intro i hi' hs hge
    rw [StrictSorted, List.pairwise_cons] at hs
    by_cases h : i < hi
    · by_cases ht : t = i
      · subst ht
        have hge' : ∀ x ∈ ts, t + 1 ≤ x := fun x hx => by have := hs.1 x hx; omega
        unfold scanRange
        rw [if_pos h, if_pos rfl]
        rcases ih (t + 1) (by omega) hs.2 hge' with ⟨rest, h1, h2⟩ | ⟨j, rest, h0, h1, h2, h3, h4⟩ | ⟨j, h0, h1, h2⟩
        · left; exact ⟨rest, by rw [interval_cons h, List.cons_append, ← h1], h2⟩
        · right; left
          refine ⟨j, rest, by omega, h1, by rw [interval_cons (by omega), List.cons_append, ← h2], ?_, h4⟩
          simp only [List.mem_cons, not_or]
          exact ⟨by omega, h3⟩
        · right; right
          exact ⟨j, by omega, h1, by rw [interval_cons (by omega), ← h2]⟩
      · right; left
        refine ⟨i, t :: ts, le_refl _, h, by rw [interval_self]; rfl, ?_, by unfold scanRange; rw [if_pos h, if_neg ht]⟩
        have h1 := hge t (by simp)
        simp only [List.mem_cons, not_or]
        refine ⟨fun e => ht e.symm, fun hm => ?_⟩
        have := hs.1 i hm
        omega
    · left
      have : i = hi := by omega
      subst this
      exact ⟨t :: ts, by rw [interval_self]; rfl, by unfold scanRange; rw [if_neg h]⟩

/-- The list of ids does not stop strictly inside an interval. -/
def NoCut (l off : List Int) : Prop :=
  ∀ v ∈ l.getLast?, ∀ lo hi, (lo, hi) ∈ off.zip off.tail → ¬ (lo ≤ v ∧ v + 1 < hi)

theorem NoCut.tail_off {l : List Int} {a : Int} {off : List Int} (h : NoCut l (a :: off)) : NoCut l off := by
  intro v hv lo hi hm
  refine h v hv lo hi ?_
  cases off with
  | nil => simp at hm
  | cons b os => simp only [List.tail_cons, List.zip_cons_cons, List.mem_cons]; right; exact hm

theorem NoCut.suffix {l l' off : List Int} (h : NoCut (l' ++ l) off) : NoCut l off := by
  intro v hv
  refine h v ?_
  cases l with
  | nil => simp at hv
  | cons a l => rw [List.getLast?_append]; rw [Option.mem_def] at hv; simp [hv]

theorem findRangesLoop_spec (fuel : Nat) : ∀ (k : Nat) (tup off r0 r1 : List Int), tup.length + off.length < fuel →
    StrictSorted tup → StrictSorted off → NoCut tup off →
    findRangesLoop fuel k tup off r0 r1 = .ok (r0 ++ (fetched tup k off).map (fun p => (p.1 : Int)),
      r1 ++ ((fetched tup k off).map fun p => interval p.2.1 p.2.2).flatten) := by
  induction fuel with
  | zero => intro k tup off r0 r1 h; omega
  | succ fuel ih =>
    intro k tup off r0 r1 hf ht ho hc
    match tup, off with
    | [], off =>
      have : fetched [] k off = [] := by
        rw [List.eq_nil_iff_forall_not_mem]
        rintro ⟨k', lo, hi⟩ hm
        obtain ⟨_, h2, h3, h4⟩ := mem_fetched.mp hm
        have hlt : lo < hi := by
          obtain ⟨_, e1⟩ := List.getElem?_eq_some_iff.mp h2
          obtain ⟨_, e2⟩ := List.getElem?_eq_some_iff.mp h3
          rw [← e1, ← e2]
          exact List.pairwise_iff_getElem.mp ho _ _ _ _ (by omega)
        have := h4 lo (le_refl _) hlt
        simp at this
      simp [findRangesLoop, this]
    | t :: ts, [] => simp [findRangesLoop, fetched]
    | t :: ts, [a] => simp [findRangesLoop, fetched]
    | t :: ts, lo :: hi :: os =>
      have ho' := ho
      rw [StrictSorted, List.pairwise_cons] at ho'
      have hlt : lo < hi := ho'.1 hi (by simp)
      have ht' := ht
      rw [StrictSorted, List.pairwise_cons] at ht'
      unfold findRangesLoop
      by_cases h1 : t = lo
      · subst h1
        rw [if_pos rfl]
        have hge : ∀ x ∈ t :: ts, t ≤ x := fun x hx => by
          rcases List.mem_cons.mp hx with rfl | hx
          · exact le_refl _
          · exact le_of_lt (ht'.1 x hx)
        rcases scanRange_spec hi (t :: ts) t (le_of_lt hlt) ht hge with ⟨rest, e1, e2⟩ | ⟨j, rest, h0, h2, e1, h3, e2⟩ | ⟨j, h0, h2, e1⟩
        · rw [e2]
          simp only
          rw [if_pos trivial]
          have hlen : (interval t hi).length = (hi - t).toNat := by simp [interval]
          have hr : StrictSorted rest := by rw [e1] at ht; exact (List.pairwise_append.mp ht).2.1
          have hl' := congrArg List.length e1
          simp only [List.length_cons, List.length_append] at hl' hf
          rw [ih (k + 1) rest (hi :: os) _ _ (by simp only [List.length_cons]; omega) hr ho'.2
            (by rw [e1] at hc; exact hc.suffix.tail_off)]
          have hfull : ∀ x ∈ interval t hi, x ∈ t :: ts := fun x hx => by rw [e1]; simp [hx]
          have hcong : fetched (t :: ts) (k + 1) (hi :: os) = fetched rest (k + 1) (hi :: os) := by
            apply fetched_congr _ ho'.2
            rintro x ⟨b, hb, hx⟩
            simp at hb
            rw [e1, List.mem_append, mem_interval]
            constructor
            · rintro (h | h)
              · omega
              · exact h
            · exact Or.inr
          conv_rhs => unfold fetched
          rw [if_pos hfull, hcong]
          have htake : List.take (hi - t).toNat (t :: ts) = interval t hi := by rw [e1, List.take_left' hlen]
          rw [htake]
          simp
        · rw [e2]
          simp only
          rw [if_neg (by omega)]
          have htj : t < j := by
            rcases Int.lt_or_eq_of_le h0 with h | h
            · exact h
            · subst h; simp at h3
          have hr : StrictSorted rest := by rw [e1] at ht; exact (List.pairwise_append.mp ht).2.1
          have hl' := congrArg List.length e1
          rw [interval_cons htj] at hl'
          simp only [List.length_cons, List.length_append, List.cons_append] at hl' hf
          rw [ih k rest (t :: hi :: os) _ _ (by simp only [List.length_cons]; omega) hr ho
            (by rw [e1] at hc; exact hc.suffix)]
          have hcong : fetched (t :: ts) (k + 1) (hi :: os) = fetched rest (k + 1) (hi :: os) := by
            apply fetched_congr _ ho'.2
            rintro x ⟨b, hb, hx⟩
            simp at hb
            rw [e1, List.mem_append, mem_interval]
            constructor
            · rintro (h | h)
              · omega
              · exact h
            · exact Or.inr
          have n1 : ¬ ∀ x ∈ interval t hi, x ∈ t :: ts := fun h => h3 (h j (mem_interval.mpr ⟨h0, h2⟩))
          have n2 : ¬ ∀ x ∈ interval t hi, x ∈ rest := fun h => h3 (by
            rw [e1]; exact List.mem_append_right _ (h j (mem_interval.mpr ⟨h0, h2⟩)))
          have : fetched rest k (t :: hi :: os) = fetched (t :: ts) k (t :: hi :: os) := by
            unfold fetched
            rw [if_neg n1, if_neg n2, hcong]
          rw [this]
        · exfalso
          have htj : t < j := by
            rcases Int.lt_or_eq_of_le h0 with h | h
            · exact h
            · subst h; rw [interval_self] at e1; simp at e1
          refine hc (j - 1) ?_ t hi (by simp) ⟨by omega, by omega⟩
          rw [e1, Option.mem_def]
          unfold interval
          obtain ⟨m, hm⟩ : ∃ m, (j - t).toNat = m + 1 := ⟨(j - t).toNat - 1, by omega⟩
          rw [hm, List.range_succ]
          simp; omega
      · rw [if_neg h1]
        by_cases h2 : t < lo
        · rw [if_pos h2, ih k ts _ _ _ (by simp only [List.length_cons] at hf ⊢; omega) ht'.2 ho (NoCut.suffix (l' := [t]) hc)]
          have : fetched ts k (lo :: hi :: os) = fetched (t :: ts) k (lo :: hi :: os) := by
            apply fetched_congr _ ho
            rintro x ⟨b, hb, hx⟩
            simp at hb
            simp only [List.mem_cons]
            constructor
            · exact Or.inr
            · rintro (h | h)
              · omega
              · exact h
          rw [this]
        · rw [if_neg h2, ih (k + 1) _ _ _ _ (by simp only [List.length_cons] at hf ⊢; omega) ht ho'.2 hc.tail_off]
          have n1 : ¬ ∀ x ∈ interval lo hi, x ∈ t :: ts := fun h => by
            have := h lo (mem_interval.mpr ⟨le_refl _, hlt⟩)
            rcases List.mem_cons.mp this with rfl | hm
            · exact h1 rfl
            · have := ht'.1 lo hm; omega
          conv_rhs => unfold fetched
          rw [if_neg n1]
          simp

/-- **C37.** With strictly increasing offsets and a strictly increasing list of ids which does not stop strictly inside an
interval, `findIdsRangesInListOfIds` returns the increasing ranks of the intervals completely present in the list and the
concatenation of these intervals. -/
theorem C37_ranges_in_list (off l : List Int) (ho : StrictSorted off) (hl : StrictSorted l) (hne : off ≠ []) (hc : NoCut l off) :
    ∃ r0 : List Nat, findIdsRangesInListOfIds off l =
        .ok (r0.map Int.ofNat, (r0.map fun k : Nat => interval (lowOf off (k : Int)) (highOf off (k : Int))).flatten) ∧
      StrictSorted r0 ∧
      ∀ k : Nat, k ∈ r0 ↔ ∃ lo hi, off[k]? = some lo ∧ off[k + 1]? = some hi ∧ ∀ x, lo ≤ x → x < hi → x ∈ l := by
  refine ⟨(fetched l 0 off).map Prod.fst, ?_, ?_, ?_⟩
  · unfold findIdsRangesInListOfIds
    rw [if_neg hne, findRangesLoop_spec _ 0 l off [] [] (by omega) hl ho hc]
    simp only [List.nil_append, List.map_map]
    congr 3
    apply List.map_congr_left
    rintro ⟨k, lo, hi⟩ hp
    obtain ⟨_, h1, h2, _⟩ := mem_fetched.mp hp
    simp at h1 h2
    simp [lowOf, highOf, h1, h2]
  · have := fetched_sorted l off 0
    rw [StrictSorted, List.pairwise_map] at this ⊢
    exact this.imp fun h => by simpa using h
  · intro k
    simp only [List.mem_map, Prod.exists, exists_and_right, exists_eq_right]
    constructor
    · rintro ⟨lo, hi, hp⟩
      obtain ⟨_, h1, h2, h3⟩ := mem_fetched.mp hp
      exact ⟨lo, hi, by simpa using h1, by simpa using h2, h3⟩
    · rintro ⟨lo, hi, h1, h2, h3⟩
      exact ⟨lo, hi, mem_fetched.mpr ⟨by omega, by simpa using h1, by simpa using h2, h3⟩⟩

example : findIdsRangesInListOfIds [0, 3, 7, 9, 15, 18] [0, 1, 2, 3, 7, 8, 15, 16, 17] = .ok ([0, 2, 4], [0, 1, 2, 7, 8, 15, 16, 17]) := by
  decide
example : NoCut [0, 1, 2, 3, 7, 8, 15, 16, 17] [0, 3, 7, 9, 15, 18] := by simp [NoCut]; omega

/-- **C37, finding.** When the list stops strictly inside an interval whose beginning it contains, the cell after the last one
is read: the end of the list is only tested after the comparison. -/
theorem C37_reads_past_end : findIdsRangesInListOfIds [0, 3] [0, 1] = .error .ub := by decide

/-- **C37, finding.** With offsets which decrease the method never ends. -/
theorem C37_decreasing_never_ends (fuel : Nat) : findRangesLoop fuel 0 [5] [5, 3] [] [] = .error .ub := by
  induction fuel with
  | zero => rfl
  | succ fuel ih =>
    unfold findRangesLoop
    simp [scanRange, ih]

end MC
