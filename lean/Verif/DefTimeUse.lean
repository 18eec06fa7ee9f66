import Verif.DefTimeZone
import Mathlib.Algebra.Order.Ring.Rat

/-! # Answers of the time definition in terms of the fields, comparison, findings -/

namespace MC

variable {K : Type} [Field K] [LinearOrder K] [IsStrictOrderedRing K]

omit [Field K] [LinearOrder K] [IsStrictOrderedRing K] in
theorem forall₂_getD {α β : Type} {R : α → β → Prop} {l : List α} {r : List β} (h : List.Forall₂ R l r) {i : Nat} {a : α}
    (ha : l[i]? = some a) (b0 : β) : R a (r.getD i b0) := by
  obtain ⟨hlt, rfl⟩ := List.getElem?_eq_some_iff.1 ha
  have hl : i < r.length := h.length_eq ▸ hlt
  have := (List.forall₂_iff_get.1 h).2 i hlt hl
  simpa [List.getD, hl] using this

omit [IsStrictOrderedRing K] in
theorem answers_field {tm e : K} {S : List (TSlice K)} {r : List (Int × Int × Int × Int)} (h : List.Forall₂ (TimeAnswers tm e) S r) :
    r.map (fun q => q.2.2.2) = S.map TSlice.fieldId := by
  induction h with
  | nil => rfl
  | cons h1 _ ih =>
    rw [List.map_cons, List.map_cons, ih]
    congr 1
    cases h1 <;> rfl

/-- C106: the answers at a time are, in order, for the fields whose times, widened by the tolerance, contain it; the mesh and the array of an
answer are those of the field: its array, or the one at its start or at its end if it is linear in time and the time is there -/
theorem C106_zone_answers (fs : List (TField K)) (d : DefTime K) (e tm : K) (hd : dtZone fs = .ok d) (he : d.eps = some e)
    (r : List (Int × Int × Int × Int)) (hr : dtIdsOnTime d tm = .ok r) :
    r.map (fun q => q.2.2.2) =
      (fs.zipIdx.filter (fun p => decide (p.1.t1 - e < tm ∧ tm < p.1.last + e))).map (fun p => (p.2 : Int)) ∧
    ∀ q ∈ r, ∃ (i : Nat) (f : TField K) (k : Nat), fs[i]? = some f ∧ q.2.2.2 = i ∧ q.2.2.1 = k ∧
      (∀ p, f.mesh = some p → 0 ≤ q.1 ∧ (diffMeshes fs).1[q.1.toNat]? = some p) ∧
      (∀ p, f.arrs[k]? = some (some p) → 0 ≤ q.2.1 ∧ (diffArrays fs).1[q.2.1.toNat]? = some p) ∧
      ((k = 0 ∧ (f.disc = .linearTime → |tm - f.t1| < e)) ∨ (k = 1 ∧ f.disc = .linearTime ∧ e ≤ |tm - f.t1| ∧ |tm - f.t2| < e)) := by
  obtain ⟨hgood, -, hde⟩ := (C106_zone_accepted fs d).1 hd
  obtain ⟨-, hm, -⟩ := C106_different_meshes fs
  obtain ⟨-, ha, -⟩ := C106_different_arrays fs
  obtain ⟨-, -, hans⟩ := (C106_ids_on_time d tm e he r).1 hr
  have hds : d.slices = zoneSlices fs := by rw [hde]
  constructor
  · rw [answers_field hans, hds, zoneSlices, List.filter_map, List.map_map]
    have : ((fun s : TSlice K => decide (s.Touches tm e)) ∘ fun p : TField K × Nat =>
        p.1.slice ((diffMeshes fs).2.getD p.2 0) ((diffArrays fs).2.getD p.2 []) p.2)
        = fun p => decide (p.1.t1 - e < tm ∧ tm < p.1.last + e) := by
      funext p
      simp only [Function.comp, TSlice.Touches, slice_start, slice_stop]
    rw [this]
    refine List.map_congr_left fun p _ => ?_
    simp only [Function.comp, slice_fieldId]
  · intro q hq
    obtain ⟨n, hn, hqn⟩ := List.getElem_of_mem hq
    have hl := hans.length_eq
    have hA := (List.forall₂_iff_get.1 hans).2 n (by omega) hn
    simp only [List.get_eq_getElem, hqn] at hA
    have hmem := List.getElem_mem (l := d.slices.filter (fun s => s.Touches tm e)) (n := n) (by omega)
    have hmem' := (List.mem_filter.1 hmem).1
    generalize (d.slices.filter (fun s => s.Touches tm e))[n] = s at hA hmem'
    rw [hds, zoneSlices, List.mem_map] at hmem'
    obtain ⟨⟨f, i⟩, hp, hs⟩ := hmem'
    have hg := List.mem_zipIdx_iff_getElem?.1 hp
    simp only at hs hg
    have hmi := forall₂_getD hm hg 0
    have hai := forall₂_getD ha hg []
    generalize (diffMeshes fs).2.getD i 0 = mi at hs hmi
    generalize (diffArrays fs).2.getD i [] = ai at hs hai
    have hgf := hgood f (List.mem_of_getElem? hg)
    have hmesh : ∀ p, f.mesh = some p → 0 ≤ mi ∧ (diffMeshes fs).1[mi.toNat]? = some p := by
      intro p hp
      rw [hp] at hmi
      exact hmi
    have harr : ∀ (k : Nat) (p : Nat), f.arrs[k]? = some (some p) → 0 ≤ ai.getD k 0 ∧ (diffArrays fs).1[(ai.getD k 0).toNat]? = some p := by
      intro k p hp
      exact forall₂_getD hai hp 0
    unfold TField.slice at hs
    rcases hgf.2 with ⟨h1, -⟩ | ⟨h1, -⟩ | ⟨h1, -⟩
    · rw [h1] at hs
      subst hs
      cases hA
      exact ⟨i, f, 0, hg, rfl, rfl, hmesh, harr 0, .inl ⟨rfl, by simp [h1]⟩⟩
    · rw [h1] at hs
      subst hs
      cases hA
      exact ⟨i, f, 0, hg, rfl, rfl, hmesh, harr 0, .inl ⟨rfl, by simp [h1]⟩⟩
    · rw [h1] at hs
      subst hs
      cases hA with
      | linStart _ _ _ _ _ _ h => exact ⟨i, f, 0, hg, rfl, rfl, hmesh, harr 0, .inl ⟨rfl, fun _ => h⟩⟩
      | linEnd _ _ _ _ _ _ h h' => exact ⟨i, f, 1, hg, rfl, rfl, hmesh, harr 1, .inr ⟨rfl, h1, h, h'⟩⟩

/-- C106: on fields which all last four times the tolerance, the time definition answers at each of its hot spots, and the hot spots ascend -/
theorem C106_zone_hot_spots (fs : List (TField K)) (d : DefTime K) (e : K) (hd : dtZone fs = .ok d) (he : d.eps = some e) (hp : 0 < e)
    (hl : ∀ f ∈ fs, f.t1 + 4 * e ≤ f.last) :
    ∃ r, dtHotSpots d = .ok r ∧ (∀ h ∈ r, ∃ q, dtIdsOnTime d h = .ok q) ∧ r.Pairwise (· < ·) := by
  obtain ⟨-, hord, hde⟩ := (C106_zone_accepted fs d).1 hd
  have hds : d.slices = zoneSlices fs := by rw [hde]
  have hlong : ∀ s ∈ d.slices, s.start + 4 * e ≤ s.stop := by
    intro s hs
    rw [hds, zoneSlices, List.mem_map] at hs
    obtain ⟨⟨f, i⟩, hp, rfl⟩ := hs
    rw [slice_start, slice_stop]
    exact hl f (List.mem_of_getElem? (List.mem_zipIdx_iff_getElem?.1 hp))
  have ho : TimeAscending e d.slices := by
    rw [hds, zone_ascending]
    match fs, hord, hde with
    | [], _, _ => exact List.isChain_nil
    | [f], _, _ => exact List.isChain_singleton _
    | f :: g :: l, hord, hde =>
      have : f.tol = e := by
        rw [hde] at he
        simpa using he
      rw [← this]
      exact hord f g l rfl
  have hs := C106_long_slices_spread hp ho hlong
  obtain ⟨r, h1, h2, h3⟩ := C106_hot_spots_answered d e he hs ho
  exact ⟨r, h1, h2, h3 fun s hs _ => by have := hlong s hs; linarith⟩

/-! ## Comparison -/

/-- slices of the same kind, on the same mesh, arrays and field, whose times differ by the tolerance at most -/
def SameSlice (e : K) (s o : TSlice K) : Prop :=
  s.ty = o.ty ∧ s.meshId = o.meshId ∧ s.startId = o.startId ∧ s.endId = o.endId ∧ s.fieldId = o.fieldId ∧
    |o.start - s.start| ≤ e ∧ |o.stop - s.stop| < e

omit [IsStrictOrderedRing K] in
theorem dtSliceEq_iff (e : K) (s o : TSlice K) : dtSliceEq s o e = true ↔ SameSlice e s o := by
  cases s <;> cases o <;>
    simp only [dtSliceEq, SameSlice, TSlice.ty, TSlice.meshId, TSlice.startId, TSlice.endId, TSlice.fieldId, TSlice.start, TSlice.stop,
      Bool.and_eq_true, beq_iff_eq, decide_eq_true_eq, Bool.not_eq_true', decide_eq_false_iff_not, not_lt, gt_iff_lt] <;>
    try tauto
  · constructor
    · rintro ⟨⟨⟨h1, h2⟩, h3⟩, h4⟩
      exact ⟨trivial, h1, h2, h2, h3, le_of_lt h4, h4⟩
    · rintro ⟨-, h1, h2, -, h3, -, h4⟩
      exact ⟨⟨⟨h1, h2⟩, h3⟩, h4⟩

omit [IsStrictOrderedRing K] in
theorem dtEqSlices_iff (e : K) : ∀ (l l' : List (TSlice K)), l.length = l'.length →
    (dtEqSlices e l l' = true ↔ List.Forall₂ (SameSlice e) l l')
  | [], [], _ => by simp [dtEqSlices]
  | s :: l, o :: l', h => by
    rw [dtEqSlices, Bool.and_eq_true, dtSliceEq_iff, dtEqSlices_iff e l l' (by simpa using h), List.forall₂_cons]
  | [], _ :: _, h => by simp at h
  | _ :: _, [], h => by simp at h

omit [IsStrictOrderedRing K] in
/-- C106: `isEqual` compares the slices one by one, with the tolerance of this -/
theorem C106_is_equal (d o : DefTime K) (e : K) (he : d.eps = some e) : ∃ b, dtIsEqual d o = .ok b ∧
    (b = true ↔ List.Forall₂ (SameSlice e) d.slices o.slices) := by
  unfold dtIsEqual
  split
  · rename_i h
    refine ⟨false, rfl, ?_⟩
    simp only [Bool.false_eq_true, false_iff]
    intro hf
    exact h hf.length_eq
  · rename_i h
    have h' : d.slices.length = o.slices.length := by omega
    split
    · rename_i h1
      refine ⟨true, rfl, ?_⟩
      rw [h1] at h' ⊢
      have : o.slices = [] := List.length_eq_zero_iff.1 h'.symm
      simp [this]
    · exact ⟨_, by simp only [dtEps, he, ok_bind]; rfl, dtEqSlices_iff e _ _ h'⟩

/-! ## Findings -/

/-- C106 (finding): with one field, the tolerance is not initialised: the definition is built, but asking it is undefined -/
theorem C106_finding_one_field (f : TField K) (hf : f.Good f.arrs.length) (tm : K) :
    ∃ d, dtZone [f] = .ok d ∧ dtIdsOnTime d tm = undef ∧ dtSerialize d = undef := by
  refine ⟨⟨none, zoneSlices [f]⟩, (C106_zone_accepted [f] _).2 ⟨by simpa using hf, ?_, by simp⟩, rfl, rfl⟩
  intro g h l hl
  simp at hl

/-- C106 (finding): `assign` does not copy the tolerance: the copy may answer otherwise -/
theorem C106_finding_assign :
    let d : DefTime ℚ := ⟨some (1 / 10), [.inst 0 0 0 1, .inst 0 1 1 2]⟩
    dtIdsOnTime d (101 / 100) = .ok [(0, 0, 0, 0)] ∧
    dtIdsOnTime (dtAssign ⟨some (1 / 1000000000000000), []⟩ d) (101 / 100) = throwX := by
  decide +kernel

/-- C106 (finding): with a tolerance of zero two intervals which touch are refused, and a definition on instants answers at no time and is
not equal to itself -/
theorem C106_finding_zero_tolerance :
    let f (s t : ℚ) : TField ℚ := ⟨.constOnInterval, 0, s, t, some 0, [some 1]⟩
    let g (s : ℚ) : TField ℚ := ⟨.oneTime, 0, s, s, some 0, [some 1]⟩
    dtZone [f 0 1, f 1 2] = throwX ∧
    (∃ d, dtZone [g 0, g 1] = .ok d ∧ dtIdsOnTime d 0 = throwX ∧ dtIsEqual d d = .ok false) := by
  refine ⟨by decide +kernel, ⟨some 0, [.inst 0 0 0 0, .inst 0 0 1 1]⟩, by decide +kernel, by decide +kernel, by decide +kernel⟩

/-- C106 (finding): fields shorter than the tolerance may go back in time, and a hot spot may have no answer since too many match -/
theorem C106_finding_short_fields :
    let g (s : ℚ) : TField ℚ := ⟨.oneTime, 1, s, s, some 0, [some 1]⟩
    ∃ d, dtZone [g 0, g (-1 / 2), g (-9 / 10)] = .ok d ∧ dtHotSpots d = .ok [0] ∧ dtIdsOnTime d 0 = throwX := by
  refine ⟨⟨some 1, [.inst 0 0 0 0, .inst 0 0 1 (-1 / 2), .inst 0 0 2 (-9 / 10)]⟩, by decide +kernel, by decide +kernel, by decide +kernel⟩

/-! ## Examples -/

/-- two linear fields which follow each other, then a constant one: the joint at 1 has a left and a right answer -/
example :
    let f0 : TField ℚ := ⟨.linearTime, 1 / 100, 0, 1, some 7, [some 20, some 21]⟩
    let f1 : TField ℚ := ⟨.linearTime, 1 / 100, 1, 3, some 8, [some 21, some 22]⟩
    let f2 : TField ℚ := ⟨.constOnInterval, 1 / 100, 3, 5, some 7, [some 23]⟩
    ∃ d, dtZone [f0, f1, f2] = .ok d ∧ (diffMeshes [f0, f1, f2]) = ([7, 8], [0, 1, 0]) ∧
      (diffArrays [f0, f1, f2]) = ([20, 21, 22, 23], [[0, 1], [1, 2], [3]]) ∧
      dtIdsOnTime d 1 = .ok [(0, 1, 1, 0), (1, 1, 0, 1)] ∧ dtIdsLeft d 1 = .ok (0, 1, 1, 0) ∧ dtIdsRight d 1 = .ok (1, 1, 0, 1) ∧
      dtIdsRight d 4 = .ok (0, 3, 0, 2) ∧ dtIdsOnTime d 2 = throwX ∧ dtIdsOnTime d 6 = throwX ∧
      dtHotSpots d = .ok [0, 1, 3, 4] ∧ dtIsEqual d d = .ok true := by
  refine ⟨⟨some (1 / 100), [.lin 0 0 0 1 0 1, .lin 1 1 1 2 1 3, .cst 0 3 2 3 5]⟩, ?_⟩
  exact ⟨by decide +kernel, by decide +kernel, by decide +kernel, by decide +kernel, by decide +kernel, by decide +kernel,
    by decide +kernel, by decide +kernel, by decide +kernel, by decide +kernel, by decide +kernel⟩

example : dtSerialize (⟨some (1 / 2), [.inst 0 4 0 3, .lin 1 1 1 2 4 5]⟩ : DefTime ℚ)
    = .ok ([2, 7, 5, 6, 3, 4, 1, 2, 0, 4, 0, 1, 1, 1, 2], [1 / 2, 3, 4, 5]) := by
  decide +kernel

example : dtZone [(⟨.constOnInterval, 1 / 10, 0, 2, some 0, [some 1]⟩ : TField ℚ), ⟨.oneTime, 1 / 10, 1, 1, some 0, [some 1]⟩] = throwX := by
  decide +kernel

end MC
