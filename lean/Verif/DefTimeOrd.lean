import Verif.DefTimeThm

/-! # Time definitions whose slices are in order: joints and hot spots -/

namespace MC

variable {K : Type} [Field K] [LinearOrder K] [IsStrictOrderedRing K]

theorem filter_mid {α : Type} (p : α → Bool) (l1 l2 : List α) (a b : α) (ha : p a = true) (hb : p b = true)
    (h : ((l1 ++ a :: b :: l2).filter p).length ≤ 2) : (l1 ++ a :: b :: l2).filter p = [a, b] := by
  simp only [List.filter_append, List.filter_cons, ha, hb, if_true, List.length_append, List.length_cons] at h ⊢
  have h1 : (l1.filter p).length = 0 := by omega
  have h2 : (l2.filter p).length = 0 := by omega
  rw [List.length_eq_zero_iff.1 h1, List.length_eq_zero_iff.1 h2]
  rfl

/-- C106: at the joint of two successive slices, the left answer is the end of the first one and the right answer is the start of the second
one -/
theorem C106_joint {e tm : K} {l1 l2 : List (TSlice K)} {a b : TSlice K} (hs : TimeSpread e (l1 ++ a :: b :: l2))
    (hla : a.ty = .linearTime → a.start + 2 * e ≤ a.stop) (h1 : |tm - a.stop| < e) (h2 : |tm - b.start| < e) :
    dtIdsLeft ⟨some e, l1 ++ a :: b :: l2⟩ tm = .ok (a.meshId, a.endId, if a.ty = .linearTime then 1 else 0, a.fieldId) ∧
    dtIdsRight ⟨some e, l1 ++ a :: b :: l2⟩ tm = .ok (b.meshId, b.startId, 0, b.fieldId) := by
  have hda := hs.dur a (by simp)
  have hdb := hs.dur b (by simp)
  have h1' := abs_lt.1 h1
  have h2' := abs_lt.1 h2
  have hf : (l1 ++ a :: b :: l2).filter (fun s => s.Touches tm e) = [a, b] := by
    refine filter_mid _ l1 l2 a b ?_ ?_ (TimeSpread.le_two hs.far tm)
    · refine decide_eq_true ?_
      constructor <;> linarith [h1'.1, h1'.2]
    · refine decide_eq_true ?_
      constructor <;> linarith [h2'.1, h2'.2]
  have hA : TimeAnswers tm e a (a.meshId, a.endId, if a.ty = .linearTime then 1 else 0, a.fieldId) := by
    cases a with
    | inst => exact .inst ..
    | cst => exact .cst ..
    | lin m x f y s t =>
      refine .linEnd _ _ _ _ _ _ ?_ h1
      have := hla rfl
      simp only [TSlice.start, TSlice.stop] at this h1'
      rw [le_abs]
      left
      linarith [h1'.1]
  have hB : TimeAnswers tm e b (b.meshId, b.startId, 0, b.fieldId) := by
    cases b with
    | inst => exact .inst ..
    | cst => exact .cst ..
    | lin m x f y s t => exact .linStart _ _ _ _ _ _ h2
  have hr := (C106_ids_on_time ⟨some e, l1 ++ a :: b :: l2⟩ tm e rfl _).2
    ⟨by rw [hf]; simp, by rw [hf]; simp, by rw [hf]; exact .cons hA (.cons hB .nil)⟩
  rcases C106_left_right ⟨some e, l1 ++ a :: b :: l2⟩ tm e rfl with ⟨r, h3, hne, h4, h5⟩ | ⟨h3, -⟩
  · rw [hr] at h3
    cases h3
    exact ⟨h4, h5⟩
  · rw [hr] at h3; cases h3

/-! ## Hot spots -/

theorem hot_bounds {s : TSlice K} (hd : s.start ≤ s.stop) {h : K} (hh : h ∈ dtSliceHot s) : s.start ≤ h ∧ h ≤ s.stop := by
  cases s with
  | inst m a f t => simp only [dtSliceHot, List.mem_singleton] at hh; subst hh; exact ⟨le_refl _, le_refl _⟩
  | cst m a f s t =>
    simp only [dtSliceHot, List.mem_singleton, TSlice.start, TSlice.stop] at hh hd ⊢
    subst hh
    constructor <;> linarith
  | lin m a f b s t =>
    simp only [dtSliceHot, List.mem_cons, List.not_mem_nil, or_false, TSlice.start, TSlice.stop] at hh hd ⊢
    rcases hh with rfl | rfl
    · exact ⟨le_refl _, hd⟩
    · exact ⟨hd, le_refl _⟩

/-- the first hot spot of a slice and the others -/
theorem hot_cons (s : TSlice K) : ∃ t tmp, dtSliceHot s = t :: tmp ∧
    (tmp = [] ∨ (s.ty = .linearTime ∧ t = s.start ∧ tmp = [s.stop])) := by
  cases s with
  | inst m a f t => exact ⟨t, [], rfl, .inl rfl⟩
  | cst m a f s t => exact ⟨_, [], rfl, .inl rfl⟩
  | lin m a f b s t => exact ⟨s, [t], rfl, .inr ⟨rfl, rfl, rfl⟩⟩

theorem dtHot_main (e : K) (he : 0 ≤ e) (l : List (TSlice K)) : ∃ r, l.foldlM (dtHotStep (some e)) [] = .ok r ∧
    (∀ h ∈ r, ∃ s ∈ l, h ∈ dtSliceHot s) ∧ (∀ s ∈ l, ∀ h ∈ dtSliceHot s, ∃ g ∈ r, |g - h| ≤ e) ∧
    ((∀ s ∈ l, s.start ≤ s.stop) → (∀ a b, List.Sublist [a, b] l → a.stop - e < b.start) →
      (∀ s ∈ l, s.ty = .linearTime → s.start + e < s.stop) → r.Pairwise (· < ·)) := by
  induction l using List.reverseRecOn with
  | nil => exact ⟨[], rfl, by simp, by simp, by simp⟩
  | append_singleton l u ih =>
    obtain ⟨r, h1, h2, h3, h4⟩ := ih
    obtain ⟨t, tmp, hu, hcase⟩ := hot_cons u
    have hstep : dtHotStep (some e) r u = .ok (match r.getLast? with
        | none => r ++ t :: tmp
        | some b => if |b - t| > e then r ++ t :: tmp else r ++ tmp) := by
      unfold dtHotStep
      rw [hu]
      cases r.getLast? <;> rfl
    rw [List.foldlM_append, h1, ok_bind, List.foldlM_cons, hstep, ok_bind]
    refine ⟨_, rfl, ?_, ?_, ?_⟩
    · intro h hh
      have : h ∈ r ∨ h ∈ dtSliceHot u := by
        rw [hu]
        cases hg : r.getLast? with
        | none => rw [hg] at hh; simpa using hh
        | some b =>
          rw [hg] at hh
          dsimp only at hh
          split at hh
          · simpa using hh
          · rcases List.mem_append.1 hh with h | h
            · exact .inl h
            · exact .inr (by simp [h])
      rcases this with h' | h'
      · obtain ⟨s, hs, hs'⟩ := h2 h h'
        exact ⟨s, by simp [hs], hs'⟩
      · exact ⟨u, by simp, h'⟩
    · have hsub : ∀ g ∈ r, g ∈ (match r.getLast? with
        | none => r ++ t :: tmp
        | some b => if |b - t| > e then r ++ t :: tmp else r ++ tmp) := by
        intro g hg
        split
        · simp [hg]
        · split <;> simp [hg]
      intro s hs h hh
      rcases List.mem_append.1 hs with hs' | hs'
      · obtain ⟨g, hg, hg'⟩ := h3 s hs' h hh
        exact ⟨g, hsub g hg, hg'⟩
      · have : s = u := by simpa using hs'
        subst this
        rw [hu] at hh
        cases hg : r.getLast? with
        | none => exact ⟨h, by simp only; exact List.mem_append_right _ hh, by simpa using he⟩
        | some b =>
          simp only
          split
          · exact ⟨h, List.mem_append_right _ hh, by simpa using he⟩
          · rename_i hb
            rcases List.mem_cons.1 hh with rfl | hh'
            · exact ⟨b, List.mem_append_left _ (List.mem_of_getLast? hg), not_lt.1 hb⟩
            · exact ⟨h, List.mem_append_right _ hh', by simpa using he⟩
    · intro hd hp hl
      have hr := h4 (fun s hs => hd s (by simp [hs])) (fun a b h => hp a b (h.trans (List.sublist_append_left _ _)))
        (fun s hs => hl s (by simp [hs]))
      have htb := hot_bounds (hd u (by simp)) (h := t) (by rw [hu]; simp)
      -- a hot spot already there is below the start of this slice, up to the tolerance
      have hlow : ∀ g ∈ r, g - e < u.start := by
        intro g hg
        obtain ⟨s, hs, hs'⟩ := h2 g hg
        have h5 := hp s u (by
          have := List.Sublist.append (List.singleton_sublist.2 hs) (List.Sublist.refl [u])
          simpa using this)
        have h6 := (hot_bounds (hd s (by simp [hs])) hs').2
        linarith
      have htmp : ∀ g ∈ tmp, t < g ∧ u.start + e < g := by
        intro g hg
        rcases hcase with h | ⟨h, ht, h'⟩
        · rw [h] at hg; simp at hg
        · rw [h'] at hg
          have : g = u.stop := by simpa using hg
          subst this
          have := hl u (by simp) h
          rw [ht]
          exact ⟨by linarith, this⟩
      have htp : tmp.Pairwise (· < ·) := by
        rcases hcase with h | ⟨-, -, h⟩ <;> rw [h] <;> simp
      cases hg : r.getLast? with
      | none =>
        have : r = [] := List.getLast?_eq_none_iff.1 hg
        subst this
        simp only [List.nil_append]
        exact List.pairwise_cons.2 ⟨fun g hg => (htmp g hg).1, htp⟩
      | some b =>
        have hbr : b ∈ r := List.mem_of_getLast? hg
        have hmax : ∀ g ∈ r, g ≤ b := by
          intro g hgr
          obtain ⟨q, hq⟩ := List.getLast?_eq_some_iff.1 hg
          rw [hq] at hgr hr
          rcases List.mem_append.1 hgr with h | h
          · exact le_of_lt ((List.pairwise_append.1 hr).2.2 g h b (by simp))
          · have : g = b := by simpa using h
            exact le_of_eq this
        simp only
        split
        · rename_i hb
          refine List.pairwise_append.2 ⟨hr, List.pairwise_cons.2 ⟨fun g hg => (htmp g hg).1, htp⟩, ?_⟩
          have hbt : b < t := by
            have h5 := hlow b hbr
            rcases lt_abs.1 hb with h | h <;> linarith [htb.1]
          intro g hgr q hq
          have h6 := hmax g hgr
          rcases List.mem_cons.1 hq with rfl | hq'
          · linarith
          · have := (htmp q hq').1
            linarith
        · refine List.pairwise_append.2 ⟨hr, htp, ?_⟩
          intro g hgr q hq
          have h6 := hmax g hgr
          have h7 := (htmp q hq).2
          have h8 := hlow g hgr
          linarith

/-- the times where a slice is looked at: an instant, the middle of a constant slice, both ends of a linear one -/
inductive HotTime : TSlice K → K → Prop
  | inst (m a f t) : HotTime (.inst m a f t) t
  | middle (m a f s e h) (hh : h + h = s + e) : HotTime (.cst m a f s e) h
  | start (m a f b s e) : HotTime (.lin m a f b s e) s
  | stop (m a f b s e) : HotTime (.lin m a f b s e) e

theorem hotTime_iff (s : TSlice K) (h : K) : h ∈ dtSliceHot s ↔ HotTime s h := by
  constructor
  · intro hh
    cases s with
    | inst m a f t => simp only [dtSliceHot, List.mem_singleton] at hh; subst hh; exact .inst ..
    | cst m a f s t => simp only [dtSliceHot, List.mem_singleton] at hh; subst hh; exact .middle _ _ _ _ _ _ (by ring)
    | lin m a f b s t =>
      simp only [dtSliceHot, List.mem_cons, List.not_mem_nil, or_false] at hh
      rcases hh with rfl | rfl
      · exact .start ..
      · exact .stop ..
  · intro hh
    cases hh with
    | inst => simp [dtSliceHot]
    | middle m a f s e _ hh => simp only [dtSliceHot, List.mem_singleton]; linarith
    | start => simp [dtSliceHot]
    | stop => simp [dtSliceHot]

/-- C106: the hot spots are times of the slices (the instant, the middle of a constant slice, the ends of a linear one); each of these times
is a hot spot up to the tolerance -/
theorem C106_hot_spots (d : DefTime K) (e : K) (he : d.eps = some e) (hp : 0 ≤ e) : ∃ r, dtHotSpots d = .ok r ∧
    (∀ h ∈ r, ∃ s ∈ d.slices, HotTime s h) ∧ (∀ s ∈ d.slices, ∀ h, HotTime s h → ∃ g ∈ r, |g - h| ≤ e) := by
  obtain ⟨r, h1, h2, h3, -⟩ := dtHot_main e hp d.slices
  refine ⟨r, by rw [dtHotSpots, he]; exact h1, fun h hh => ?_, fun s hs h hh => h3 s hs h ((hotTime_iff s h).2 hh)⟩
  obtain ⟨s, hs, hm⟩ := h2 h hh
  exact ⟨s, hs, (hotTime_iff s h).1 hm⟩

/-- C106: at each hot spot of well separated slices `getIdsOnTime` answers; the hot spots ascend if no linear slice is as short as the
tolerance -/
theorem C106_hot_spots_answered (d : DefTime K) (e : K) (he : d.eps = some e) (hs : TimeSpread e d.slices)
    (ho : TimeAscending e d.slices) : ∃ r, dtHotSpots d = .ok r ∧ (∀ h ∈ r, ∃ q, dtIdsOnTime d h = .ok q) ∧
      ((∀ s ∈ d.slices, s.ty = .linearTime → s.start + e < s.stop) → r.Pairwise (· < ·)) := by
  obtain ⟨r, h1, h2, -, h4⟩ := dtHot_main e (le_of_lt hs.pos) d.slices
  refine ⟨r, by rw [dtHotSpots, he]; exact h1, ?_, h4 hs.dur (fun a b h => hs.pair ho h)⟩
  intro h hh
  obtain ⟨s, hsm, hsh⟩ := h2 h hh
  have hb := hot_bounds (hs.dur s hsm) hsh
  have hpos := hs.pos
  have htouch : s.Touches h e := ⟨by linarith [hb.1], by linarith [hb.2]⟩
  have hans : ∀ u ∈ d.slices, u.Touches h e → ∃ q, TimeAnswers h e u q := by
    intro u hu hut
    cases u with
    | inst => exact ⟨_, .inst ..⟩
    | cst => exact ⟨_, .cst ..⟩
    | lin m a f b x y =>
      have key : |h - x| < e ∨ |h - y| < e := by
        by_cases hus : (TSlice.lin m a f b x y) = s
        · rw [← hus] at hsh
          simp only [dtSliceHot, List.mem_cons, List.not_mem_nil, or_false] at hsh
          rcases hsh with rfl | rfl
          · left; simpa using hpos
          · right; simpa using hpos
        · simp only [TSlice.Touches, TSlice.start, TSlice.stop] at hut
          rcases sublist_pair hu hsm hus with h5 | h5
          · have := hs.pair ho h5
            simp only [TSlice.stop] at this
            right
            rw [abs_lt]
            constructor <;> linarith [hut.2, hb.1]
          · have := hs.pair ho h5
            simp only [TSlice.start] at this
            left
            rw [abs_lt]
            constructor <;> linarith [hut.1, hb.2]
      by_cases hx : |h - x| < e
      · exact ⟨_, .linStart _ _ _ _ _ _ hx⟩
      · exact ⟨_, .linEnd _ _ _ _ _ _ (not_lt.1 hx) (key.resolve_left hx)⟩
  have hall : ∀ S : List (TSlice K), (∀ u ∈ S, ∃ q, TimeAnswers h e u q) → ∃ q, List.Forall₂ (TimeAnswers h e) S q := by
    intro S
    induction S with
    | nil => exact fun _ => ⟨[], .nil⟩
    | cons u S ih =>
      intro hS
      obtain ⟨q, hq⟩ := hS u (by simp)
      obtain ⟨qs, hqs⟩ := ih fun v hv => hS v (by simp [hv])
      exact ⟨q :: qs, .cons hq hqs⟩
  obtain ⟨q, hq⟩ := hall (d.slices.filter (fun s => s.Touches h e)) (by
    intro u hu
    have := List.mem_filter.1 hu
    exact hans u this.1 (by simpa using this.2))
  refine ⟨q, (C106_ids_on_time d h e he q).2 ⟨?_, TimeSpread.le_two hs.far h, hq⟩⟩
  exact List.ne_nil_of_mem (a := s) (List.mem_filter.2 ⟨hsm, by simpa using htouch⟩)

end MC
