import Verif.DefTime
import Verif.BaryMesh
import Mathlib.Tactic.Linarith
import Mathlib.Tactic.FieldSimp
import Mathlib.Tactic.Ring
import Mathlib.Data.List.Forall2
import Mathlib.Data.List.Chain

/-! # Asking the time definition for a time -/

namespace MC

variable {K : Type} [Field K] [LinearOrder K] [IsStrictOrderedRing K]

/-- the interval of the slice, widened by the tolerance, contains the time -/
def TSlice.Touches (s : TSlice K) (tm e : K) : Prop := s.start - e < tm ∧ tm < s.stop + e

instance (s : TSlice K) (tm e : K) : Decidable (s.Touches tm e) := inferInstanceAs (Decidable (_ ∧ _))

/-- the ids (mesh, array, number of the array in the field, field) a slice gives at a time: its array for an instant and a constant; for a
linear slice the array of its start near its start, the array of its end near its end -/
inductive TimeAnswers (tm e : K) : TSlice K → Int × Int × Int × Int → Prop
  | inst (m a f : Int) (t : K) : TimeAnswers tm e (.inst m a f t) (m, a, 0, f)
  | cst (m a f : Int) (s t : K) : TimeAnswers tm e (.cst m a f s t) (m, a, 0, f)
  | linStart (m a f b : Int) (s t : K) (h : |tm - s| < e) : TimeAnswers tm e (.lin m a f b s t) (m, a, 0, f)
  | linEnd (m a f b : Int) (s t : K) (h : e ≤ |tm - s|) (h' : |tm - t| < e) : TimeAnswers tm e (.lin m a f b s t) (m, b, 1, f)

theorem dtContains_iff (s : TSlice K) (tm e : K) : dtContains s tm e = true ↔ s.Touches tm e := by
  cases s with
  | inst m a f t =>
    simp only [dtContains, TSlice.Touches, TSlice.start, TSlice.stop, decide_eq_true_eq, abs_lt]
    constructor
    · rintro ⟨h1, h2⟩; constructor <;> linarith
    · rintro ⟨h1, h2⟩; constructor <;> linarith
  | cst m a f s t => simp [dtContains, TSlice.Touches, TSlice.start, TSlice.stop]
  | lin m a f b s t => simp [dtContains, TSlice.Touches, TSlice.start, TSlice.stop]

theorem dtContains_fun (tm e : K) : (fun s : TSlice K => dtContains s tm e) = fun s => decide (s.Touches tm e) := by
  funext s
  by_cases h : s.Touches tm e
  · simp [h, (dtContains_iff s tm e).2 h]
  · have : dtContains s tm e = false := by
      cases hc : dtContains s tm e with
      | false => rfl
      | true => exact absurd ((dtContains_iff s tm e).1 hc) h
    simp [h, this]

omit [IsStrictOrderedRing K] in
theorem dtSliceIds_iff (s : TSlice K) (tm e : K) (r : Int × Int × Int × Int) :
    dtSliceIds s tm e = .ok r ↔ TimeAnswers tm e s r := by
  cases s with
  | inst m a f t =>
    simp only [dtSliceIds, Except.ok.injEq]
    constructor
    · rintro rfl; exact .inst ..
    · intro h; cases h; rfl
  | cst m a f s t =>
    simp only [dtSliceIds, Except.ok.injEq]
    constructor
    · rintro rfl; exact .cst ..
    · intro h; cases h; rfl
  | lin m a f b s t =>
    simp only [dtSliceIds]
    split
    · rename_i h1
      constructor
      · intro h; cases h; exact .linStart _ _ _ _ _ _ h1
      · intro h
        cases h with
        | linStart => rfl
        | linEnd _ _ _ _ _ _ h2 _ => exact absurd h1 (not_lt.2 h2)
    · rename_i h1
      split
      · rename_i h2
        constructor
        · intro h; cases h; exact .linEnd _ _ _ _ _ _ (not_lt.1 h1) h2
        · intro h
          cases h with
          | linStart _ _ _ _ _ _ h3 => exact absurd h3 h1
          | linEnd => rfl
      · rename_i h2
        constructor
        · intro h; cases h
        · intro h
          cases h with
          | linStart _ _ _ _ _ _ h3 => exact absurd h3 h1
          | linEnd _ _ _ _ _ _ _ h3 => exact absurd h3 h2

omit [IsStrictOrderedRing K] in
theorem dtIdsFold (tm e : K) : ∀ (l : List (TSlice K)) (acc : List Nat) (k : Nat),
    (l.foldl (dtIdsStep tm e) (acc, k)).1 = acc ++ ((l.zipIdx k).filter (fun p => dtContains p.1 tm e)).map Prod.snd
  | [], acc, k => by simp
  | s :: l, acc, k => by
    rw [List.foldl_cons, List.zipIdx_cons, List.filter_cons]
    simp only [dtIdsStep]
    rw [dtIdsFold tm e l]
    by_cases h : dtContains s tm e = true <;> simp [h]

omit [IsStrictOrderedRing K] in
theorem dtIds_zip (tm e : K) : ∀ (l : List (TSlice K)) (k : Nat),
    ((l.zipIdx k).filter (fun p => dtContains p.1 tm e)).map Prod.fst = l.filter (fun s => dtContains s tm e)
  | [], k => by simp
  | s :: l, k => by
    rw [List.zipIdx_cons, List.filter_cons, List.filter_cons]
    by_cases h : dtContains s tm e = true <;> simp [h, dtIds_zip tm e l]

omit [Field K] [LinearOrder K] [IsStrictOrderedRing K] in
theorem dt_mapM_congr {α β : Type} {f g : α → M β} : ∀ {l : List α}, (∀ x ∈ l, f x = g x) → l.mapM f = l.mapM g
  | [], _ => rfl
  | x :: l, h => by
    rw [List.mapM_cons, List.mapM_cons, h x (by simp), dt_mapM_congr (fun y hy => h y (by simp [hy]))]

/-- `getIdsOnTime` on the list of the slices which touch the time -/
theorem dtIdsOnTime_eq (d : DefTime K) (tm e : K) (he : d.eps = some e) :
    dtIdsOnTime d tm =
      if d.slices.filter (fun s => s.Touches tm e) = [] then throwX
      else if (d.slices.filter (fun s => s.Touches tm e)).length > 2 then throwX
      else (d.slices.filter (fun s => s.Touches tm e)).mapM (fun s => dtSliceIds s tm e) := by
  have hm : dtMatching d tm = .ok (((d.slices.zipIdx).filter (fun p => dtContains p.1 tm e)).map Prod.snd) := by
    unfold dtMatching
    split
    · rename_i h; simp [h]
    · simp [dtEps, he, ok_bind, dtIdsFold, pure, Except.pure]
  have hz := dtIds_zip tm e d.slices 0
  rw [dtContains_fun] at hz
  rw [dtIdsOnTime, hm, ok_bind, ← hz]
  generalize hP : (d.slices.zipIdx).filter (fun p => dtContains p.1 tm e) = P
  simp only [List.map_eq_nil_iff, List.length_map]
  have hmem : ∀ p ∈ P, d.slices[p.2]? = some p.1 := by
    intro p hp
    rw [← hP] at hp
    have := (List.mem_filter.1 hp).1
    exact List.mem_zipIdx_iff_getElem?.1 this
  have : (P.map Prod.snd).mapM (dtIdsAt d tm) = (P.map Prod.fst).mapM (fun s => dtSliceIds s tm e) := by
    rw [List.mapM_map, List.mapM_map]
    refine dt_mapM_congr fun p hp => ?_
    have h1 := hmem p hp
    show dtIdsAt d tm p.2 = dtSliceIds p.1 tm e
    rw [dtIdsAt, rd_of_getElem? (a := p.1) (by omega) (by simpa using h1), ok_bind]
    simp [dtEps, he, ok_bind]
  rw [this]

omit [IsStrictOrderedRing K] in
theorem dtAnswers_mapM (tm e : K) : ∀ (S : List (TSlice K)) (r : List (Int × Int × Int × Int)),
    S.mapM (fun s => dtSliceIds s tm e) = .ok r ↔ List.Forall₂ (TimeAnswers tm e) S r
  | [], r => by
    simp [pure, Except.pure, eq_comm]
  | s :: S, r => by
    rw [List.mapM_cons]
    constructor
    · intro h
      cases hs : dtSliceIds s tm e with
      | error x => rw [hs] at h; cases h
      | ok v =>
        rw [hs, ok_bind] at h
        cases hS : S.mapM (fun s => dtSliceIds s tm e) with
        | error x => rw [hS] at h; cases h
        | ok vs =>
          rw [hS, ok_bind] at h
          cases h
          exact .cons ((dtSliceIds_iff s tm e v).1 hs) ((dtAnswers_mapM tm e S vs).1 hS)
    · intro h
      cases h with
      | cons h1 h2 =>
        rw [(dtSliceIds_iff s tm e _).2 h1, ok_bind, (dtAnswers_mapM tm e S _).2 h2, ok_bind]
        rfl

/-- C106: `getIdsOnTime` answers when one or two slices touch the time and all of them can answer, and gives their answers in order -/
theorem C106_ids_on_time (d : DefTime K) (tm e : K) (he : d.eps = some e) (r : List (Int × Int × Int × Int)) :
    dtIdsOnTime d tm = .ok r ↔
      d.slices.filter (fun s => s.Touches tm e) ≠ [] ∧ (d.slices.filter (fun s => s.Touches tm e)).length ≤ 2 ∧
        List.Forall₂ (TimeAnswers tm e) (d.slices.filter (fun s => s.Touches tm e)) r := by
  rw [dtIdsOnTime_eq d tm e he]
  split
  · rename_i h
    simp [h, throwX]
  · split
    · rename_i h1 h2
      constructor
      · intro h; cases h
      · intro h; omega
    · rename_i h1 h2
      rw [dtAnswers_mapM]
      constructor
      · exact fun h => ⟨h1, by omega, h⟩
      · exact fun h => h.2.2

omit [IsStrictOrderedRing K] in
theorem dtSliceIds_mapM_exn (tm e : K) : ∀ (S : List (TSlice K)),
    (∃ r, S.mapM (fun s => dtSliceIds s tm e) = .ok r) ∨ S.mapM (fun s => dtSliceIds s tm e) = throwX
  | [] => .inl ⟨[], rfl⟩
  | s :: S => by
    rw [List.mapM_cons]
    have hs : (∃ r, dtSliceIds s tm e = .ok r) ∨ dtSliceIds s tm e = throwX := by
      cases s with
      | inst => exact .inl ⟨_, rfl⟩
      | cst => exact .inl ⟨_, rfl⟩
      | lin =>
        simp only [dtSliceIds]
        split
        · exact .inl ⟨_, rfl⟩
        · split
          · exact .inl ⟨_, rfl⟩
          · exact .inr rfl
    rcases hs with ⟨r, hr⟩ | hr
    · rw [hr, ok_bind]
      rcases dtSliceIds_mapM_exn tm e S with ⟨q, hq⟩ | hq
      · exact .inl ⟨r :: q, by rw [hq, ok_bind]; rfl⟩
      · exact .inr (by rw [hq]; rfl)
    · exact .inr (by rw [hr]; rfl)

/-- C106: with a tolerance, `getIdsOnTime` answers or throws, it is never undefined; the left and right answers are the first and the last -/
theorem C106_left_right (d : DefTime K) (tm e : K) (he : d.eps = some e) :
    (∃ r, dtIdsOnTime d tm = .ok r ∧ ∃ h : r ≠ [], dtIdsLeft d tm = .ok (r.head h) ∧ dtIdsRight d tm = .ok (r.getLast h)) ∨
      (dtIdsOnTime d tm = throwX ∧ dtIdsLeft d tm = throwX ∧ dtIdsRight d tm = throwX) := by
  have key : (∃ r, dtIdsOnTime d tm = .ok r) ∨ dtIdsOnTime d tm = throwX := by
    rw [dtIdsOnTime_eq d tm e he]
    split
    · exact .inr rfl
    · split
      · exact .inr rfl
      · exact dtSliceIds_mapM_exn tm e _
  rcases key with ⟨r, hr⟩ | hr
  · refine .inl ⟨r, hr, ?_⟩
    obtain ⟨h1, -, h3⟩ := (C106_ids_on_time d tm e he r).1 hr
    have hne : r ≠ [] := by
      rintro rfl
      exact h1 (List.forall₂_nil_right_iff.1 h3)
    refine ⟨hne, ?_, ?_⟩
    · cases r with
      | nil => exact absurd rfl hne
      | cons a r => rw [dtIdsLeft, hr, ok_bind]; rfl
    · rw [dtIdsRight, hr, ok_bind]
      have hl : 0 < r.length := List.length_pos_iff.2 hne
      rw [List.getLast_eq_getElem]
      have : ((r.length : Int) - 1) = ((r.length - 1 : Nat) : Int) := by omega
      rw [this]
      exact rd_natCast (by omega)
  · exact .inr ⟨hr, by rw [dtIdsLeft, hr]; rfl, by rw [dtIdsRight, hr]; rfl⟩

/-! ## Slices in order -/

/-- each slice begins and ends after the end of the one before it, up to the tolerance -/
def TimeAscending (e : K) (l : List (TSlice K)) : Prop := l.IsChain (fun a b => a.stop - e < b.start ∧ a.stop - e < b.stop)

/-- no slice ends before it begins, and two slices with another one between them are separated by twice the tolerance -/
structure TimeSpread (e : K) (l : List (TSlice K)) : Prop where
  pos : 0 < e
  dur : ∀ s ∈ l, s.start ≤ s.stop
  far : ∀ a b c, List.Sublist [a, b, c] l → a.stop + 2 * e ≤ c.start

theorem TimeSpread.le_two {e : K} {l : List (TSlice K)} (h : ∀ a b c, List.Sublist [a, b, c] l → a.stop + 2 * e ≤ c.start) (tm : K) :
    (l.filter (fun s => s.Touches tm e)).length ≤ 2 := by
  by_contra hc
  have hmem : ∀ s ∈ l.filter (fun s => s.Touches tm e), s.Touches tm e := by
    intro s hs; simpa using (List.mem_filter.1 hs).2
  have hsub : (l.filter (fun s => s.Touches tm e)).Sublist l := List.filter_sublist
  match hf : l.filter (fun s => s.Touches tm e), hc with
  | [], hc => simp [hf] at hc
  | [_], hc => simp [hf] at hc
  | [_, _], hc => simp [hf] at hc
  | a :: b :: c :: m, _ =>
    rw [hf] at hsub hmem
    have h3 : List.Sublist [a, b, c] l :=
      List.Sublist.trans (by simp) hsub
    have := h a b c h3
    have ha := hmem a (by simp)
    have hcc := hmem c (by simp)
    have h1 := ha.2
    have h2 := hcc.1
    linarith

theorem TimeSpread.pair {e : K} {l : List (TSlice K)} (hs : TimeSpread e l) (ho : TimeAscending e l) {a b : TSlice K}
    (h : List.Sublist [a, b] l) : a.stop - e < b.start := by
  induction l with
  | nil => simp at h
  | cons x l ih =>
    rcases List.sublist_cons_iff.1 h with h1 | ⟨r, hr, h1⟩
    · refine ih ⟨hs.pos, fun s hm => hs.dur s (by simp [hm]), fun a b c hh => hs.far a b c (hh.cons _)⟩ ?_ h1
      exact (List.isChain_cons.1 ho).2
    · injection hr with h2 h3
      subst h2 h3
      cases l with
      | nil => simp at h1
      | cons y l =>
        rcases List.sublist_cons_iff.1 h1 with h4 | ⟨r, hr, h4⟩
        · have := hs.far a y b (by
            refine List.Sublist.cons_cons _ (List.Sublist.cons_cons _ h4))
          have := hs.pos
          linarith
        · injection hr with h5 h6
          subst h5
          exact ((List.isChain_cons_cons.1 ho).1).1

theorem sublist_pair {α : Type} {a b : α} : ∀ {l : List α}, a ∈ l → b ∈ l → a ≠ b → List.Sublist [a, b] l ∨ List.Sublist [b, a] l
  | x :: l, ha, hb, hab => by
    rcases List.mem_cons.1 ha with rfl | ha'
    · rcases List.mem_cons.1 hb with rfl | hb'
      · exact absurd rfl hab
      · exact .inl (List.Sublist.cons_cons _ (List.singleton_sublist.2 hb'))
    · rcases List.mem_cons.1 hb with rfl | hb'
      · exact .inr (List.Sublist.cons_cons _ (List.singleton_sublist.2 ha'))
      · rcases sublist_pair ha' hb' hab with h | h
        · exact .inl (h.cons _)
        · exact .inr (h.cons _)

/-- C106: slices in order which all last four times the tolerance are well separated -/
theorem C106_long_slices_spread {e : K} {l : List (TSlice K)} (he : 0 < e) (ho : TimeAscending e l)
    (hl : ∀ s ∈ l, s.start + 4 * e ≤ s.stop) : TimeSpread e l := by
  have hp : l.Pairwise (fun a b => a.stop - e < b.start) := by
    induction l with
    | nil => simp
    | cons x l ih =>
      have ih' := ih (List.isChain_cons.1 ho).2 (fun s hs => hl s (by simp [hs]))
      refine List.pairwise_cons.2 ⟨?_, ih'⟩
      intro b hb
      cases l with
      | nil => simp at hb
      | cons y l =>
        have h1 := ((List.isChain_cons_cons.1 ho).1).1
        rcases List.mem_cons.1 hb with rfl | hb'
        · exact h1
        · have h2 := (List.pairwise_cons.1 ih').1 b hb'
          have h3 := hl y (by simp)
          linarith
  refine ⟨he, fun s hs => by have := hl s hs; linarith, fun a b c h => ?_⟩
  have hpp := hp.sublist h
  have h1 := (List.pairwise_cons.1 hpp).1 b (by simp)
  have h2 := (List.pairwise_cons.1 (List.pairwise_cons.1 hpp).2).1 c (by simp)
  have h3 := hl b (h.subset (by simp))
  linarith

end MC
