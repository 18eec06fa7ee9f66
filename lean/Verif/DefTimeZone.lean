import Verif.DefTimeSer

/-! # The time definition of a field over time -/

namespace MC

/-- the reference of a pointer among the different pointers: -1 for the null pointer -/
def RefOf (ps : List Nat) (p : Option Nat) (r : Int) : Prop :=
  match p with
  | none => r = -1
  | some p => 0 ≤ r ∧ ps[r.toNat]? = some p

theorem RefOf.append {ps : List Nat} {p : Option Nat} {r : Int} (h : RefOf ps p r) (x : List Nat) : RefOf (ps ++ x) p r := by
  cases p with
  | none => exact h
  | some p =>
    refine ⟨h.1, ?_⟩
    have := (List.getElem?_eq_some_iff.1 h.2).1
    rw [List.getElem?_append_left this]
    exact h.2

theorem diffFold : ∀ (l : List (Option Nat)) (ps : List Nat) (r0 : List Int), ps.Nodup →
    ∃ x r, l.foldl diffStep (ps, r0) = (ps ++ x, r0 ++ r) ∧ (ps ++ x).Nodup ∧ List.Forall₂ (RefOf (ps ++ x)) l r ∧ ∀ q ∈ x, some q ∈ l
  | [], ps, r0, h => ⟨[], [], by simp, by simpa using h, .nil, by simp⟩
  | none :: l, ps, r0, h => by
    obtain ⟨x, r, h1, h2, h3, h4⟩ := diffFold l ps (r0 ++ [-1]) h
    refine ⟨x, -1 :: r, ?_, h2, .cons rfl h3, fun q hq => by simp [h4 q hq]⟩
    rw [List.foldl_cons]
    show l.foldl diffStep (ps, r0 ++ [-1]) = _
    rw [h1]; simp
  | some p :: l, ps, r0, h => by
    rw [List.foldl_cons]
    by_cases hp : p ∈ ps
    · have hs : diffStep (ps, r0) (some p) = (ps, r0 ++ [(ps.idxOf p : Int)]) := by simp [diffStep, hp]
      obtain ⟨x, r, h1, h2, h3, h4⟩ := diffFold l ps (r0 ++ [(ps.idxOf p : Int)]) h
      refine ⟨x, (ps.idxOf p : Int) :: r, ?_, h2, .cons (RefOf.append (ps := ps) ?_ x) h3, fun q hq => by simp [h4 q hq]⟩
      · rw [hs, h1]; simp
      · exact ⟨by omega, by simp [hp]⟩
    · have hs : diffStep (ps, r0) (some p) = (ps ++ [p], r0 ++ [(ps.length : Int)]) := by simp [diffStep, hp]
      have hn : (ps ++ [p]).Nodup := by
        rw [List.nodup_append]
        refine ⟨h, by simp, ?_⟩
        intro a ha b hb
        have : b = p := by simpa using hb
        subst this
        rintro rfl
        exact hp ha
      obtain ⟨x, r, h1, h2, h3, h4⟩ := diffFold l (ps ++ [p]) (r0 ++ [(ps.length : Int)]) hn
      refine ⟨p :: x, (ps.length : Int) :: r, ?_, by simpa using h2, ?_, ?_⟩
      · rw [hs, h1]; simp
      · refine .cons ?_ (by simpa using h3)
        exact ⟨by omega, by simp⟩
      · intro q hq
        rcases List.mem_cons.1 hq with rfl | hq'
        · simp
        · simp [h4 q hq']

variable {K : Type}

/-- C106: `getDifferentMeshes` gives each mesh once, and for each field the place of its mesh -/
theorem C106_different_meshes (fs : List (TField K)) : (diffMeshes fs).1.Nodup ∧
    List.Forall₂ (fun f r => RefOf (diffMeshes fs).1 f.mesh r) fs (diffMeshes fs).2 ∧
    ∀ p ∈ (diffMeshes fs).1, ∃ f ∈ fs, f.mesh = some p := by
  obtain ⟨x, r, h1, h2, h3, h4⟩ := diffFold (fs.map (·.mesh)) [] [] (by simp)
  simp only [List.nil_append] at h1 h2 h3
  rw [diffMeshes, h1]
  refine ⟨h2, List.forall₂_map_left_iff.1 h3, fun p hp => ?_⟩
  simpa using h4 p hp

theorem diffArrFold : ∀ (fs : List (TField K)) (ps : List Nat) (r0 : List (List Int)), ps.Nodup →
    ∃ x r, fs.foldl diffArrStep (ps, r0) = (ps ++ x, r0 ++ r) ∧ (ps ++ x).Nodup ∧
      List.Forall₂ (fun f r => List.Forall₂ (RefOf (ps ++ x)) f.arrs r) fs r ∧ ∀ q ∈ x, ∃ f ∈ fs, some q ∈ f.arrs
  | [], ps, r0, h => ⟨[], [], by simp, by simpa using h, .nil, by simp⟩
  | f :: fs, ps, r0, h => by
    obtain ⟨x, r, h1, h2, h3, h4⟩ := diffFold f.arrs ps [] h
    obtain ⟨y, s, k1, k2, k3, k4⟩ := diffArrFold fs (ps ++ x) (r0 ++ [r]) h2
    refine ⟨x ++ y, r :: s, ?_, by simpa using k2, .cons ?_ (by simpa using k3), ?_⟩
    · rw [List.foldl_cons]
      have : diffArrStep (ps, r0) f = (ps ++ x, r0 ++ [r]) := by simp [diffArrStep, h1]
      rw [this, k1]; simp
    · refine h3.imp fun p r hr => ?_
      have := hr.append y
      simpa using this
    · intro q hq
      rcases List.mem_append.1 hq with hq' | hq'
      · exact ⟨f, by simp, h4 q hq'⟩
      · obtain ⟨g, hg, hg'⟩ := k4 q hq'
        exact ⟨g, by simp [hg], hg'⟩

/-- C106: `getDifferentArrays` gives each array once, and for each field the places of its arrays -/
theorem C106_different_arrays (fs : List (TField K)) : (diffArrays fs).1.Nodup ∧
    List.Forall₂ (fun f r => List.Forall₂ (RefOf (diffArrays fs).1) f.arrs r) fs (diffArrays fs).2 ∧
    ∀ p ∈ (diffArrays fs).1, ∃ f ∈ fs, some p ∈ f.arrs := by
  obtain ⟨x, r, h1, h2, h3, h4⟩ := diffArrFold fs [] [] (by simp)
  simp only [List.nil_append] at h1 h2 h3
  rw [diffArrays, h1]
  exact ⟨h2, h3, h4⟩

variable [Field K] [LinearOrder K] [IsStrictOrderedRing K]

/-- a field a slice can be built on, with its number of arrays: not ending before its start, with one array on an instant (whose two times
are equal up to its tolerance) or on an interval, with two arrays if it is linear in time -/
def TField.Good (f : TField K) (n : Nat) : Prop :=
  f.t1 ≤ f.t2 ∧ ((f.disc = .oneTime ∧ n = 1 ∧ f.t2 - f.t1 ≤ f.tol) ∨ (f.disc = .constOnInterval ∧ n = 1) ∨ (f.disc = .linearTime ∧ n = 2))

/-- the last time of the field -/
def TField.last (f : TField K) : K := if f.disc = .oneTime then f.t1 else f.t2

/-- the slice of a field -/
def TField.slice (f : TField K) (m : Int) (a : List Int) (i : Int) : TSlice K :=
  match f.disc with
  | .oneTime => .inst m (a.getD 0 0) i f.t1
  | .linearTime => .lin m (a.getD 0 0) i (a.getD 1 0) f.t1 f.t2
  | _ => .cst m (a.getD 0 0) i f.t1 f.t2

theorem dtSliceNew_iff (f : TField K) (m : Int) (a : List Int) (i : Int) (s : TSlice K) :
    dtSliceNew (some f) m a i = .ok s ↔ f.Good a.length ∧ s = f.slice m a i := by
  obtain ⟨disc, tol, t1, t2, mesh, arrs⟩ := f
  have habs : t1 ≤ t2 → |t1 - t2| = t2 - t1 := fun h => by
    rw [abs_sub_comm, abs_of_nonneg (by linarith)]
  unfold dtSliceNew TField.Good TField.slice
  cases disc with
  | noTime => simp [throwX]
  | oneTime =>
    match a with
    | [] => simp [throwX]
    | [a] =>
      by_cases h1 : t2 < t1
      · simp [h1, throwX, not_le.2 h1]
      · have h1' := not_lt.1 h1
        by_cases h2 : |t1 - t2| > tol
        · have h2' := h2
          rw [habs h1'] at h2'
          have h3 : ¬ t2 ≤ tol + t1 := by intro h; linarith
          have h2'' : tol < |t1 - t2| := h2
          simp [h1, h2'', h3, throwX]
        · have h2' := h2
          rw [habs h1'] at h2'
          have h3 : t2 ≤ tol + t1 := by linarith [not_lt.1 h2']
          have h2'' : ¬ tol < |t1 - t2| := h2
          simp [h1, h2'', h1', h3, eq_comm]
    | _ :: _ :: _ => simp [throwX]
  | constOnInterval =>
    match a with
    | [] => simp [throwX]
    | [a] =>
      by_cases h1 : t2 < t1
      · simp [h1, throwX, not_le.2 h1]
      · simp [h1, not_lt.1 h1, eq_comm]
    | _ :: _ :: _ => simp [throwX]
  | linearTime =>
    match a with
    | [] => simp [throwX]
    | [a] => simp [throwX]
    | [a, b] =>
      by_cases h1 : t2 < t1
      · simp [h1, throwX, not_le.2 h1]
      · simp [h1, not_lt.1 h1, eq_comm]
    | _ :: _ :: _ :: _ => simp [throwX]

omit [Field K] [LinearOrder K] [IsStrictOrderedRing K] in
theorem mapM_iff_map {α β : Type} {f : α → M β} {P : α → Prop} {g : α → β} : ∀ {l : List α},
    (∀ x ∈ l, ∀ s, f x = .ok s ↔ P x ∧ s = g x) → ∀ r, l.mapM f = .ok r ↔ (∀ x ∈ l, P x) ∧ r = l.map g
  | [], _, r => by simp [pure, Except.pure, eq_comm]
  | x :: l, h, r => by
    rw [List.mapM_cons]
    have hx := h x (by simp)
    have ih := mapM_iff_map (l := l) (fun y hy => h y (by simp [hy]))
    constructor
    · intro he
      cases hf : f x with
      | error z => rw [hf] at he; cases he
      | ok v =>
        rw [hf, ok_bind] at he
        cases hl : l.mapM f with
        | error z => rw [hl] at he; cases he
        | ok vs =>
          rw [hl, ok_bind] at he
          cases he
          have h1 := (hx v).1 hf
          have h2 := (ih vs).1 hl
          refine ⟨?_, by simp [h1.2, h2.2]⟩
          intro y hy
          rcases List.mem_cons.1 hy with rfl | hy'
          · exact h1.1
          · exact h2.1 y hy'
    · rintro ⟨h1, rfl⟩
      rw [(hx (g x)).2 ⟨h1 x (by simp), rfl⟩, ok_bind, (ih (l.map g)).2 ⟨fun y hy => h1 y (by simp [hy]), rfl⟩, ok_bind]
      rfl

omit [IsStrictOrderedRing K] in
theorem dtOrdered_iff (e : K) : ∀ (l : List (TSlice K)) (s : TSlice K), dtOrdered e s l = true ↔ TimeAscending e (s :: l)
  | [], s => by simp [dtOrdered, TimeAscending]
  | u :: l, s => by
    rw [dtOrdered, Bool.and_eq_true, dtOrdered_iff e l u, TimeAscending, TimeAscending, List.isChain_cons_cons]
    simp [dtIsAfter]

/-- the slices of the fields, with the references of their meshes and arrays -/
def zoneSlices (fs : List (TField K)) : List (TSlice K) :=
  fs.zipIdx.map fun p => p.1.slice ((diffMeshes fs).2.getD p.2 0) ((diffArrays fs).2.getD p.2 []) p.2

omit [IsStrictOrderedRing K] [Field K] [LinearOrder K] in
theorem slice_start (f : TField K) (m : Int) (a : List Int) (i : Int) : (f.slice m a i).start = f.t1 := by
  unfold TField.slice
  cases f.disc <;> rfl

omit [IsStrictOrderedRing K] [Field K] [LinearOrder K] in
theorem slice_stop (f : TField K) (m : Int) (a : List Int) (i : Int) : (f.slice m a i).stop = f.last := by
  unfold TField.slice TField.last
  cases f.disc <;> rfl

omit [IsStrictOrderedRing K] [Field K] [LinearOrder K] in
theorem slice_fieldId (f : TField K) (m : Int) (a : List Int) (i : Int) : (f.slice m a i).fieldId = i := by
  unfold TField.slice
  cases f.disc <;> rfl

omit [IsStrictOrderedRing K] in
theorem zone_ascending (e : K) (fs : List (TField K)) :
    TimeAscending e (zoneSlices fs) ↔ fs.IsChain (fun f g => f.last - e < g.t1 ∧ f.last - e < g.last) := by
  unfold TimeAscending zoneSlices
  rw [List.isChain_map]
  simp only [slice_start, slice_stop]
  conv => rhs; rw [← List.zipIdx_map_fst 0 fs]
  rw [List.isChain_map]

/-- C106: `getDefinitionTimeZone` accepts the fields when each one is good and when each one begins and ends after the one before it, up to
the tolerance of the first one; the slices are those of the fields, and the tolerance is the one of the first field, but it is left
uninitialised with one field -/
theorem C106_zone_accepted (fs : List (TField K)) (d : DefTime K) : dtZone fs = .ok d ↔
    (∀ f ∈ fs, f.Good f.arrs.length) ∧
    (∀ f g l, fs = f :: g :: l → fs.IsChain (fun a b => a.last - f.tol < b.t1 ∧ a.last - f.tol < b.last)) ∧
    d = ⟨if fs.length ≤ 1 then none else fs.head?.map (·.tol), zoneSlices fs⟩ := by
  obtain ⟨-, hm, -⟩ := C106_different_meshes fs
  obtain ⟨-, ha, -⟩ := C106_different_arrays fs
  have hml := hm.length_eq
  have hal := ha.length_eq
  have hmk : (List.range (fs.map some).length).mapM (dtMk (fs.map some) (diffMeshes fs).2 (diffArrays fs).2)
      = fs.zipIdx.mapM (fun p => dtSliceNew (some p.1) ((diffMeshes fs).2.getD p.2 0) ((diffArrays fs).2.getD p.2 []) p.2) := by
    have hr : List.range (fs.map some).length = fs.zipIdx.map Prod.snd := by
      rw [List.zipIdx_map_snd, List.length_map, List.range_eq_range']
    rw [hr, List.mapM_map]
    refine dt_mapM_congr fun p hp => ?_
    have hg := List.mem_zipIdx_iff_getElem?.1 hp
    have hlt := (List.getElem?_eq_some_iff.1 hg).1
    show dtMk (fs.map some) (diffMeshes fs).2 (diffArrays fs).2 p.2 = _
    have e1 : rd (fs.map some) (p.2 : Int) = .ok (some p.1) := rd_of_getElem? (by omega) (by simp [hg])
    rw [dtMk, e1, ok_bind, rd_natCast (by omega), ok_bind, rd_natCast (by omega), ok_bind]
    have hl1 : p.2 < (diffMeshes fs).2.length := by omega
    have hl2 : p.2 < (diffArrays fs).2.length := by omega
    simp [List.getD, hl1, hl2]
  have hall : ∀ sl, (List.range (fs.map some).length).mapM (dtMk (fs.map some) (diffMeshes fs).2 (diffArrays fs).2) = .ok sl ↔
      (∀ f ∈ fs, f.Good f.arrs.length) ∧ sl = zoneSlices fs := by
    intro sl
    rw [hmk, mapM_iff_map (P := fun p => p.1.Good ((diffArrays fs).2.getD p.2 []).length)
      (g := fun p => p.1.slice ((diffMeshes fs).2.getD p.2 0) ((diffArrays fs).2.getD p.2 []) p.2)
      (fun p _ s => dtSliceNew_iff ..)]
    refine and_congr_left fun _ => ?_
    have hlen : ∀ p ∈ fs.zipIdx, ((diffArrays fs).2.getD p.2 []).length = p.1.arrs.length := by
      intro p hp
      have hg := List.mem_zipIdx_iff_getElem?.1 hp
      obtain ⟨hlt, hg'⟩ := List.getElem?_eq_some_iff.1 hg
      have hl2 : p.2 < (diffArrays fs).2.length := by omega
      have := (List.forall₂_iff_get.1 ha).2 p.2 hlt hl2
      have := this.length_eq
      simp only [List.get_eq_getElem, hg'] at this
      simp [List.getD, hl2, this]
    constructor
    · intro h f hf
      obtain ⟨i, hi, rfl⟩ := List.getElem_of_mem hf
      have hp : (fs[i], i) ∈ fs.zipIdx := List.mem_zipIdx_iff_getElem?.2 (by simp)
      have := h _ hp
      rwa [hlen _ hp] at this
    · intro h p hp
      rw [hlen p hp]
      exact h _ (by
        have hg := List.mem_zipIdx_iff_getElem?.1 hp
        exact List.mem_of_getElem? hg)
  have hlen : (zoneSlices fs).length = fs.length := by simp [zoneSlices]
  have hck : ∀ d, dtCheck (fs.map some) (zoneSlices fs) = .ok d ↔
      (∀ f g l, fs = f :: g :: l → fs.IsChain (fun a b => a.last - f.tol < b.t1 ∧ a.last - f.tol < b.last)) ∧
      d = ⟨if fs.length ≤ 1 then none else fs.head?.map (·.tol), zoneSlices fs⟩ := by
    intro d
    match fs, hlen with
    | [], _ => simp [dtCheck, eq_comm]
    | [f], _ => simp [dtCheck, eq_comm]
    | f :: g :: l, hlen =>
      have hz := zone_ascending f.tol (f :: g :: l)
      generalize zoneSlices (f :: g :: l) = Z at hz hlen ⊢
      cases Z with
      | nil => simp at hlen
      | cons s Z =>
        have hcond : (∀ f' g' l', f :: g :: l = f' :: g' :: l' →
              (f :: g :: l).IsChain (fun a b => a.last - f'.tol < b.t1 ∧ a.last - f'.tol < b.last)) ↔ dtOrdered f.tol s Z = true := by
          rw [dtOrdered_iff, hz]
          constructor
          · intro h; exact h f g l rfl
          · intro h f' g' l' he
            cases he
            exact h
        rw [hcond]
        show (if dtOrdered f.tol s Z then _ else _) = _ ↔ _
        split
        · rename_i ho
          simp [ho, eq_comm]
        · rename_i ho
          simp [ho, throwX]
  rw [dtZone, dtNew, if_neg (by simp only [List.length_map]; omega)]
  constructor
  · intro h
    cases hsl : (List.range (fs.map some).length).mapM (dtMk (fs.map some) (diffMeshes fs).2 (diffArrays fs).2) with
    | error x => rw [hsl] at h; cases h
    | ok sl =>
      rw [hsl, ok_bind] at h
      obtain ⟨h1, rfl⟩ := (hall sl).1 hsl
      exact ⟨h1, (hck d).1 h⟩
  · rintro ⟨h1, h2⟩
    rw [(hall (zoneSlices fs)).2 ⟨h1, rfl⟩, ok_bind]
    exact (hck d).2 h2

end MC
