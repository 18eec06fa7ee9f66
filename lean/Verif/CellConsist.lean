import Verif.CellProfile
import Verif.Cursor
import Verif.BoxProps

/-!
# C73: checking the description of cells by types and profiles
-/

namespace MC
section

/-! ## Specification -/

/-- the cells a section `(type, number, profile)` of `code` stands for -/
def Denotes (ts : List Int) (idsPerType : List (Option (List Int))) (e : Int × Int × Int) (l : List Int) : Prop :=
  e.2.1 = (l.length : Int) ∧
  ((e.2.2 = -1 ∧ l = (List.range (ts.count e.1)).map fun k : Nat => (k : Int) + (ts.idxOf e.1 : Int)) ∨
   ∃ (q : Nat) (pfl : List Int), e.2.2 = (q : Int) ∧ idsPerType[q]? = some (some pfl) ∧ AllIn (ts.count e.1) pfl ∧
     l = pfl.map fun k => k + (ts.idxOf e.1 : Int))

/-! ## Reading the code -/

theorem codeOf_length (E : List (Int × Int × Int)) : (codeOf E).length = 3 * E.length := by
  induction E with
  | nil => rfl
  | cons e E ih => rw [codeOf, List.flatMap_cons, List.length_append]; rw [codeOf] at ih; rw [ih]; simp; omega

theorem codeOf_get {E : List (Int × Int × Int)} {i : Nat} (hi : i < E.length) :
    (codeOf E)[3 * i]? = some E[i].1 ∧ (codeOf E)[3 * i + 1]? = some E[i].2.1 ∧ (codeOf E)[3 * i + 2]? = some E[i].2.2 := by
  induction E generalizing i with
  | nil => simp at hi
  | cons e E ih =>
    have hc : codeOf (e :: E) = e.1 :: e.2.1 :: e.2.2 :: codeOf E := rfl
    rw [hc]
    rcases i with _ | i
    · exact ⟨rfl, rfl, rfl⟩
    · obtain ⟨a, b, c⟩ := ih (i := i) (by simpa using hi)
      have e1 : 3 * (i + 1) = 3 * i + 1 + 1 + 1 := by omega
      rw [e1]
      exact ⟨a, b, c⟩

theorem codeOf_rd {E : List (Int × Int × Int)} {i : Nat} (hi : i < E.length) :
    rd (codeOf E) (3 * (i : Int)) = .ok E[i].1 ∧ rd (codeOf E) (3 * (i : Int) + 1) = .ok E[i].2.1 ∧ rd (codeOf E) (3 * (i : Int) + 2) = .ok E[i].2.2 := by
  obtain ⟨a, b, c⟩ := codeOf_get hi
  exact ⟨rd_of_getElem? (by omega) (by rw [show (3 * (i : Int)).toNat = 3 * i by omega]; exact a),
    rd_of_getElem? (by omega) (by rw [show (3 * (i : Int) + 1).toNat = 3 * i + 1 by omega]; exact b),
    rd_of_getElem? (by omega) (by rw [show (3 * (i : Int) + 2).toNat = 3 * i + 2 by omega]; exact c)⟩

theorem codeLoop_ok {geo : List Int} {E : List (Int × Int × Int)} (hg : ∀ e ∈ E, e.1 ∈ geo) : ∀ k, k ≤ E.length →
    ∃ s : List Int × Int × Bool, loop k (([] : List Int), (0 : Int), true) (codeStep geo (codeOf E)) = .ok s ∧
      s.1.length ≤ k ∧ (∀ t, t ∈ s.1 ↔ t ∈ (E.take k).map Prod.fst) ∧ (s.1.length = k → ((E.take k).map Prod.fst).Nodup) ∧
      (((E.take k).map Prod.fst).Nodup → s = ((E.take k).map Prod.fst, ((E.take k).map fun e => e.2.1).sum,
        (E.take k).all fun e => decide (e.2.2 = -1))) := by
  intro k
  induction k with
  | zero => intro _; exact ⟨_, rfl, by simp⟩
  | succ k ih =>
    intro hk
    obtain ⟨s, h1, h2, h3, h4, h5⟩ := ih (by omega)
    obtain ⟨c1, c2, c3⟩ := codeOf_rd (E := E) (i := k) (by omega)
    have htk : E.take (k + 1) = E.take k ++ [E[k]] := by rw [List.take_append_getElem (by omega)]
    rw [loop_succ, h1, ok_bind, htk]
    unfold codeStep
    rw [c1, ok_bind]
    by_cases hin : E[k].1 ∈ s.1
    · rw [if_pos hin]
      have hnn : ¬ ((E.take k ++ [E[k]]).map Prod.fst).Nodup := by
        rw [List.map_append, List.nodup_append]
        rintro ⟨-, -, hh⟩
        exact hh _ ((h3 _).mp hin) E[k].1 (by simp) rfl
      refine ⟨s, rfl, by omega, fun t => ?_, fun hl => by omega, fun hn => absurd hn hnn⟩
      rw [h3, List.map_append, List.mem_append]
      constructor
      · exact Or.inl
      · rintro (h | h)
        · exact h
        · rw [List.map_singleton, List.mem_singleton] at h
          rw [h, ← h3]; exact hin
    · rw [if_neg hin, c2, ok_bind, c3, ok_bind, if_neg (by simpa using hg _ (List.getElem_mem _))]
      refine ⟨_, rfl, by simp; omega, fun t => ?_, fun hl => ?_, fun hn => ?_⟩
      · rw [List.mem_append, h3, List.map_append, List.mem_append]; rfl
      · have hl' : s.1.length = k := by simpa using hl
        rw [List.map_append, List.nodup_append]
        refine ⟨h4 hl', by simp, fun x hx y hy e => ?_⟩
        rw [List.map_singleton, List.mem_singleton] at hy
        rw [e, hy, ← h3] at hx
        exact hin hx
      · rw [List.map_append, List.nodup_append] at hn
        rw [h5 hn.1, List.map_append, List.map_append, List.sum_append, List.all_append]
        simp only [List.map_singleton, List.sum_singleton, List.all_cons, List.all_nil, Bool.and_true]

theorem codeLoop_throws {geo : List Int} {E : List (Int × Int × Int)} (hg : ∃ e ∈ E, e.1 ∉ geo) :
    loop E.length (([] : List Int), (0 : Int), true) (codeStep geo (codeOf E)) = .error .exn := by
  have key : ∀ k, k ≤ E.length → wp (loop k (([] : List Int), (0 : Int), true) (codeStep geo (codeOf E)))
      (fun s => (∀ e ∈ E.take k, e.1 ∈ geo) ∧ ∀ t ∈ s.1, t ∈ geo) True := by
    intro k
    induction k with
    | zero => intro _; exact ⟨by simp, by simp⟩
    | succ k ih =>
      intro hk
      have hih := ih (by omega)
      obtain ⟨c1, c2, c3⟩ := codeOf_rd (E := E) (i := k) (by omega)
      have htk : E.take (k + 1) = E.take k ++ [E[k]] := by rw [List.take_append_getElem (by omega)]
      rw [loop_succ, htk]
      refine (wp_bind _ _ _ _).mpr (wp_mono hih ?_ id)
      rintro s ⟨h1, h2⟩
      unfold codeStep
      rw [c1, ok_bind]
      by_cases hin : E[k].1 ∈ s.1
      · rw [if_pos hin]
        refine ⟨fun e he => ?_, h2⟩
        rcases List.mem_append.mp he with he | he
        · exact h1 e he
        · rw [List.mem_singleton.mp he]; exact h2 _ hin
      · rw [if_neg hin, c2, ok_bind, c3, ok_bind]
        by_cases hgk : E[k].1 ∈ geo
        · rw [if_neg (by simpa using hgk)]
          refine ⟨fun e he => ?_, fun t ht => ?_⟩
          · rcases List.mem_append.mp he with he | he
            · exact h1 e he
            · rw [List.mem_singleton.mp he]; exact hgk
          · rcases List.mem_append.mp ht with ht | ht
            · exact h2 t ht
            · rw [List.mem_singleton.mp ht]; exact hgk
        · rw [if_pos hgk]; trivial
  have := key E.length (Nat.le_refl _)
  rw [List.take_length] at this
  obtain ⟨e, he, hne⟩ := hg
  exact wp_throws (wp_mono this (fun s hs => hne (hs.1 e he)) fun _ => trivial)

/-! ## Blocks -/

theorem find_block {conn connI ts T1 T2 : List Int} {t : Int} (hts : HasTypes conn connI ts) (h : SortedByType ts (T1 ++ t :: T2))
    {pos : Nat} (hp : pos ≤ ts.idxOf t) :
    findCell conn connI (fun u => decide (u = t)) pos = .ok (ts.idxOf t) ∧
    findCell conn connI (fun u => decide (u ≠ t)) (ts.idxOf t + 1) = .ok (ts.idxOf t + ts.count t) := by
  have htm : t ∈ ts := h.2.1 t (by simp)
  have hc : 0 < ts.count t := List.count_pos_iff.mpr htm
  have hlt := List.idxOf_lt_length_iff.mpr htm
  obtain ⟨A, B, e, hl, hA, hB, -, -, -⟩ := h.block
  generalize hn : ts.count t = n at *
  generalize hi : ts.idxOf t = i at *
  subst hl
  constructor
  · rw [findCell_ok hts _ (by omega)]
    congr 1
    have e1 : ts.drop pos = A.drop pos ++ (List.replicate n t ++ B) := by
      rw [e, List.drop_append_of_le_length hp]
    rw [e1, List.takeWhile_append_of_pos (fun u hu => by
      have := List.mem_of_mem_drop hu
      have : u ≠ t := fun e => hA (e ▸ this)
      simpa using this)]
    obtain ⟨m, rfl⟩ : ∃ m, n = m + 1 := ⟨n - 1, by omega⟩
    rw [List.replicate_succ, List.cons_append, List.takeWhile_cons_of_neg (by simp)]
    simp; omega
  · rw [findCell_ok hts _ (by omega)]
    congr 1
    obtain ⟨m, rfl⟩ : ∃ m, n = m + 1 := ⟨n - 1, by omega⟩
    have e1 : ts.drop (A.length + 1) = List.replicate m t ++ B := by
      rw [e, List.drop_append, List.drop_eq_nil_of_le (by omega), List.nil_append]
      simp [List.replicate_succ]
    rw [e1, List.takeWhile_append_of_pos (fun u hu => by simp [(List.mem_replicate.mp hu).2])]
    cases B with
    | nil => simp; omega
    | cons b B =>
      have : b ≠ t := fun e => hB (by simp [e])
      rw [List.takeWhile_cons_of_neg (by simpa using this)]
      simp; omega

/-! ## The main loop -/

theorem emit_profile {m : Int} {off : Int} {n : Nat} : ∀ (pfl acc : List Int), (∀ k ∈ pfl, 0 ≤ k ∧ k < m) → acc.length + pfl.length ≤ n →
    pfl.foldlM (m := Except Err) (fun (o : Cur Int) (k : Int) => if 0 ≤ k ∧ k < m then emit o (k + off) else throwX) (filled acc n) =
      .ok (filled (acc ++ pfl.map fun k => k + off) n)
  | [], acc, _, _ => by rw [List.map_nil, List.append_nil]; rfl
  | k :: pfl, acc, h, hl => by
    rw [List.length_cons] at hl
    rw [List.foldlM_cons, if_pos (h k List.mem_cons_self), emit_filled (by omega), ok_bind,
      emit_profile pfl _ (fun x hx => h x (List.mem_cons_of_mem _ hx)) (by simp; omega), List.map_cons, List.append_assoc]
    rfl

theorem emit_profile_throws {m : Int} {off : Int} {n : Nat} : ∀ (pfl acc : List Int), (∃ k ∈ pfl, ¬ (0 ≤ k ∧ k < m)) → acc.length + pfl.length ≤ n →
    pfl.foldlM (m := Except Err) (fun (o : Cur Int) (k : Int) => if 0 ≤ k ∧ k < m then emit o (k + off) else throwX) (filled acc n) =
      .error .exn
  | [], acc, h, _ => by simp at h
  | k :: pfl, acc, h, hl => by
    rw [List.length_cons] at hl
    rw [List.foldlM_cons]
    by_cases hk : 0 ≤ k ∧ k < m
    · rw [if_pos hk, emit_filled (by omega), ok_bind]
      refine emit_profile_throws pfl _ ?_ (by simp; omega)
      obtain ⟨x, hx, hx'⟩ := h
      rcases List.mem_cons.mp hx with rfl | hx
      · exact absurd hk hx'
      · exact ⟨x, hx, hx'⟩
    · rw [if_neg hk]; rfl

theorem consistStep_ok {conn connI ts T1 T2 : List Int} {idsPerType : List (Option (List Int))} (hts : HasTypes conn connI ts)
    {E : List (Int × Int × Int)} {i : Nat} (hi : i < E.length) (h : SortedByType ts (T1 ++ E[i].1 :: T2)) {pos : Nat}
    (hp : pos ≤ ts.idxOf E[i].1) {l : List Int} (hd : Denotes ts idsPerType E[i] l) {acc : List Int} {n : Nat} (hn : acc.length + l.length ≤ n) :
    consistStep (codeOf E) conn connI idsPerType (filled acc n, pos) (E[i].1, i) =
      .ok (filled (acc ++ l) n, ts.idxOf E[i].1 + ts.count E[i].1) := by
  obtain ⟨f1, f2⟩ := find_block hts h hp
  obtain ⟨-, -, c3⟩ := codeOf_rd hi
  unfold consistStep
  simp only
  rw [f1, ok_bind, f2, ok_bind, c3, ok_bind]
  obtain ⟨-, hd⟩ := hd
  rcases hd with ⟨e1, e2⟩ | ⟨q, pfl, e1, e2, e3, e4⟩
  · rw [if_pos e1, Nat.add_sub_cancel_left]
    subst e2
    rw [emit_loop (fun k : Nat => (k : Int) + (ts.idxOf E[i].1 : Int)) (by simpa using hn), ok_bind]
  · rw [if_neg (by omega), e1, if_pos ⟨by omega, by have := (List.getElem?_eq_some_iff.mp e2).1; omega⟩,
      rd_of_getElem? (by omega) (by rw [Int.toNat_natCast]; exact e2), ok_bind]
    simp only
    subst e4
    have hm : ((ts.idxOf E[i].1 + ts.count E[i].1 : Nat) : Int) - (ts.idxOf E[i].1 : Int) = (ts.count E[i].1 : Int) := by push_cast; omega
    rw [hm, emit_profile pfl acc e3 (by simpa using hn), ok_bind]

theorem forall₂_split {α β : Type} {R : α → β → Prop} : ∀ {a b : List α} {c : List β}, List.Forall₂ R (a ++ b) c →
    ∃ c1 c2, List.Forall₂ R a c1 ∧ List.Forall₂ R b c2 ∧ c = c1 ++ c2
  | [], _, c, h => ⟨[], c, List.Forall₂.nil, h, rfl⟩
  | x :: a, b, _, h => by
    rw [List.cons_append] at h
    cases h with
    | cons h1 h2 =>
      obtain ⟨c1, c2, h3, h4, rfl⟩ := forall₂_split h2
      exact ⟨_ :: c1, c2, List.Forall₂.cons h1 h3, h4, rfl⟩

theorem zipIdx_drop {α : Type} (l : List α) {i : Nat} (hi : i < l.length) : (l.zipIdx).drop i = (l[i], i) :: (l.zipIdx).drop (i + 1) := by
  rw [List.drop_eq_getElem_cons (by simpa using hi)]
  simp

theorem consist_fold {conn connI ts T : List Int} {idsPerType : List (Option (List Int))} (hts : HasTypes conn connI ts) (hT : SortedByType ts T)
    {E : List (Int × Int × Int)} (hsub : (E.map Prod.fst).Sublist T) {n : Nat} : ∀ (k : Nat) (hk : k ≤ E.length) (L : List (List Int)),
    List.Forall₂ (Denotes ts idsPerType) (E.take k) L → L.flatten.length ≤ n →
    ((E.map Prod.fst).zipIdx.take k).foldlM (consistStep (codeOf E) conn connI idsPerType) (filled [] n, 0) =
      .ok (filled L.flatten n, if h : 0 < k then ts.idxOf (E[k - 1]'(by omega)).1 + ts.count (E[k - 1]'(by omega)).1 else 0) := by
  intro k
  induction k with
  | zero =>
    intro _ L hL _
    rw [List.take_zero] at hL
    cases hL
    rfl
  | succ k ih =>
    intro hk L hL hn
    have htk : E.take (k + 1) = E.take k ++ [E[k]] := by rw [List.take_append_getElem (by omega)]
    rw [htk] at hL
    obtain ⟨l1, l2, h1, h2, rfl⟩ := forall₂_split hL
    cases h2 with
    | cons h2 h3 =>
    rename_i l l3
    cases h3
    have hz : (E.map Prod.fst).zipIdx.take (k + 1) = (E.map Prod.fst).zipIdx.take k ++ [(E[k].1, k)] := by
      rw [← List.take_append_getElem (by simp; omega)]
      simp
    rw [List.flatten_append, List.length_append] at hn
    rw [hz, List.foldlM_append, ih (by omega) l1 h1 (by omega), ok_bind, List.foldlM_cons]
    have hmem : E[k].1 ∈ T := hsub.subset (List.mem_map_of_mem (List.getElem_mem _))
    obtain ⟨T1, T2, hTT⟩ := List.append_of_mem hmem
    have hpos : (if h : 0 < k then ts.idxOf (E[k - 1]'(by omega)).1 + ts.count (E[k - 1]'(by omega)).1 else 0) ≤ ts.idxOf E[k].1 := by
      split
      · rename_i hk0
        -- the previous type comes before in T
        have hs2 : [(E[k - 1]'(by omega)).1, E[k].1].Sublist T := by
          refine List.Sublist.trans ?_ hsub
          have : E.drop (k - 1) = E[k - 1]'(by omega) :: E[k] :: E.drop (k + 1) := by
            rw [List.drop_eq_getElem_cons (by omega)]
            congr 1
            have hk1 : k - 1 + 1 = k := by omega
            rw [hk1, List.drop_eq_getElem_cons (by omega)]
          have h4 : ([E[k - 1]'(by omega), E[k]] : List (Int × Int × Int)).Sublist E := by
            refine List.Sublist.trans ?_ (List.drop_sublist (k - 1) E)
            rw [this]
            exact List.Sublist.cons_cons _ (List.Sublist.cons_cons _ (List.nil_sublist _))
          exact h4.map Prod.fst
        obtain ⟨r1, r2, hr, hr1, hr2⟩ := List.cons_sublist_iff.mp hs2
        obtain ⟨a1, a2, ha⟩ := List.append_of_mem hr1
        subst hr ha
        rw [List.append_assoc, List.cons_append] at hT
        exact hT.next_block (List.mem_append_right _ (List.singleton_sublist.mp hr2))
      · omega
    rw [consistStep_ok hts (T1 := T1) (T2 := T2) (by omega) (by rw [← hTT]; exact hT) hpos h2 (by simpa using hn), ok_bind]
    rw [List.foldlM_nil]
    simp [List.flatten_append]
    rfl

theorem sum_denotes {ts : List Int} {idsPerType : List (Option (List Int))} {E : List (Int × Int × Int)} {L : List (List Int)}
    (h : List.Forall₂ (Denotes ts idsPerType) E L) : (E.map fun e => e.2.1).sum = (L.flatten.length : Int) := by
  induction h with
  | nil => rfl
  | cons h1 _ ih => rw [List.map_cons, List.sum_cons, ih, h1.1, List.flatten_cons, List.length_append]; push_cast; rfl

/-- the elements of a list without repetition which are in one of its sublists form this sublist -/
theorem filter_sublist_mem {S T : List Int} (h : S.Sublist T) (hn : T.Nodup) : (T.filter fun t => decide (t ∈ S)) = S := by
  induction h with
  | slnil => rfl
  | cons a hs ih =>
    rw [List.nodup_cons] at hn
    rw [List.filter_cons, if_neg (by simpa using fun hh => hn.1 (hs.subset hh))]
    exact ih hn.2
  | cons_cons a hs ih =>
    rw [List.nodup_cons] at hn
    rw [List.filter_cons, if_pos (by simp)]
    congr 1
    refine Eq.trans (List.filter_congr fun x hx => ?_) (ih hn.2)
    have : x ≠ a := fun e => hn.1 (e ▸ hx)
    simp [this]

/-- all the cells, block after block -/
theorem SortedByType.all_blocks {ts T : List Int} (h : SortedByType ts T) :
    (T.flatMap fun t => (List.range (ts.count t)).map fun k : Nat => (k : Int) + (ts.idxOf t : Int)) = (List.range ts.length).map fun k : Nat => (k : Int) := by
  have key : ∀ k, k ≤ T.length → ((T.take k).flatMap fun t => (List.range (ts.count t)).map fun k : Nat => (k : Int) + (ts.idxOf t : Int)) =
      (List.range (((boundsOf ts T)[k]?.getD 0).toNat)).map fun k : Nat => (k : Int) := by
    intro k
    induction k with
    | zero =>
      intro _
      by_cases hT0 : 0 < T.length
      · rw [bounds_get hT0]
        have h0 : ts.idxOf T[0] = 0 := by
          have hT' := h
          obtain ⟨t, T', rfl⟩ := List.exists_cons_of_length_pos hT0
          obtain ⟨A, B, -, hl, -, -, hA, -, -⟩ := (show SortedByType ts ([] ++ t :: T') from hT').block
          have : A = [] := List.eq_nil_iff_forall_not_mem.mpr fun a ha => by simpa using hA a ha
          subst this
          simpa using hl.symm
        simp [h0]
      · have : T = [] := List.length_eq_zero_iff.mp (by omega)
        subst this
        have := h.2.2
        simp at this
        subst this
        rfl
    | succ k ih =>
      intro hk
      have htk : T.take (k + 1) = T.take k ++ [T[k]] := by rw [List.take_append_getElem (by omega)]
      rw [htk, List.flatMap_append, ih (by omega), bounds_get (by omega), bounds_next h (by omega)]
      simp only [Option.getD_some, List.flatMap_cons, List.flatMap_nil, List.append_nil]
      rw [Int.toNat_natCast, Int.toNat_natCast, List.range_add, List.map_append, List.map_map]
      congr 1
      apply List.map_congr_left
      intro x _
      simp only [Function.comp]
      push_cast; omega
  have := key T.length (Nat.le_refl _)
  rw [List.take_length, bounds_last] at this
  simpa using this

/-- **C73.** `checkTypeConsistencyAndContig(code, idsPerType)` of a mesh sorted by type, for types given in the order of the mesh: the
null pointer when every type of the mesh is there without profile, otherwise the cells `code` stands for, section after section. -/
theorem C73_check {conn connI : List Int} {cells : List Cell} (hm : IsMesh conn connI cells) {geoTypes : List Int} (hgn : geoTypes.Nodup)
    (hgeo : ∀ t, t ∈ geoTypes ↔ t ∈ cells.map Cell.type) {T : List Int} (hT : SortedByType (cells.map Cell.type) T)
    {idsPerType : List (Option (List Int))} {E : List (Int × Int × Int)} (hne : E ≠ []) (hsub : (E.map Prod.fst).Sublist T) {L : List (List Int)}
    (hL : List.Forall₂ (Denotes (cells.map Cell.type) idsPerType) E L) :
    checkTypeConsistencyAndContig geoTypes conn connI (codeOf E) idsPerType =
      .ok (if (∀ e ∈ E, e.2.2 = -1) ∧ E.map Prod.fst = T then none else some (L.flatten.map some)) ∧
    ((∀ e ∈ E, e.2.2 = -1) ∧ E.map Prod.fst = T → L.flatten = (List.range cells.length).map fun k : Nat => (k : Int)) := by
  have hts := hm.hasTypes
  set ts := cells.map Cell.type with htsd
  have hlen := codeOf_length E
  have hEl : 0 < E.length := List.length_pos_of_ne_nil hne
  have hdiv : (codeOf E).length / 3 = E.length := by omega
  have hnd : (E.map Prod.fst).Nodup := hsub.nodup hT.1
  have hgT : geoTypes.length = T.length := by
    refine (List.perm_of_nodup_nodup_toFinset_eq hgn hT.1 ?_).length_eq
    ext t
    rw [List.mem_toFinset, List.mem_toFinset, hgeo, hT.mem_iff]
  obtain ⟨s, l1, -, -, -, l5⟩ := codeLoop_ok (geo := geoTypes) (E := E)
    (fun e he => (hgeo _).mpr (hT.mem_iff.mp (hsub.subset (List.mem_map_of_mem he)))) E.length (Nat.le_refl _)
  rw [List.take_length] at l5
  have l5 := l5 hnd
  have hcontig : (if s.2.2 then checkConsecutiveCellTypesAndOrder s.1 conn connI else .ok true) = .ok true := by
    split
    · obtain ⟨r, e1, e2⟩ := C71_order hm s.1
      rw [e1]
      have : r = true := by
        refine e2.mpr ⟨T, hT, ?_⟩
        have hs1 : s.1 = E.map Prod.fst := by rw [l5]
        rw [hs1]
        -- the types of T which are in the sublist are the sublist
        have hfil := filter_sublist_mem hsub hT.1
        rw [hfil]
        generalize E.map Prod.fst = S at *
        rw [List.pairwise_iff_getElem]
        intro i j hi hj hij
        rw [List.Nodup.idxOf_getElem hnd, List.Nodup.idxOf_getElem hnd]
        exact hij
      rw [this]
    · rfl
  have hall : (s.2.2 = true) ↔ ∀ e ∈ E, e.2.2 = -1 := by rw [l5]; simp
  have hs1 : s.1 = E.map Prod.fst := by rw [l5]
  have hsT : s.1.length = geoTypes.length ↔ E.map Prod.fst = T := by
    rw [hs1, hgT]
    constructor
    · exact hsub.eq_of_length
    · intro e; rw [e]
  have hnb : s.2.1 = (L.flatten.length : Int) := by rw [l5]; exact sum_denotes hL
  refine ⟨?_, ?_⟩
  · unfold checkTypeConsistencyAndContig
    rw [if_neg (fun h0 => by rw [h0, List.length_nil] at hlen; omega), if_neg (by omega), hdiv, l1, ok_bind,
      if_neg (by rw [hs1]; simp), hcontig, ok_bind, if_neg (by simp)]
    by_cases hw : (∀ e ∈ E, e.2.2 = -1) ∧ E.map Prod.fst = T
    · rw [if_pos ⟨hall.mpr hw.1, hsT.mpr hw.2⟩, if_pos hw]
    · rw [if_neg (fun hh => hw ⟨hall.mp hh.1, hsT.mp hh.2⟩), if_neg hw, if_neg (by omega), hnb, Int.toNat_natCast, newCur_eq, hs1]
      have := consist_fold hts hT hsub (n := L.flatten.length) E.length (Nat.le_refl _) L (by rw [List.take_length]; exact hL) (Nat.le_refl _)
      rw [List.take_of_length_le (by simp)] at this
      rw [this, ok_bind, filled_full rfl]
  · rintro ⟨w1, w2⟩
    have hF : L.flatten = T.flatMap fun t => (List.range (ts.count t)).map fun k : Nat => (k : Int) + (ts.idxOf t : Int) := by
      rw [← w2, List.flatMap_def, List.map_map]
      congr 1
      clear l5
      clear l5 l1 hcontig hall hs1 hsT hnb w2 hsub hnd hdiv hlen hEl hne
      induction hL with
      | nil => rfl
      | cons h1 h2 ih =>
        rw [List.map_cons, ← ih fun e he => w1 e (List.mem_cons_of_mem _ he)]
        congr 1
        rcases h1.2 with ⟨-, h3⟩ | ⟨q, pfl, h3, -⟩
        · exact h3
        · have := w1 _ List.mem_cons_self; omega
    rw [hF, hT.all_blocks]
    simp [htsd]

/-- **C73.** `checkTypeConsistencyAndContig` throws on an empty `code`, on one whose size is not a multiple of 3, on a type the mesh does
not have, on a type given twice, and, without profile, on types which are not contiguous in the mesh or in another order. -/
theorem C73_check_throws {conn connI : List Int} {cells : List Cell} (hm : IsMesh conn connI cells) {geoTypes : List Int}
    (hgeo : ∀ t, t ∈ geoTypes ↔ t ∈ cells.map Cell.type) (idsPerType : List (Option (List Int))) :
    (∀ code : List Int, code = [] ∨ code.length % 3 ≠ 0 → checkTypeConsistencyAndContig geoTypes conn connI code idsPerType = .error .exn) ∧
    ∀ E : List (Int × Int × Int),
      ((∃ e ∈ E, e.1 ∉ cells.map Cell.type) ∨ ¬ (E.map Prod.fst).Nodup ∨
        ((∀ e ∈ E, e.2.2 = -1) ∧ ∀ T, SortedByType (cells.map Cell.type) T →
          ¬ (T.filter fun t => decide (t ∈ E.map Prod.fst)).Pairwise fun t u => (E.map Prod.fst).idxOf t < (E.map Prod.fst).idxOf u)) →
      checkTypeConsistencyAndContig geoTypes conn connI (codeOf E) idsPerType = .error .exn := by
  constructor
  · intro code h
    unfold checkTypeConsistencyAndContig
    by_cases h0 : code = []
    · rw [if_pos h0]; rfl
    · rw [if_neg h0, if_pos (h.resolve_left h0)]; rfl
  · intro E h
    by_cases hne : E = []
    · subst hne; rfl
    have hlen := codeOf_length E
    have hEl : 0 < E.length := List.length_pos_of_ne_nil hne
    have hdiv : (codeOf E).length / 3 = E.length := by omega
    unfold checkTypeConsistencyAndContig
    rw [if_neg (fun h0 => by rw [h0, List.length_nil] at hlen; omega), if_neg (by omega), hdiv]
    by_cases hg : ∃ e ∈ E, e.1 ∉ cells.map Cell.type
    · obtain ⟨e, he, hne⟩ := hg
      rw [codeLoop_throws ⟨e, he, fun hh => hne ((hgeo _).mp hh)⟩]; rfl
    have h := h.resolve_left hg
    push Not at hg
    obtain ⟨s, l1, -, -, l4, l5⟩ := codeLoop_ok (geo := geoTypes) (E := E) (fun e he => (hgeo _).mpr (hg e he)) E.length (Nat.le_refl _)
    rw [List.take_length] at l4 l5
    rw [l1, ok_bind]
    by_cases hnd : (E.map Prod.fst).Nodup
    · obtain ⟨w1, w2⟩ := h.resolve_left (fun hh => hh hnd)
      have l5 := l5 hnd
      have hs1 : s.1 = E.map Prod.fst := by rw [l5]
      have hs2 : s.2.2 = true := by rw [l5]; simpa using w1
      rw [if_neg (by rw [hs1]; simp), if_pos hs2]
      obtain ⟨r, e1, e2⟩ := C71_order hm s.1
      rw [e1, ok_bind]
      have : r = false := by
        rw [← Bool.not_eq_true, e2]
        rintro ⟨T, hT, hp⟩
        rw [hs1] at hp
        exact w2 T hT hp
      rw [this]; rfl
    · rw [if_pos (fun hl => hnd (l4 hl))]; rfl

/-- **C73.** `checkTypeConsistencyAndContig` throws on a section which names no profile of `idsPerType`, a null one, or one with a value
which is not the number of a cell of the type. -/
theorem C73_check_bad_profile {conn connI : List Int} {cells : List Cell} (hm : IsMesh conn connI cells) {geoTypes : List Int}
    (hgeo : ∀ t, t ∈ geoTypes ↔ t ∈ cells.map Cell.type) {T : List Int} (hT : SortedByType (cells.map Cell.type) T)
    {idsPerType : List (Option (List Int))} {E1 E2 : List (Int × Int × Int)} {e : Int × Int × Int}
    (hsub : ((E1 ++ e :: E2).map Prod.fst).Sublist T) {L : List (List Int)}
    (hL : List.Forall₂ (Denotes (cells.map Cell.type) idsPerType) E1 L) (hpos : ∀ u ∈ e :: E2, 0 ≤ u.2.1)
    (hbad : e.2.2 ≠ -1 ∧ ∀ pfl, 0 ≤ e.2.2 → idsPerType[e.2.2.toNat]? = some (some pfl) →
      (pfl.length : Int) ≤ e.2.1 ∧ ∃ k ∈ pfl, ¬ (0 ≤ k ∧ k < ((cells.map Cell.type).count e.1 : Int))) :
    checkTypeConsistencyAndContig geoTypes conn connI (codeOf (E1 ++ e :: E2)) idsPerType = .error .exn := by
  have hts := hm.hasTypes
  set ts := cells.map Cell.type with htsd
  set E := E1 ++ e :: E2 with hE
  have hlen := codeOf_length E
  have hEl : E.length = E1.length + (E2.length + 1) := by simp [hE]
  have hdiv : (codeOf E).length / 3 = E.length := by omega
  have hnd : (E.map Prod.fst).Nodup := hsub.nodup hT.1
  obtain ⟨s, l1, -, -, -, l5⟩ := codeLoop_ok (geo := geoTypes) (E := E)
    (fun e he => (hgeo _).mpr (hT.mem_iff.mp (hsub.subset (List.mem_map_of_mem he)))) E.length (Nat.le_refl _)
  rw [List.take_length] at l5
  have l5 := l5 hnd
  have hs1 : s.1 = E.map Prod.fst := by rw [l5]
  have hs2 : ¬ s.2.2 = true := by
    rw [l5]
    simp only [List.all_eq_true, decide_eq_true_eq]
    intro hh
    exact hbad.1 (hh e (by rw [hE]; exact List.mem_append_right _ List.mem_cons_self))
  have hrest : 0 ≤ ((E2.map fun u => u.2.1).sum : Int) := List.sum_nonneg fun x hx => by
    obtain ⟨u, hu, rfl⟩ := List.mem_map.mp hx
    exact hpos u (List.mem_cons_of_mem _ hu)
  have hnb : s.2.1 = (L.flatten.length : Int) + (e.2.1 + (E2.map fun u => u.2.1).sum) := by
    rw [l5, ← sum_denotes hL]
    simp only [hE, List.map_append, List.map_cons, List.sum_append, List.sum_cons]
  have he0 := hpos e List.mem_cons_self
  unfold checkTypeConsistencyAndContig
  rw [if_neg (fun h0 => by rw [h0, List.length_nil] at hlen; omega), if_neg (by omega), hdiv, l1, ok_bind,
    if_neg (by rw [hs1]; simp), if_neg hs2, ok_bind, if_neg (by simp), if_neg (fun hh => hs2 hh.1), if_neg (by omega), newCur_eq, hs1]
  have hgetE : E[E1.length]'(by omega) = e := by
    apply Option.some.inj
    rw [← List.getElem?_eq_getElem, hE, List.getElem?_append_right (Nat.le_refl _), Nat.sub_self]; rfl
  have hz : (E.map Prod.fst).zipIdx = (E.map Prod.fst).zipIdx.take E1.length ++ (e.1, E1.length) :: (E.map Prod.fst).zipIdx.drop (E1.length + 1) := by
    conv_lhs => rw [← List.take_append_drop E1.length (E.map Prod.fst).zipIdx]
    congr 1
    rw [zipIdx_drop _ (by simp; omega)]
    simp [hgetE]
  have hfold := consist_fold hts hT hsub (n := s.2.1.toNat) E1.length (by omega) L (by rw [hE, List.take_left]; exact hL) (by omega)
  rw [hz, List.foldlM_append, hfold, ok_bind, List.foldlM_cons]
  have hmem : e.1 ∈ T := hsub.subset (List.mem_map_of_mem (by rw [hE]; exact List.mem_append_right _ List.mem_cons_self))
  obtain ⟨T1, T2, hTT⟩ := List.append_of_mem hmem
  have hstep : ∀ pos : Nat, pos ≤ ts.idxOf e.1 →
      consistStep (codeOf E) conn connI idsPerType (filled L.flatten s.2.1.toNat, pos) (e.1, E1.length) = .error .exn := by
    intro pos hp
    obtain ⟨f1, f2⟩ := find_block hts (by rw [← hTT]; exact hT) hp
    obtain ⟨-, -, c3⟩ := codeOf_rd (E := E) (i := E1.length) (by omega)
    rw [hgetE] at c3
    unfold consistStep
    simp only
    rw [f1, ok_bind, f2, ok_bind, c3, ok_bind, if_neg hbad.1]
    by_cases hq : 0 ≤ e.2.2 ∧ e.2.2 < (idsPerType.length : Int)
    · have hq2 : e.2.2.toNat < idsPerType.length := by omega
      rw [if_pos hq, rd_of_getElem? hq.1 (List.getElem?_eq_getElem hq2), ok_bind]
      cases hz2 : idsPerType[e.2.2.toNat] with
      | none => rfl
      | some pfl =>
        simp only
        obtain ⟨b1, b2⟩ := hbad.2 pfl hq.1 (by rw [List.getElem?_eq_getElem hq2, hz2])
        have hm : ((ts.idxOf e.1 + ts.count e.1 : Nat) : Int) - (ts.idxOf e.1 : Int) = (ts.count e.1 : Int) := by push_cast; omega
        rw [hm, emit_profile_throws pfl _ b2 (by omega)]; rfl
    · rw [if_neg hq]; rfl
  rw [hstep]
  · rfl
  · split
    · rename_i hk0
      have hs2 : [(E[E1.length - 1]'(by omega)).1, e.1].Sublist T := by
        refine List.Sublist.trans ?_ hsub
        have h4 : ([E[E1.length - 1]'(by omega), e] : List (Int × Int × Int)).Sublist E := by
          have h5 : E[E1.length - 1]'(by omega) ∈ E1 := by
            refine List.mem_iff_getElem?.mpr ⟨E1.length - 1, ?_⟩
            rw [← List.getElem?_eq_getElem (l := E), hE, List.getElem?_append_left (by omega)]
          have := (List.singleton_sublist.mpr h5).append (List.singleton_sublist.mpr (List.mem_cons_self (a := e) (l := E2)))
          exact this
        exact h4.map Prod.fst
      obtain ⟨r1, r2, hr, hr1, hr2⟩ := List.cons_sublist_iff.mp hs2
      obtain ⟨a1, a2, ha⟩ := List.append_of_mem hr1
      subst hr ha
      rw [List.append_assoc, List.cons_append] at hT
      exact hT.next_block (List.mem_append_right _ (List.singleton_sublist.mp hr2))
    · omega

/-! ## Round trip -/

theorem partOf_eq (ts pfl : List Int) (t : Int) : partOf ts pfl t = (localOf ts pfl t).map fun k => k + (ts.idxOf t : Int) := by
  unfold localOf
  rw [List.map_map]
  conv_lhs => rw [← List.map_id (partOf ts pfl t)]
  apply List.map_congr_left
  intro x _
  simp

theorem localOf_allIn {ts T pfl : List Int} (hT : SortedByType ts T) (hin : AllIn ts.length pfl) {t : Int} (ht : t ∈ T) :
    AllIn (ts.count t) (localOf ts pfl t) := by
  intro k hk
  obtain ⟨v, hv, rfl⟩ := List.mem_map.mp hk
  obtain ⟨hv1, hv2⟩ := List.mem_filter.mp hv
  have h0 := (hin v hv1).1
  have := (hT.get_iff ht v.toNat).mp (by simpa using hv2)
  omega

/-- **C73.** `checkTypeConsistencyAndContig` undoes `splitProfilePerType`: it gives back the cells of the profile, type after type; the null
pointer stands for all the cells of the mesh. -/
theorem C73_round_trip {conn connI : List Int} {cells : List Cell} (hm : IsMesh conn connI cells) {geoTypes : List Int} (hgn : geoTypes.Nodup)
    (hgeo : ∀ t, t ∈ geoTypes ↔ t ∈ cells.map Cell.type) {T : List Int} (hT : SortedByType (cells.map Cell.type) T)
    {pfl : List Int} (hin : AllIn cells.length pfl) (hne : pfl ≠ []) (smart : Bool) :
    ∃ (s : ProfileSplit) (r : Option (List (Option Int))), splitProfilePerType conn connI pfl smart = .ok s ∧
      checkTypeConsistencyAndContig geoTypes conn connI s.code (s.idsPerType.map some) = .ok r ∧
      match r with
      | none => (T.flatMap (partOf (cells.map Cell.type) pfl)) = (List.range cells.length).map fun k : Nat => (k : Int)
      | some l => l = (T.flatMap (partOf (cells.map Cell.type) pfl)).map some := by
  have hcne : cells ≠ [] := by
    rintro rfl
    obtain ⟨v, hv⟩ := List.exists_mem_of_ne_nil _ hne
    have := hin v hv
    simp at this
    omega
  obtain ⟨E, places, idsPer, e1, e2, e3, e4⟩ := C73_split hm hT hcne hin smart
  have hin' : AllIn (cells.map Cell.type).length pfl := by simpa using hin
  set ts := cells.map Cell.type with htsd
  set U := T.filter fun t => decide (partOf ts pfl t ≠ []) with hU
  have hUE : U = E.map Prod.fst := by
    clear e1 e3 e4 hU
    clear_value U
    induction e2 with
    | nil => rfl
    | cons h1 _ ih => rw [List.map_cons, ← ih, h1.1]
  have hUsub : U.Sublist T := List.filter_sublist
  have hflat : U.flatMap (partOf ts pfl) = T.flatMap (partOf ts pfl) := by
    rw [hU]
    clear hUsub hUE e2 e3 e4 hT hU U
    induction T with
    | nil => rfl
    | cons t T ih =>
      rw [List.filter_cons, List.flatMap_cons, ← ih]
      split
      · rw [List.flatMap_cons]
      · rename_i hh
        have : partOf ts pfl t = [] := by simpa using hh
        rw [this]; rfl
  have hUne : E ≠ [] := by
    rintro rfl
    obtain ⟨v, hv⟩ := List.exists_mem_of_ne_nil _ hne
    have h2 : v.toNat < ts.length := by have := hin' v hv; omega
    have : ts[v.toNat] ∈ U := by
      rw [hU]
      refine List.mem_filter.mpr ⟨hT.mem_iff.mpr (List.getElem_mem h2), ?_⟩
      rw [decide_eq_true_eq]
      intro he
      have : v ∈ partOf ts pfl ts[v.toNat] := List.mem_filter.mpr ⟨hv, by simp [h2]⟩
      rw [he] at this
      simp at this
    rw [hUE] at this
    simp at this
  have hden : List.Forall₂ (Denotes ts (idsPer.map some)) E (U.map (partOf ts pfl)) := by
    rw [List.forall₂_map_right_iff]
    refine (List.Forall₂.flip ?_)
    have hUT : ∀ t ∈ U, t ∈ T := fun t ht => hUsub.subset ht
    clear_value U
    clear e1 e3 e4 hUE hUsub hflat hUne hU
    induction e2 with
    | nil => exact List.Forall₂.nil
    | cons h1 _ ih =>
      refine List.Forall₂.cons ?_ (ih fun t ht => hUT t (List.mem_cons_of_mem _ ht))
      obtain ⟨a, b, c⟩ := h1
      refine ⟨b, ?_⟩
      rw [a]
      split at c
      · rename_i hw
        left
        refine ⟨c, ?_⟩
        have := hw.2
        unfold isWhole at this
        rw [decide_eq_true_eq] at this
        rw [partOf_eq, this, List.map_map]; rfl
      · obtain ⟨p, c1, c2⟩ := c
        right
        exact ⟨p, _, c1, by rw [List.getElem?_map, c2]; rfl, localOf_allIn hT hin' (hUT _ List.mem_cons_self), partOf_eq _ _ _⟩
  obtain ⟨k1, k2⟩ := C73_check hm hgn hgeo hT hUne (by rw [← hUE]; exact hUsub) hden
  refine ⟨_, _, e1, k1, ?_⟩
  rw [← List.flatMap_def, hflat] at k2 ⊢
  by_cases hw : (∀ e ∈ E, e.2.2 = -1) ∧ E.map Prod.fst = T
  · rw [if_pos hw]; exact k2 hw
  · rw [if_neg hw]

/-- **C73.** When the profile is in increasing order, these cells are exactly the profile. -/
theorem C73_grouped_sorted {ts T pfl : List Int} (hT : SortedByType ts T) (hin : AllIn ts.length pfl) (hs : pfl.Pairwise (· ≤ ·)) :
    T.flatMap (partOf ts pfl) = pfl := by
  have hperm : (T.flatMap (partOf ts pfl)).Perm pfl := by
    have hall : ∀ v ∈ pfl, ∃ t ∈ T, ts[v.toNat]? = some t := by
      intro v hv
      have h2 : v.toNat < ts.length := by have := hin v hv; omega
      exact ⟨_, hT.mem_iff.mpr (List.getElem_mem h2), List.getElem?_eq_getElem h2⟩
    have hn := hT.1
    clear hs hin hT
    induction T generalizing pfl with
    | nil =>
      have : pfl = [] := List.eq_nil_iff_forall_not_mem.mpr fun v hv => by obtain ⟨t, ht, -⟩ := hall v hv; simp at ht
      subst this; exact List.Perm.refl _
    | cons t T ih =>
      rw [List.nodup_cons] at hn
      rw [List.flatMap_cons]
      have h1 := ih (pfl := pfl.filter fun v => !decide (ts[v.toNat]? = some t)) (fun v hv => by
        obtain ⟨hv1, hv2⟩ := List.mem_filter.mp hv
        obtain ⟨u, hu, hu2⟩ := hall v hv1
        rcases List.mem_cons.mp hu with rfl | hu
        · simp [hu2] at hv2
        · exact ⟨u, hu, hu2⟩) hn.2
      have h2 : (T.flatMap (partOf ts (pfl.filter fun v => !decide (ts[v.toNat]? = some t)))) = T.flatMap (partOf ts pfl) := by
        rw [List.flatMap_def, List.flatMap_def]
        congr 1
        refine List.map_congr_left fun u hu => ?_
        unfold partOf
        rw [List.filter_filter]
        refine List.filter_congr fun v _ => ?_
        have hut : u ≠ t := fun e => hn.1 (e ▸ hu)
        by_cases hv : ts[v.toNat]? = some u
        · simp [hv, hut]
        · simp [hv]
      rw [h2] at h1
      exact (List.Perm.append_left _ h1).trans (List.filter_append_perm _ pfl)
  refine List.Perm.eq_of_pairwise (le := (· ≤ ·)) (fun a b _ _ h1 h2 => Int.le_antisymm h1 h2) ?_ hs hperm
  rw [List.pairwise_flatMap]
  refine ⟨fun t _ => hs.filter _, ?_⟩
  rw [List.pairwise_iff_getElem]
  intro i j hi hj hij x hx y hy
  obtain ⟨hx1, hx2⟩ := List.mem_filter.mp hx
  obtain ⟨hy1, hy2⟩ := List.mem_filter.mp hy
  have a := (hT.get_iff (List.getElem_mem hi) x.toNat).mp (by simpa using hx2)
  have b := (hT.get_iff (List.getElem_mem hj) y.toNat).mp (by simpa using hy2)
  have hT' := hT
  rw [← List.take_append_drop i T, List.drop_eq_getElem_cons hi] at hT'
  have c := hT'.next_block (u := T[j]) (List.mem_iff_getElem?.mpr ⟨j - (i + 1), by
    rw [List.getElem?_drop, List.getElem?_eq_getElem (by omega)]; congr 2; omega⟩)
  have := hin x hx1
  have := hin y hy1
  omega

/-! ## Findings -/

/-- **C73, finding.** The numbers of cells of `code` are never compared with the ones of the mesh when no profile is used, though the
documentation says that an exception is thrown when they do not match: the answer is the same whatever they are. -/
theorem C73_counts_ignored {conn connI : List Int} {cells : List Cell} (hm : IsMesh conn connI cells) {geoTypes : List Int} (hgn : geoTypes.Nodup)
    (hgeo : ∀ t, t ∈ geoTypes ↔ t ∈ cells.map Cell.type) {T : List Int} (hT : SortedByType (cells.map Cell.type) T) (hne : cells ≠ [])
    (idsPerType : List (Option (List Int))) (n : Int → Int) :
    checkTypeConsistencyAndContig geoTypes conn connI (codeOf (T.map fun t => (t, n t, -1))) idsPerType = .ok none := by
  have hTne : T ≠ [] := by
    rintro rfl
    have := hT.2.2
    simp at this
    exact hne this
  set E := T.map fun t => (t, n t, (-1 : Int)) with hE
  have hEl : 0 < E.length := by have := List.length_pos_of_ne_nil hTne; simp [hE]; omega
  have hET : E.map Prod.fst = T := by rw [hE, List.map_map]; simp [Function.comp_def]
  have hlen := codeOf_length E
  have hdiv : (codeOf E).length / 3 = E.length := by omega
  have hgT : geoTypes.length = T.length := by
    refine (List.perm_of_nodup_nodup_toFinset_eq hgn hT.1 ?_).length_eq
    ext t
    rw [List.mem_toFinset, List.mem_toFinset, hgeo, hT.mem_iff]
  obtain ⟨s, l1, -, -, -, l5⟩ := codeLoop_ok (geo := geoTypes) (E := E)
    (fun e he => (hgeo _).mpr (hT.mem_iff.mp (by rw [← hET]; exact List.mem_map_of_mem he))) E.length (Nat.le_refl _)
  rw [List.take_length] at l5
  have l5 := l5 (by rw [hET]; exact hT.1)
  have hs1 : s.1 = T := by rw [l5]; exact hET
  have hs2 : s.2.2 = true := by rw [l5]; simp [hE]
  obtain ⟨r, e1, e2⟩ := C71_order hm s.1
  have hr : r = true := by
    refine e2.mpr ⟨T, hT, ?_⟩
    rw [hs1, filter_sublist_mem (List.Sublist.refl T) hT.1, List.pairwise_iff_getElem]
    intro i j hi hj hij
    rw [List.Nodup.idxOf_getElem hT.1, List.Nodup.idxOf_getElem hT.1]
    exact hij
  unfold checkTypeConsistencyAndContig
  rw [if_neg (fun h0 => by rw [h0, List.length_nil] at hlen; omega), if_neg (by omega), hdiv, l1, ok_bind,
    if_neg (by rw [hs1]; simp [hE]), if_pos hs2, e1, ok_bind, hr, if_neg (by simp), if_pos ⟨hs2, by rw [hs1, hgT]⟩]

set_option maxRecDepth 20000 in
/-- **C73, finding.** On a mesh with two triangles (3), a quadrangle (4) and a pentagon (5): announcing one cell too few for the triangles
makes `checkTypeConsistencyAndContig` write past the end of the array it returns; announcing one too many leaves its last value
uninitialised; and giving the types in another order than the mesh, which is checked only when no profile is used, makes it run past the
last cell. -/
theorem C73_check_unsafe :
    IsMesh [3, 0, 1, 2, 3, 1, 2, 3, 4, 0, 1, 2, 3, 5, 0, 1, 2, 3, 4] [0, 4, 8, 13, 19]
      [⟨3, [0, 1, 2]⟩, ⟨3, [1, 2, 3]⟩, ⟨4, [0, 1, 2, 3]⟩, ⟨5, [0, 1, 2, 3, 4]⟩] ∧ SortedByType [3, 3, 4, 5] [3, 4, 5] ∧
    checkTypeConsistencyAndContig [3, 4, 5] [3, 0, 1, 2, 3, 1, 2, 3, 4, 0, 1, 2, 3, 5, 0, 1, 2, 3, 4] [0, 4, 8, 13, 19] [3, 1, -1] [] = .error .ub ∧
    checkTypeConsistencyAndContig [3, 4, 5] [3, 0, 1, 2, 3, 1, 2, 3, 4, 0, 1, 2, 3, 5, 0, 1, 2, 3, 4] [0, 4, 8, 13, 19] [3, 3, -1] [] =
      .ok (some [some 0, some 1, none]) ∧
    checkTypeConsistencyAndContig [3, 4, 5] [3, 0, 1, 2, 3, 1, 2, 3, 4, 0, 1, 2, 3, 5, 0, 1, 2, 3, 4] [0, 4, 8, 13, 19] [4, 1, 0, 3, 1, -1]
      [some [0]] = .error .ub :=
  ⟨by decide, ⟨by decide, by decide, by decide⟩, by decide, by decide, by decide⟩

set_option maxRecDepth 20000 in
example : IsMesh [3, 0, 1, 2, 3, 1, 2, 3, 4, 0, 1, 2, 3, 5, 0, 1, 2, 3, 4] [0, 4, 8, 13, 19]
      [⟨3, [0, 1, 2]⟩, ⟨3, [1, 2, 3]⟩, ⟨4, [0, 1, 2, 3]⟩, ⟨5, [0, 1, 2, 3, 4]⟩] ∧ SortedByType [3, 3, 4, 5] [3, 4, 5] ∧
    (([(3, 2, 0), (5, 1, -1)] : List (Int × Int × Int)).map Prod.fst).Sublist [3, 4, 5] ∧
    List.Forall₂ (Denotes [3, 3, 4, 5] [some [1, 0]]) [(3, 2, 0), (5, 1, -1)] [[1, 0], [3]] ∧
    checkTypeConsistencyAndContig [3, 4, 5] [3, 0, 1, 2, 3, 1, 2, 3, 4, 0, 1, 2, 3, 5, 0, 1, 2, 3, 4] [0, 4, 8, 13, 19] [3, 2, 0, 5, 1, -1]
      [some [1, 0]] = .ok (some [some 1, some 0, some 3]) :=
  ⟨by decide, ⟨by decide, by decide, by decide⟩, by decide,
    List.Forall₂.cons ⟨rfl, Or.inr ⟨0, [1, 0], rfl, rfl, by unfold AllIn; decide, by decide⟩⟩
      (List.Forall₂.cons ⟨rfl, Or.inl ⟨rfl, by decide⟩⟩ List.Forall₂.nil), by decide⟩

set_option maxRecDepth 20000 in
/-- a bad profile -/
example : (([] ++ (3, 1, 0) :: [(5, 1, -1)] : List (Int × Int × Int)).map Prod.fst).Sublist [3, 4, 5] ∧
    (∀ pfl, ([some [2]] : List (Option (List Int)))[0]? = some (some pfl) →
      (pfl.length : Int) ≤ 1 ∧ ∃ k ∈ pfl, ¬ (0 ≤ k ∧ k < (([3, 3, 4, 5] : List Int).count 3 : Int))) ∧
    checkTypeConsistencyAndContig [3, 4, 5] [3, 0, 1, 2, 3, 1, 2, 3, 4, 0, 1, 2, 3, 5, 0, 1, 2, 3, 4] [0, 4, 8, 13, 19] [3, 1, 0, 5, 1, -1]
      [some [2]] = .error .exn :=
  ⟨by decide, by rintro pfl ⟨⟩; decide, by decide⟩

/-- a profile in increasing order -/
example : AllIn ([3, 3, 4, 5] : List Int).length [0, 1, 3] ∧ ([0, 1, 3] : List Int).Pairwise (· ≤ ·) ∧
    ([3, 4, 5] : List Int).flatMap (partOf [3, 3, 4, 5] [0, 1, 3]) = [0, 1, 3] ∧
    ([3, 4, 5] : List Int).flatMap (partOf [3, 3, 4, 5] [3, 1, 0]) = [1, 0, 3] :=
  ⟨by unfold AllIn; decide, by decide, by decide, by decide⟩

set_option maxRecDepth 20000 in
/-- a type the mesh does not have, a type given twice, types in the wrong order without profile -/
example : (6 : Int) ∉ ([3, 3, 4, 5] : List Int) ∧ ¬ ([3, 3] : List Int).Nodup ∧
    ¬ (([3, 4, 5] : List Int).filter fun t => decide (t ∈ ([4, 3] : List Int))).Pairwise (fun t u => ([4, 3] : List Int).idxOf t < ([4, 3] : List Int).idxOf u) ∧
    checkTypeConsistencyAndContig [3, 4, 5] [3, 0, 1, 2, 3, 1, 2, 3, 4, 0, 1, 2, 3, 5, 0, 1, 2, 3, 4] [0, 4, 8, 13, 19] [6, 1, -1] [] = .error .exn ∧
    checkTypeConsistencyAndContig [3, 4, 5] [3, 0, 1, 2, 3, 1, 2, 3, 4, 0, 1, 2, 3, 5, 0, 1, 2, 3, 4] [0, 4, 8, 13, 19] [3, 2, -1, 3, 2, -1] [] =
      .error .exn ∧
    checkTypeConsistencyAndContig [3, 4, 5] [3, 0, 1, 2, 3, 1, 2, 3, 4, 0, 1, 2, 3, 5, 0, 1, 2, 3, 4] [0, 4, 8, 13, 19] [4, 1, -1, 3, 2, -1] [] =
      .error .exn ∧
    checkTypeConsistencyAndContig [3, 4, 5] [3, 0, 1, 2, 3, 1, 2, 3, 4, 0, 1, 2, 3, 5, 0, 1, 2, 3, 4] [0, 4, 8, 13, 19]
      (codeOf ([3, 4, 5].map fun t => (t, 17, -1))) [] = .ok none :=
  ⟨by decide, by decide, by decide, by decide, by decide, by decide, by decide⟩

end
end MC
