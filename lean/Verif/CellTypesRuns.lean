import Verif.CellTypes
import Verif.UMeshParts
import Verif.SetAlgProps
import Mathlib.Data.List.TakeWhile

/-!
# C71: runs of cells of the same type, order of the types
-/

namespace MC
section

/-! ## Specification -/

/-- The cells of the same type are consecutive: no cell of another type lies between two cells of the same type. -/
def Contiguous (ts : List Int) : Prop :=
  ∀ (i j k : Nat) (t : Int), i < j → j < k → ts[i]? = some t → ts[k]? = some t → ts[j]? = some t

/-- `ts` is made of one block per type, the types being `T` in this order. -/
def SortedByType (ts T : List Int) : Prop :=
  T.Nodup ∧ (∀ t ∈ T, t ∈ ts) ∧ ts = T.flatMap fun t => List.replicate (ts.count t) t

/-! ## Runs -/

/-- run length encoding -/
def runs : List Int → List (Int × Nat)
  | [] => []
  | t :: ts => match runs ts with
    | [] => [(t, 1)]
    | (u, n) :: rs => if t = u then (t, n + 1) :: rs else (t, 1) :: (u, n) :: rs

theorem runs_cons (t : Int) (ts : List Int) :
    runs (t :: ts) = (t, (ts.takeWhile fun u => decide (u = t)).length + 1) :: runs (ts.dropWhile fun u => decide (u = t)) := by
  induction ts with
  | nil => rfl
  | cons a ts ih =>
    by_cases h : a = t
    · subst h
      rw [runs, ih]
      simp
    · have hd : (a :: ts).dropWhile (fun u => decide (u = t)) = a :: ts := by simp [h]
      have ht : (a :: ts).takeWhile (fun u => decide (u = t)) = [] := by simp [h]
      rw [hd, ht, runs]
      have : ∃ n rs, runs (a :: ts) = (a, n) :: rs := by
        rw [runs]
        split
        · exact ⟨_, _, rfl⟩
        · split
          · exact ⟨_, _, rfl⟩
          · exact ⟨_, _, rfl⟩
      obtain ⟨n, rs, e⟩ := this
      rw [e]
      simp only
      rw [if_neg (fun h' => h h'.symm)]
      simp

/-- the list described by a run length encoding -/
def unruns (G : List (Int × Nat)) : List Int := G.flatMap fun g => List.replicate g.2 g.1

theorem unruns_runs (ts : List Int) : unruns (runs ts) = ts := by
  induction ts with
  | nil => rfl
  | cons t ts ih =>
    rw [runs]
    split
    · rename_i h; rw [h] at ih; simp [unruns] at ih ⊢; exact ih
    · rename_i u n rs h
      rw [h] at ih
      split
      · rename_i e; subst e
        simp only [unruns, List.flatMap_cons, List.replicate_succ, List.cons_append] at ih ⊢
        rw [ih]
      · simp only [unruns, List.flatMap_cons, List.replicate_one, List.cons_append, List.nil_append] at ih ⊢
        rw [ih]

theorem runs_pos {ts : List Int} {g : Int × Nat} (h : g ∈ runs ts) : 0 < g.2 := by
  induction ts generalizing g with
  | nil => simp [runs] at h
  | cons t ts ih =>
    rw [runs] at h
    split at h
    · simp at h; subst h; simp
    · rename_i u n rs e
      rw [e] at ih
      split at h
      · rcases List.mem_cons.mp h with rfl | h
        · simp
        · exact ih (List.mem_cons_of_mem _ h)
      · rcases List.mem_cons.mp h with rfl | h
        · simp
        · exact ih h

theorem mem_runs_types {ts : List Int} {t : Int} : t ∈ (runs ts).map Prod.fst ↔ t ∈ ts := by
  constructor
  · intro h
    obtain ⟨g, hg, rfl⟩ := List.mem_map.mp h
    rw [← unruns_runs ts]
    exact List.mem_flatMap.mpr ⟨g, hg, List.mem_replicate.mpr ⟨by have := runs_pos hg; omega, rfl⟩⟩
  · intro h
    rw [← unruns_runs ts] at h
    obtain ⟨g, hg, hm⟩ := List.mem_flatMap.mp h
    rw [(List.mem_replicate.mp hm).2]
    exact List.mem_map_of_mem hg

theorem count_unruns {G : List (Int × Nat)} (hn : (G.map Prod.fst).Nodup) {g : Int × Nat} (hg : g ∈ G) : (unruns G).count g.1 = g.2 := by
  induction G with
  | nil => simp at hg
  | cons a G ih =>
    rw [List.map_cons, List.nodup_cons] at hn
    rw [unruns, List.flatMap_cons, List.count_append]
    change _ + (unruns G).count _ = _
    rcases List.mem_cons.mp hg with rfl | hg
    · have : (unruns G).count g.1 = 0 := by
        rw [List.count_eq_zero]
        intro h
        obtain ⟨b, hb, hm⟩ := List.mem_flatMap.mp h
        apply hn.1
        rw [(List.mem_replicate.mp hm).2]
        exact List.mem_map_of_mem hb
      rw [this]; simp
    · have hne : g.1 ≠ a.1 := by
        intro h; apply hn.1; rw [← h]; exact List.mem_map_of_mem hg
      rw [ih hn.2 hg, List.count_replicate, if_neg (by simpa using fun h => hne h.symm)]
      simp

/-- a sorted list has one run per type -/
theorem SortedByType.runs_eq {ts T : List Int} (h : SortedByType ts T) : runs ts = T.map fun t => (t, ts.count t) := by
  obtain ⟨h1, h2, h3⟩ := h
  have key : ∀ (c : Int → Nat) (T : List Int), T.Nodup → (∀ t ∈ T, 0 < c t) →
      runs (T.flatMap fun t => List.replicate (c t) t) = T.map fun t => (t, c t) := by
    intro c T
    induction T with
    | nil => intros; rfl
    | cons t T ih =>
      intro hn hc
      rw [List.nodup_cons] at hn
      have ih := ih hn.2 fun u hu => hc u (List.mem_cons_of_mem _ hu)
      obtain ⟨n, hn'⟩ : ∃ n, c t = n + 1 := ⟨c t - 1, by have := hc t List.mem_cons_self; omega⟩
      rw [List.flatMap_cons, hn', List.replicate_succ, List.cons_append, runs_cons]
      have hd : ∀ u ∈ (T.flatMap fun t => List.replicate (c t) t), u ≠ t := by
        intro u hu e
        obtain ⟨v, hv, hm⟩ := List.mem_flatMap.mp hu
        have := (List.mem_replicate.mp hm).2
        apply hn.1
        rw [← e, this]; exact hv
      set R := T.flatMap fun t => List.replicate (c t) t
      have tk : (List.replicate n t ++ R).takeWhile (fun u => decide (u = t)) = List.replicate n t := by
        rw [List.takeWhile_append_of_pos (by intro a ha; simp [(List.mem_replicate.mp ha).2])]
        cases hR : R with
        | nil => simp
        | cons a R' => simp [hd a (by rw [hR]; simp)]
      have dk : (List.replicate n t ++ R).dropWhile (fun u => decide (u = t)) = R := by
        rw [List.dropWhile_append_of_pos (by intro a ha; simp [(List.mem_replicate.mp ha).2])]
        cases hR : R with
        | nil => simp
        | cons a R' => simp [hd a (by rw [hR]; simp)]
      rw [tk, dk, ih, List.map_cons, hn']
      simp
  conv_lhs => rw [h3]
  exact key _ T h1 fun t ht => List.count_pos_iff.mpr (h2 t ht)

theorem sortedByType_of_runs {ts : List Int} (h : ((runs ts).map Prod.fst).Nodup) : SortedByType ts ((runs ts).map Prod.fst) := by
  refine ⟨h, fun t ht => mem_runs_types.mp ht, ?_⟩
  conv_lhs => rw [← unruns_runs ts]
  rw [unruns, List.flatMap_map]
  have : ∀ g ∈ runs ts, List.replicate g.2 g.1 = List.replicate (ts.count g.1) g.1 := by
    intro g hg
    have := count_unruns h hg
    rw [unruns_runs] at this
    rw [this]
  rw [List.flatMap_congr this]

theorem SortedByType.types_eq {ts T : List Int} (h : SortedByType ts T) : (runs ts).map Prod.fst = T := by
  rw [h.runs_eq, List.map_map]
  exact List.map_id' T

theorem sortedByType_iff (ts : List Int) : (∃ T, SortedByType ts T) ↔ ((runs ts).map Prod.fst).Nodup :=
  ⟨fun ⟨_, h⟩ => by rw [h.types_eq]; exact h.1, fun h => ⟨_, sortedByType_of_runs h⟩⟩

theorem SortedByType.mem_iff {ts T : List Int} (h : SortedByType ts T) {t : Int} : t ∈ T ↔ t ∈ ts := by
  rw [← h.types_eq]; exact mem_runs_types

theorem SortedByType.unique {ts T T' : List Int} (h : SortedByType ts T) (h' : SortedByType ts T') : T = T' := by
  rw [← h.types_eq, ← h'.types_eq]

/-- One block per type is the same as no intruder between two cells of the same type. -/
theorem sortedByType_iff_contiguous (ts : List Int) : (∃ T, SortedByType ts T) ↔ Contiguous ts := by
  rw [sortedByType_iff]
  induction hl : ts.length using Nat.strong_induction_on generalizing ts with
  | _ n ih =>
    cases ts with
    | nil => simp [runs, Contiguous]
    | cons t ts =>
      subst hl
      rw [runs_cons, List.map_cons, List.nodup_cons]
      have hsplit := List.takeWhile_append_dropWhile (p := fun u => decide (u = t)) (l := ts)
      set P := ts.takeWhile fun u => decide (u = t) with hP
      set R := ts.dropWhile fun u => decide (u = t) with hR
      have hlen : R.length < (t :: ts).length := by
        have := congrArg List.length hsplit; simp at this ⊢; omega
      rw [ih _ hlen R rfl, mem_runs_types]
      have hPt : ∀ u ∈ P, u = t := by
        intro u hu
        have := List.mem_takeWhile_imp hu
        simpa using this
      have hfull : t :: ts = (t :: P) ++ R := by rw [← hsplit]; rfl
      have hPall : ∀ (i : Nat), i < (t :: P).length → (t :: ts)[i]? = some t := by
        intro i hi
        rw [hfull, List.getElem?_append_left hi, List.getElem?_eq_getElem hi]
        congr 1
        have := List.getElem_mem hi
        rcases List.mem_cons.mp this with h | h
        · exact h
        · exact hPt _ h
      have hR' : ∀ i : Nat, (t :: ts)[(t :: P).length + i]? = R[i]? := by
        intro i
        rw [hfull, List.getElem?_append_right (by omega)]
        congr 1
        omega
      constructor
      · rintro ⟨h1, h2⟩ i j k u hij hjk hi hk
        by_cases hk' : k < (t :: P).length
        · rw [hPall k hk'] at hk; rw [hPall j (by omega)]; exact hk
        · obtain ⟨k, rfl⟩ : ∃ k', k = (t :: P).length + k' := ⟨k - (t :: P).length, by omega⟩
          rw [hR'] at hk
          by_cases hi' : i < (t :: P).length
          · rw [hPall i hi'] at hi
            have hut : t = u := by simpa using hi
            exact absurd (by rw [hut]; exact List.mem_of_getElem? hk) h1
          · obtain ⟨i, rfl⟩ : ∃ k', i = (t :: P).length + k' := ⟨i - (t :: P).length, by omega⟩
            obtain ⟨j, rfl⟩ : ∃ k', j = (t :: P).length + k' := ⟨j - (t :: P).length, by omega⟩
            rw [hR'] at hi ⊢
            exact h2 i j k u (by omega) (by omega) hi hk
      · intro h
        constructor
        · intro ht
          obtain ⟨k, hk⟩ := List.mem_iff_getElem?.mp ht
          cases hRc : R with
          | nil => rw [hRc] at hk; simp at hk
          | cons a R' =>
            have ha : a ≠ t := by
              intro e
              have := List.head?_dropWhile_not (fun u => decide (u = t)) ts
              rw [← hR, hRc] at this
              simp [e] at this
            have h0 : R[0]? = some a := by rw [hRc]; rfl
            cases k with
            | zero => rw [h0] at hk; simp at hk; exact ha hk
            | succ k =>
              have := h 0 ((t :: P).length + 0) ((t :: P).length + (k + 1)) t (by simp) (by omega) rfl (by rw [hR']; exact hk)
              rw [hR', h0] at this
              simp at this; exact ha this
        · intro i j k u hij hjk hi hk
          have := h ((t :: P).length + i) ((t :: P).length + j) ((t :: P).length + k) u (by omega) (by omega) (by rw [hR']; exact hi) (by rw [hR']; exact hk)
          rw [hR'] at this; exact this

/-! ## The loop over the runs -/

/-- `ts` are the types of the cells of the mesh -/
def HasTypes (conn connI ts : List Int) : Prop := connI.length - 1 = ts.length ∧ 0 < connI.length ∧ ∀ (i : Nat) (hi : i < ts.length), typeAt conn connI i = .ok ts[i]

theorem IsMesh.hasTypes {conn connI : List Int} {cells : List Cell} (h : IsMesh conn connI cells) : HasTypes conn connI (cells.map Cell.type) := by
  have hl := h.length
  refine ⟨by simp; omega, by omega, fun i hi => ?_⟩
  simp only [List.length_map] at hi
  obtain ⟨a, b, h0, h1, h2, h3, h4, h5, h6, -⟩ := h.get hi
  unfold typeAt
  rw [h3, ok_bind, h5]
  simp

theorem findCell_ok {conn connI ts : List Int} (h : HasTypes conn connI ts) (p : Int → Bool) {pos : Nat} (hp : pos ≤ ts.length) :
    findCell conn connI p pos = .ok (pos + ((ts.drop pos).takeWhile fun u => !p u).length) := by
  unfold findCell
  rw [if_pos (by rw [h.1]; exact hp), h.1]
  have key : ∀ k pos, pos + k = ts.length → findCellLoop conn connI p k pos = .ok (pos + ((ts.drop pos).takeWhile fun u => !p u).length) := by
    intro k
    induction k with
    | zero => intro pos hp; rw [List.drop_eq_nil_of_le (by omega)]; rfl
    | succ k ih =>
      intro pos hp
      rw [findCellLoop, h.2.2 pos (by omega), ok_bind, List.drop_eq_getElem_cons (by omega)]
      by_cases hc : p ts[pos] = true
      · rw [if_pos hc, List.takeWhile_cons_of_neg (by simp [hc])]; rfl
      · rw [if_neg hc, ih _ (by omega), List.takeWhile_cons_of_pos (by simp [hc])]
        simp only [List.length_cons]
        congr 1
        omega
  exact key _ _ (by omega)

/-- the loop over the runs, on the runs themselves -/
def foldRuns {σ : Type} (f : σ → Int → Nat → Nat → M (σ × Bool)) : List (Int × Nat) → Nat → σ → M σ
  | [], _, s => .ok s
  | (t, n) :: rs, pos, s => do
    let r ← f s t pos (pos + n)
    if r.2 then .ok r.1 else foldRuns f rs (pos + n) r.1

theorem forRuns_go {σ : Type} {conn connI ts : List Int} (h : HasTypes conn connI ts) (f : σ → Int → Nat → Nat → M (σ × Bool)) :
    ∀ (fuel pos : Nat) (s : σ), pos ≤ ts.length → ts.length - pos < fuel → forRuns conn connI f fuel pos s = foldRuns f (runs (ts.drop pos)) pos s := by
  intro fuel
  induction fuel with
  | zero => intro pos s h1 h2; omega
  | succ fuel ih =>
    intro pos s h1 h2
    rw [forRuns, h.1]
    by_cases hp : pos = ts.length
    · rw [if_pos hp, List.drop_eq_nil_of_le (by omega)]; rfl
    · have hlt : pos < ts.length := by omega
      rw [if_neg hp, h.2.2 pos hlt, ok_bind, findCell_ok h _ (by omega), ok_bind, List.drop_eq_getElem_cons hlt, runs_cons, foldRuns]
      have hpred : (fun u => !decide (u ≠ ts[pos])) = fun u => decide (u = ts[pos]) := by funext u; simp
      rw [hpred]
      set P := ((ts.drop (pos + 1)).takeWhile fun u => decide (u = ts[pos])) with hP
      have e : pos + 1 + P.length = pos + (P.length + 1) := by omega
      rw [e]
      congr 1
      funext r
      by_cases hr : r.2 = true
      · rw [if_pos hr, if_pos hr]
      · rw [if_neg hr, if_neg hr]
        have hsplit := List.takeWhile_append_dropWhile (p := fun u => decide (u = ts[pos])) (l := ts.drop (pos + 1))
        have hdrop : ts.drop (pos + (P.length + 1)) = (ts.drop (pos + 1)).dropWhile fun u => decide (u = ts[pos]) := by
          have e2 : pos + (P.length + 1) = pos + 1 + P.length := by omega
          rw [e2, ← List.drop_drop]
          conv_lhs => rw [← hsplit]
          rw [← hP, List.drop_left]
        have hPl : P.length ≤ (ts.drop (pos + 1)).length := by
          have := congrArg List.length hsplit; simp only [List.length_append] at this; rw [← hP] at this; omega
        rw [List.length_drop] at hPl
        rw [ih _ _ (by omega) (by omega), hdrop]

theorem forRuns_eq {σ : Type} {conn connI ts : List Int} (h : HasTypes conn connI ts) (f : σ → Int → Nat → Nat → M (σ × Bool)) (s : σ) :
    forRuns conn connI f connI.length 0 s = foldRuns f (runs ts) 0 s := by
  rw [forRuns_go h f _ _ _ (by omega) (by have := h.1; have := h.2.1; omega), List.drop_zero]

/-! ## C71 -/

/-- the array of `getDistributionOfTypes` after the runs `G` -/
theorem distr_fold (geo : List Int) (G : List (Int × Nat)) (pos : Nat) (done : List (Int × Nat))
    (hd : (done.map Prod.fst).Nodup) (hg : ∀ g ∈ done ++ G, g.1 ∈ geo) :
    wp (foldRuns (fun (s : List Int × List Int × Nat) t a b =>
      if t ∈ s.2.1 then throwX
      else do
        let ret ← wr s.1 (3 * s.2.2) t
        let ret ← wr ret (3 * s.2.2 + 1) ((b : Int) - a)
        .ok ((ret, setInsert s.2.1 t, s.2.2 + 1), false)) G pos
      ((done.flatMap fun g => [g.1, (g.2 : Int), -1]) ++ List.replicate (3 * (geo.length - done.length)) (-1), setInsertAll [] (done.map Prod.fst), done.length))
      (fun s => ((done ++ G).map Prod.fst).Nodup ∧ s.1 = ((done ++ G).flatMap fun g => [g.1, (g.2 : Int), -1]) ++ List.replicate (3 * (geo.length - (done ++ G).length)) (-1))
      (¬ ((done ++ G).map Prod.fst).Nodup) := by
  induction G generalizing done pos with
  | nil => rw [foldRuns]; simp only [List.append_nil]; exact ⟨hd, rfl⟩
  | cons g G ih =>
    obtain ⟨t, n⟩ := g
    rw [foldRuns]
    have hmem : t ∈ setInsertAll [] (done.map Prod.fst) ↔ t ∈ done.map Prod.fst := by rw [mem_setInsertAll]; simp
    by_cases ht : t ∈ done.map Prod.fst
    · simp only
      rw [if_pos (hmem.mpr ht)]
      change ¬ _
      intro hn
      rw [List.map_append, List.map_cons, List.nodup_append] at hn
      exact hn.2.2 t ht t List.mem_cons_self rfl
    · simp only
      rw [if_neg (fun h => ht (hmem.mp h))]
      have hd' : ((done ++ [(t, n)]).map Prod.fst).Nodup := by
        rw [List.map_append, List.nodup_append]
        exact ⟨hd, by simp, fun x hx y hy e => ht (by have e' : x = t := e.trans (List.mem_singleton.mp hy); rw [← e']; exact hx)⟩
      have hlen : done.length < geo.length := by
        have hs : ((done ++ [(t, n)]).map Prod.fst) ⊆ geo := by
          intro x hx
          obtain ⟨g, hg', rfl⟩ := List.mem_map.mp hx
          apply hg
          rcases List.mem_append.mp hg' with h | h
          · exact List.mem_append_left _ h
          · exact List.mem_append_right _ (by simp at h; subst h; simp)
        have := (hd'.subperm hs).length_le
        simp at this; omega
      have e3 : 3 * (geo.length - done.length) = 3 * (geo.length - (done.length + 1)) + 3 := by omega
      have hfl : (done.flatMap fun g => [g.1, (g.2 : Int), -1]).length = 3 * done.length := by
        simp [List.length_flatMap, Nat.mul_comm]
      rw [e3, List.replicate_succ, List.replicate_succ, List.replicate_succ]
      generalize hB : List.replicate (3 * (geo.length - (done.length + 1))) (-1 : Int) = B at *
      generalize hA : (done.flatMap fun g => [g.1, (g.2 : Int), -1]) = A at *
      have w1 : wr (A ++ (-1 : Int) :: -1 :: -1 :: B) (3 * (done.length : Int)) t = .ok (A ++ t :: -1 :: -1 :: B) := by
        rw [wr_ok (by omega) (by simp; omega)]
        have e : (3 * (done.length : Int)).toNat = A.length := by omega
        rw [e]; simp
      have w2 : wr (A ++ t :: (-1 : Int) :: -1 :: B) (3 * (done.length : Int) + 1) ((pos + n : Nat) - (pos : Int)) = .ok (A ++ t :: (n : Int) :: -1 :: B) := by
        rw [wr_ok (by omega) (by simp; omega)]
        have e : (3 * (done.length : Int) + 1).toNat = A.length + 1 := by omega
        rw [e]; simp
      rw [w1, ok_bind, w2, ok_bind, ok_bind, if_neg (by simp)]
      have := ih (pos + n) (done ++ [(t, n)]) hd' (by simpa using hg)
      have eA : ((done ++ [(t, n)]).flatMap fun g => [g.1, (g.2 : Int), -1]) = A ++ [t, (n : Int), -1] := by
        rw [List.flatMap_append, hA]; rfl
      rw [eA, List.length_append, List.length_singleton, hB, List.map_append, List.append_assoc] at this
      have eS : setInsertAll [] (done.map Prod.fst ++ [t]) = setInsert (setInsertAll [] (done.map Prod.fst)) t := by
        rw [setInsertAll, List.foldl_append]; rfl
      simp only [List.map_cons, List.map_nil] at this
      rw [eS] at this
      simpa using this

/-- **C71.** `getDistributionOfTypes()` of a mesh sorted by type is, for each type in the order of the cells, the type, its number of
cells and -1; it throws on any other mesh. -/
theorem C71_distribution {conn connI : List Int} {cells : List Cell} (h : IsMesh conn connI cells) {geoTypes : List Int}
    (hn : geoTypes.Nodup) (hg : ∀ t, t ∈ geoTypes ↔ ∃ c ∈ cells, c.type = t) :
    (∀ T, SortedByType (cells.map Cell.type) T → getDistributionOfTypes geoTypes conn connI =
      .ok (T.flatMap fun t => [t, ((cells.countP fun c => c.type = t : Nat) : Int), -1])) ∧
    (¬ Contiguous (cells.map Cell.type) → getDistributionOfTypes geoTypes conn connI = .error .exn) := by
  set ts := cells.map Cell.type with hts
  have hg' : ∀ t, t ∈ geoTypes ↔ t ∈ ts := fun t => by rw [hg]; simp [hts]
  have main := distr_fold geoTypes (runs ts) 0 [] (by simp) (by
    intro g hm
    rw [hg', ← mem_runs_types]
    exact List.mem_map_of_mem (by simpa using hm))
  simp only [List.nil_append, List.flatMap_nil, List.length_nil, Nat.sub_zero, List.map_nil] at main
  unfold getDistributionOfTypes
  rw [forRuns_eq h.hasTypes]
  constructor
  · intro T hT
    obtain ⟨s, e1, e2, e3⟩ := wp_exists (wp_mono main (fun _ h => h) fun hf => hf ((sortedByType_iff ts).mp ⟨T, hT⟩))
    have hz : setInsertAll ([] : List Int) [] = [] := rfl
    rw [hz] at e1
    rw [e1, ok_bind, e3]
    have hl : geoTypes.length = (runs ts).length := by
      have : geoTypes.Perm T := (List.perm_ext_iff_of_nodup hn hT.1).mpr fun t => by rw [hg', hT.mem_iff]
      rw [this.length_eq, hT.runs_eq, List.length_map]
    rw [hl, Nat.sub_self, hT.runs_eq, List.flatMap_map]
    simp only [Nat.mul_zero, List.replicate_zero, List.append_nil]
    congr 1
    apply List.flatMap_congr
    intro t _
    have : ts.count t = cells.countP fun c => decide (c.type = t) := by
      rw [hts, List.count, List.countP_map]
      congr 1
    rw [this]
  · intro hc
    have := wp_throws (wp_mono main (fun s hs => hc ((sortedByType_iff_contiguous ts).mp ((sortedByType_iff ts).mpr hs.1))) fun _ => trivial)
    have hz : setInsertAll ([] : List Int) [] = [] := rfl
    rw [hz] at this
    rw [this]; rfl

example : IsMesh [3, 0, 1, 2, 3, 1, 2, 3, 4, 0, 1, 2, 3] [0, 4, 8, 13] [⟨3, [0, 1, 2]⟩, ⟨3, [1, 2, 3]⟩, ⟨4, [0, 1, 2, 3]⟩] ∧
    SortedByType [3, 3, 4] [3, 4] ∧
    getDistributionOfTypes [3, 4] [3, 0, 1, 2, 3, 1, 2, 3, 4, 0, 1, 2, 3] [0, 4, 8, 13] = .ok [3, 2, -1, 4, 1, -1] ∧
    getDistributionOfTypes [3, 4] [3, 0, 1, 2, 4, 0, 1, 2, 3, 3, 1, 2, 3] [0, 4, 9, 13] = .error .exn :=
  ⟨by decide, ⟨by decide, by decide, by decide⟩, by decide, by decide⟩

/-- **C71.** `checkConsecutiveCellTypes()` says whether the cells of each type are consecutive. -/
theorem C71_consecutive {conn connI : List Int} {cells : List Cell} (h : IsMesh conn connI cells) :
    ∃ r, checkConsecutiveCellTypes conn connI = .ok r ∧ (r = true ↔ Contiguous (cells.map Cell.type)) := by
  unfold checkConsecutiveCellTypes
  rw [forRuns_eq h.hasTypes, ← sortedByType_iff_contiguous, sortedByType_iff]
  have key : ∀ (G : List (Int × Nat)) (pos : Nat) (seen : List Int), ∃ s : List Int × Bool,
      foldRuns (fun (s : List Int × Bool) t _ _ =>
        .ok (if t ∈ s.1 then ((s.1, false), true) else ((setInsert s.1 t, true), false))) G pos (seen, true) = .ok s ∧
      (s.2 = true ↔ (G.map Prod.fst).Nodup ∧ ∀ g ∈ G, g.1 ∉ seen) := by
    intro G
    induction G with
    | nil => intro pos seen; exact ⟨_, rfl, by simp⟩
    | cons g G ih =>
      intro pos seen
      obtain ⟨t, n⟩ := g
      rw [foldRuns, ok_bind]
      by_cases ht : t ∈ seen
      · simp only
        rw [if_pos ht]
        exact ⟨_, rfl, by simp [ht]⟩
      · simp only
        rw [if_neg ht, if_neg (by simp)]
        obtain ⟨s, e1, e2⟩ := ih (pos + n) (setInsert seen t)
        refine ⟨s, e1, e2.trans ?_⟩
        rw [List.map_cons, List.nodup_cons]
        simp only [mem_setInsert, not_or, List.mem_cons, forall_eq_or_imp]
        constructor
        · rintro ⟨a, b⟩
          exact ⟨⟨fun hm => by obtain ⟨g, hg, e⟩ := List.mem_map.mp hm; exact (b g hg).1 e, a⟩, ht, fun g hg => (b g hg).2⟩
        · rintro ⟨⟨a, b⟩, c, d⟩
          exact ⟨b, fun g hg => ⟨fun e => a (by rw [← e]; exact List.mem_map_of_mem hg), d g hg⟩⟩
  obtain ⟨s, e1, e2⟩ := key (runs (cells.map Cell.type)) 0 []
  rw [e1]
  exact ⟨s.2, rfl, e2.trans (by simp)⟩

/-- **C71.** `checkConsecutiveCellTypesAndOrder(order)` says whether the cells of each type are consecutive and the types which are in
`order` come in this order. -/
theorem C71_order {conn connI : List Int} {cells : List Cell} (h : IsMesh conn connI cells) (order : List Int) :
    ∃ r, checkConsecutiveCellTypesAndOrder order conn connI = .ok r ∧
      (r = true ↔ ∃ T, SortedByType (cells.map Cell.type) T ∧ (T.filter fun t => decide (t ∈ order)).Pairwise fun t u => order.idxOf t < order.idxOf u) := by
  have hl := h.length
  unfold checkConsecutiveCellTypesAndOrder
  by_cases h0 : connI.length - 1 = 0
  · rw [if_pos h0]
    have : cells = [] := List.length_eq_zero_iff.mp (by omega)
    subst this
    exact ⟨true, rfl, by simp only [true_iff]; exact ⟨[], ⟨by simp, by simp, by simp⟩, by simp⟩⟩
  rw [if_neg h0, forRuns_eq h.hasTypes]
  have key : ∀ (G : List (Int × Nat)) (pos : Nat) (last : Int) (seen : List Int), ∃ s : Int × List Int × Bool,
      foldRuns (fun (s : Int × List Int × Bool) t _ _ =>
        .ok (if order.idxOf t ≠ order.length then
          (if (order.idxOf t : Int) ≤ s.1 then ((s.1, s.2.1, false), true) else (((order.idxOf t : Int), s.2.1, true), false))
        else (if t ∈ s.2.1 then ((s.1, s.2.1, false), true) else ((s.1, setInsert s.2.1 t, true), false)))) G pos (last, seen, true) = .ok s ∧
      (s.2.2 = true ↔ (G.map Prod.fst).Nodup ∧ ((G.map Prod.fst).filter fun t => decide (t ∈ order)).Pairwise (fun t u => order.idxOf t < order.idxOf u) ∧
        (∀ g ∈ G, g.1 ∈ order → last < order.idxOf g.1) ∧ ∀ g ∈ G, g.1 ∉ order → g.1 ∉ seen) := by
    intro G
    induction G with
    | nil => intro pos last seen; exact ⟨_, rfl, by simp⟩
    | cons g G ih =>
      intro pos last seen
      obtain ⟨t, n⟩ := g
      rw [foldRuns, ok_bind]
      have hin : order.idxOf t ≠ order.length ↔ t ∈ order := by
        constructor
        · intro hne; by_contra hno; exact hne (List.idxOf_eq_length hno)
        · intro hm; have := List.idxOf_lt_length_iff.mpr hm; omega
      by_cases ht : t ∈ order
      · simp only
        rw [if_pos (hin.mpr ht)]
        by_cases hle : (order.idxOf t : Int) ≤ last
        · rw [if_pos hle]
          refine ⟨_, rfl, ?_⟩
          constructor
          · intro hf; cases hf
          · rintro ⟨-, -, hf, -⟩
            have := hf (t, n) List.mem_cons_self ht
            simp only at this
            omega
        · rw [if_neg hle, if_neg (by simp)]
          obtain ⟨s, e1, e2⟩ := ih (pos + n) (order.idxOf t) seen
          refine ⟨s, e1, e2.trans ?_⟩
          rw [List.map_cons, List.nodup_cons, List.filter_cons, if_pos (by simpa using ht), List.pairwise_cons]
          simp only
          constructor
          · rintro ⟨a, b, c, d⟩
            refine ⟨⟨fun hm => ?_, a⟩, ⟨fun u hu => ?_, b⟩, fun g hg ho => ?_, fun g hg ho => ?_⟩
            · obtain ⟨g, hg, e⟩ := List.mem_map.mp hm
              have := c g hg (by rw [e]; exact ht)
              rw [e] at this; omega
            · obtain ⟨hu1, hu2⟩ := List.mem_filter.mp hu
              obtain ⟨g, hg, e⟩ := List.mem_map.mp hu1
              have hu2 : u ∈ order := by simpa using hu2
              have := c g hg (by rw [e]; exact hu2)
              rw [e] at this; omega
            · rcases List.mem_cons.mp hg with rfl | hg
              · simp only; omega
              · have := c g hg ho; omega
            · rcases List.mem_cons.mp hg with rfl | hg
              · exact absurd ht ho
              · exact d g hg ho
          · rintro ⟨⟨a1, a2⟩, ⟨b1, b2⟩, c, d⟩
            refine ⟨a2, b2, fun g hg ho => ?_, fun g hg ho => d g (List.mem_cons_of_mem _ hg) ho⟩
            have := b1 g.1 (List.mem_filter.mpr ⟨List.mem_map_of_mem hg, by simpa using ho⟩)
            omega
      · simp only
        rw [if_neg (fun hh => ht (hin.mp hh))]
        by_cases hs : t ∈ seen
        · rw [if_pos hs]
          refine ⟨_, rfl, ?_⟩
          constructor
          · intro hf; cases hf
          · rintro ⟨-, -, -, hf⟩
            exact absurd hs (hf (t, n) List.mem_cons_self ht)
        · rw [if_neg hs, if_neg (by simp)]
          obtain ⟨s, e1, e2⟩ := ih (pos + n) last (setInsert seen t)
          refine ⟨s, e1, e2.trans ?_⟩
          rw [List.map_cons, List.nodup_cons, List.filter_cons, if_neg (by simpa using ht)]
          constructor
          · rintro ⟨a, b, c, d⟩
            refine ⟨⟨fun hm => ?_, a⟩, b, fun g hg ho => ?_, fun g hg ho => ?_⟩
            · obtain ⟨g, hg, e⟩ := List.mem_map.mp hm
              exact d g hg (by rw [e]; exact ht) (by rw [e, mem_setInsert]; exact Or.inl rfl)
            · rcases List.mem_cons.mp hg with rfl | hg
              · exact absurd ho ht
              · exact c g hg ho
            · rcases List.mem_cons.mp hg with rfl | hg
              · exact hs
              · exact fun hm => d g hg ho (by rw [mem_setInsert]; exact Or.inr hm)
          · rintro ⟨⟨a1, a2⟩, b, c, d⟩
            refine ⟨a2, b, fun g hg ho => c g (List.mem_cons_of_mem _ hg) ho, fun g hg ho hm => ?_⟩
            rw [mem_setInsert] at hm
            rcases hm with e | hm
            · exact a1 (by simp only; rw [← e]; exact List.mem_map_of_mem hg)
            · exact d g (List.mem_cons_of_mem _ hg) ho hm
  obtain ⟨s, e1, e2⟩ := key (runs (cells.map Cell.type)) 0 (-1) []
  rw [e1]
  refine ⟨s.2.2, rfl, e2.trans ?_⟩
  constructor
  · rintro ⟨a, b, -, -⟩
    exact ⟨_, sortedByType_of_runs a, b⟩
  · rintro ⟨T, hT, b⟩
    rw [hT.types_eq]
    exact ⟨hT.1, b, fun g _ _ => by omega, by simp⟩

example : checkConsecutiveCellTypes [3, 0, 1, 2, 4, 0, 1, 2, 3, 3, 1, 2, 3] [0, 4, 9, 13] = .ok false ∧
    checkConsecutiveCellTypesAndOrder [3, 4] [4, 0, 1, 2, 3, 3, 0, 1, 2, 3, 1, 2, 3] [0, 5, 9, 13] = .ok false ∧
    checkConsecutiveCellTypesAndOrder [4, 3] [4, 0, 1, 2, 3, 3, 0, 1, 2, 3, 1, 2, 3] [0, 5, 9, 13] = .ok true ∧
    checkConsecutiveCellTypesAndOrder [5, 3] [4, 0, 1, 2, 3, 3, 0, 1, 2, 3, 1, 2, 3] [0, 5, 9, 13] = .ok true ∧
    checkConsecutiveCellTypesForMEDFileFrmt [4, 0, 1, 2, 3, 3, 0, 1, 2, 3, 1, 2, 3] [0, 5, 9, 13] = .ok false := by decide

end
end MC
