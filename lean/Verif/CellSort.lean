import Verif.CellTypesRuns
import Verif.PermsProps

/-!
# C72: sorting the cells by type
-/

namespace MC
section

/-! ## Levels -/

/-- **C72.** `getLevArrPerCellTypes(order)` gives the place in `order` of the type of each cell and the number of cells for each place;
it throws exactly when a cell has a type which is not in `order`. -/
theorem C72_levels {conn connI : List Int} {cells : List Cell} (h : IsMesh conn connI cells) (order : List Int) :
    ((∀ c ∈ cells, c.type ∈ order) → ∃ nb : List Int, getLevArrPerCellTypes order conn connI =
      .ok (cells.map fun c => some (order.idxOf c.type : Int), nb) ∧ nb.length = order.length ∧
      ∀ k : Nat, k < order.length → nb[k]? = some ((cells.countP fun c => order.idxOf c.type = k : Nat) : Int)) ∧
    ((∃ c ∈ cells, c.type ∉ order) → getLevArrPerCellTypes order conn connI = .error .exn) := by
  have hT := h.hasTypes
  have hn : connI.length - 1 = cells.length := by have := hT.1; simpa using this
  have hidx : ∀ t, order.idxOf t ≠ order.length ↔ t ∈ order := by
    intro t
    constructor
    · intro hne; by_contra hno; exact hne (List.idxOf_eq_length hno)
    · intro hm; have := List.idxOf_lt_length_iff.mpr hm; omega
  have main : ∀ E : Prop, ((∃ c ∈ cells, c.type ∉ order) → E) → wp (getLevArrPerCellTypes order conn connI)
      (fun s => (∀ c ∈ cells, c.type ∈ order) ∧ s.1 = (cells.map fun c => some (order.idxOf c.type : Int)) ∧ s.2.length = order.length ∧
        ∀ k : Nat, k < order.length → s.2[k]? = some ((cells.countP fun c => order.idxOf c.type = k : Nat) : Int)) E := by
    intro E hE
    unfold getLevArrPerCellTypes
    rw [hn]
    refine wp_mono (wp_loop (fun k (s : List (Option Int) × List Int) => (∀ c ∈ cells.take k, c.type ∈ order) ∧
      s.1 = ((cells.take k).map fun c => some (order.idxOf c.type : Int)) ++ List.replicate (cells.length - k) none ∧ s.2.length = order.length ∧
        ∀ j : Nat, j < order.length → s.2[j]? = some (((cells.take k).countP fun c => order.idxOf c.type = j : Nat) : Int)) ?_ ?_) ?_ id
    · refine ⟨by simp, by simp [mallocN], by simp, fun j hj => ?_⟩
      simp [hj]
    · rintro i hi ⟨lev, nb⟩ ⟨h1, h2, h3, h4⟩
      simp only at h2 h3 h4
      rw [hT.2.2 i (by simpa using hi), ok_bind]
      simp only [List.getElem_map]
      by_cases ht : cells[i].type ∈ order
      · rw [if_pos ((hidx _).mpr ht)]
        have hlt := List.idxOf_lt_length_iff.mpr ht
        have hget := h4 _ hlt
        rw [rd_of_getElem? (by omega) (by simpa using hget), ok_bind, wr_natCast (by omega), ok_bind, h2]
        have hsplit : List.replicate (cells.length - i) (none : Option Int) = none :: List.replicate (cells.length - (i + 1)) none := by
          rw [← List.replicate_succ]; congr 1; omega
        rw [hsplit, wr_natCast (by simp; omega), ok_bind]
        have htk : cells.take (i + 1) = cells.take i ++ [cells[i]] := by simp
        refine ⟨?_, ?_, by simpa using h3, ?_⟩
        · rw [htk]
          intro c hc
          rcases List.mem_append.mp hc with hc | hc
          · exact h1 c hc
          · rw [List.mem_singleton.mp hc]; exact ht
        · rw [htk, List.map_append]
          simp only
          rw [List.set_append_right _ _ (by simp)]
          have : i - (List.map (fun c : Cell => some (order.idxOf c.type : Int)) (cells.take i)).length = 0 := by simp; omega
          rw [this]
          simp
        · intro j hj
          rw [htk, List.countP_append]
          simp only
          rw [List.getElem?_set]
          by_cases hjt : order.idxOf cells[i].type = j
          · rw [if_pos hjt, if_pos (by omega)]
            simp [hjt]
          · rw [if_neg hjt, h4 j hj]
            simp [hjt]
      · rw [if_neg (fun hh => ht ((hidx _).mp hh))]
        exact hE ⟨cells[i], List.getElem_mem _, ht⟩
    · rintro ⟨lev, nb⟩ ⟨h1, h2, h3, h4⟩
      rw [List.take_length] at h1 h2 h4
      exact ⟨h1, by simpa using h2, h3, h4⟩
  constructor
  · intro hall
    obtain ⟨s, e, -, e1, e2, e3⟩ := wp_exists (main False fun ⟨c, hc, h'⟩ => h' (hall c hc))
    exact ⟨s.2, by rw [e, ← e1], e2, e3⟩
  · rintro ⟨c, hc, hno⟩
    exact wp_throws (wp_mono (main True fun _ => trivial) (fun s hs => hno (hs.1 c hc)) id)

/-! ## Sort -/

theorem sublist_blocks {T : List Int} {c : Int → Nat} (hc : ∀ t ∈ T, 0 < c t) : T.Sublist (T.flatMap fun t => List.replicate (c t) t) := by
  induction T with
  | nil => exact List.Sublist.slnil
  | cons t T ih =>
    rw [List.flatMap_cons]
    have : [t].Sublist (List.replicate (c t) t) := by
      rw [List.singleton_sublist]
      exact List.mem_replicate.mpr ⟨by have := hc t List.mem_cons_self; omega, rfl⟩
    exact List.Sublist.append this (ih fun u hu => hc u (List.mem_cons_of_mem _ hu))

theorem SortedByType.sublist {ts T : List Int} (h : SortedByType ts T) : T.Sublist ts := by
  conv => rhs; rw [h.2.2]
  exact sublist_blocks fun t ht => List.count_pos_iff.mpr (h.2.1 t ht)

/-- types in increasing place of an order are one block each, in this order -/
theorem sorted_of_ranks {ts order : List Int} (hin : ∀ t ∈ ts, t ∈ order) (hs : ts.Pairwise fun t u => order.idxOf t ≤ order.idxOf u) :
    ∃ T, SortedByType ts T ∧ T.Pairwise fun t u => order.idxOf t < order.idxOf u := by
  have hc : Contiguous ts := by
    intro i j k t hij hjk hi hk
    obtain ⟨hi', ei⟩ := List.getElem?_eq_some_iff.mp hi
    obtain ⟨hk', ek⟩ := List.getElem?_eq_some_iff.mp hk
    rw [List.pairwise_iff_getElem] at hs
    have h1 := hs i j hi' (by omega) hij
    have h2 := hs j k (by omega) hk' hjk
    rw [ei] at h1; rw [ek] at h2
    have : order.idxOf ts[j] = order.idxOf t := by omega
    rw [List.getElem?_eq_getElem (by omega), (List.idxOf_inj (hin _ (List.getElem_mem _))).mp this]
  obtain ⟨T, hT⟩ := (sortedByType_iff_contiguous ts).mpr hc
  refine ⟨T, hT, ?_⟩
  have h1 := hs.sublist hT.sublist
  have h2 := hT.1
  refine (h1.and h2).imp_of_mem ?_
  rintro a b ha hb ⟨h3, h4⟩
  rcases Nat.lt_or_ge (order.idxOf a) (order.idxOf b) with h5 | h5
  · exact h5
  · exact absurd ((List.idxOf_inj (hin a (hT.mem_iff.mp ha))).mp (by omega)) h4

/-- **C72.** `getRenumArrForConsecutiveCellTypesSpec(order)` is a permutation which keeps the order of the cells of the same type; the
mesh renumbered with it has its cells sorted by the place of their type in `order`, so that `checkConsecutiveCellTypesAndOrder(order)`
answers true.  It throws exactly when a cell has a type which is not in `order`. -/
theorem C72_renum_array {conn connI : List Int} {cells : List Cell} (h : IsMesh conn connI cells) (order : List Int) :
    ((∀ c ∈ cells, c.type ∈ order) → ∃ (o2n conn' connI' : List Int) (cells' : List Cell),
      getRenumArrForConsecutiveCellTypesSpec order conn connI = .ok o2n ∧ IsPermArr cells.length o2n ∧
      renumberCells conn connI o2n false = .ok (conn'.map some, connI'.map some) ∧ IsMesh conn' connI' cells' ∧
      (∀ i j : Nat, o2n[i]? = some (j : Int) → cells'[j]? = cells[i]?) ∧
      (cells'.map Cell.type).Pairwise (fun t u => order.idxOf t ≤ order.idxOf u) ∧
      checkConsecutiveCellTypesAndOrder order conn' connI' = .ok true ∧
      ∀ (i j : Nat) (c d : Cell) (p q : Int), i < j → cells[i]? = some c → cells[j]? = some d → c.type = d.type →
        o2n[i]? = some p → o2n[j]? = some q → p < q) ∧
    ((∃ c ∈ cells, c.type ∉ order) → getRenumArrForConsecutiveCellTypesSpec order conn connI = .error .exn) := by
  unfold getRenumArrForConsecutiveCellTypesSpec
  constructor
  · intro hin
    obtain ⟨nb, e1, -, -⟩ := (C72_levels h order).1 hin
    set lev : List Int := cells.map fun c => (order.idxOf c.type : Int) with hlev
    have e2 : (cells.map fun c => some (order.idxOf c.type : Int)) = lev.map some := by simp [hlev]
    rw [e1, ok_bind]
    simp only
    rw [e2, initialised_map_some, ok_bind]
    obtain ⟨p1, p2⟩ := C10_perm_per_level lev
    have hll : lev.length = cells.length := by simp [hlev]
    rw [hll] at p1
    obtain ⟨conn', connI', cells', r1, r2, r3, r4⟩ := C56_renumberCells h _ p1
    set o2n := buildPermArrPerLevel lev with ho
    have hlv : ∀ (i : Nat) (c : Cell), cells[i]? = some c → lev[i]? = some (order.idxOf c.type : Int) := by
      intro i c hc; rw [hlev, List.getElem?_map, hc]; rfl
    -- the cell at a place of the new mesh
    have hinv : ∀ j : Nat, j < cells.length → ∃ i : Nat, i < cells.length ∧ o2n[i]? = some (j : Int) := by
      intro j hj
      have := (p1.perm_range.mem_iff (a := (j : Int))).mpr (List.mem_map.mpr ⟨j, List.mem_range.mpr hj, rfl⟩)
      obtain ⟨i, hi⟩ := List.mem_iff_getElem?.mp this
      exact ⟨i, by have := (List.getElem?_eq_some_iff.mp hi).1; rw [p1.1] at this; exact this, hi⟩
    have hpw : (cells'.map Cell.type).Pairwise (fun t u => order.idxOf t ≤ order.idxOf u) := by
      rw [List.pairwise_iff_getElem]
      intro j k hj hk hjk
      simp only [List.length_map] at hj hk
      obtain ⟨i1, hi1, ei1⟩ := hinv j (by omega)
      obtain ⟨i2, hi2, ei2⟩ := hinv k (by omega)
      have g1 := r4 i1 j ei1
      have g2 := r4 i2 k ei2
      rw [List.getElem?_eq_getElem hj, List.getElem?_eq_getElem hi1, Option.some.injEq] at g1
      rw [List.getElem?_eq_getElem hk, List.getElem?_eq_getElem hi2, Option.some.injEq] at g2
      simp only [List.getElem_map, g1, g2]
      by_contra hlt
      have := p2 i2 i1 _ _ _ _ (hlv i2 _ (List.getElem?_eq_getElem hi2)) (hlv i1 _ (List.getElem?_eq_getElem hi1)) ei2 ei1
        (Or.inl (by omega))
      omega
    have hin' : ∀ t ∈ cells'.map Cell.type, t ∈ order := by
      intro t ht
      obtain ⟨c, hc, rfl⟩ := List.mem_map.mp ht
      obtain ⟨j, hj, rfl⟩ := List.getElem_of_mem hc
      obtain ⟨i1, hi1, ei1⟩ := hinv j (by omega)
      have g1 := r4 i1 j ei1
      rw [List.getElem?_eq_getElem hj, List.getElem?_eq_getElem hi1, Option.some.injEq] at g1
      rw [g1]; exact hin _ (List.getElem_mem _)
    obtain ⟨T, hT1, hT2⟩ := sorted_of_ranks hin' hpw
    obtain ⟨r, hr1, hr2⟩ := C71_order r2 order
    have hrt : r = true := hr2.mpr ⟨T, hT1, hT2.filter _⟩
    refine ⟨o2n, conn', connI', cells', rfl, p1, r1, r2, r4, hpw, by rw [hr1, hrt], ?_⟩
    intro i j c d p q hij hc hd htt hp hq
    exact p2 i j _ _ p q (hlv i c hc) (hlv j d hd) hp hq (Or.inr ⟨by rw [htt], hij⟩)
  · intro hno
    rw [(C72_levels h order).2 hno]; rfl

/-- **C72.** `sortCellsInMEDFileFrmt()`: the returned array is a permutation which keeps the order of the cells of the same type, the
cells of the mesh are moved with it, and `checkConsecutiveCellTypesForMEDFileFrmt()` answers true afterwards. -/
theorem C72_sort {conn connI : List Int} {cells : List Cell} (h : IsMesh conn connI cells) (ht : ∀ c ∈ cells, c.type ∈ medmemOrder) :
    ∃ (o2n conn' connI' : List Int) (cells' : List Cell), sortCellsInMEDFileFrmt conn connI = .ok (o2n, conn'.map some, connI'.map some) ∧
      IsPermArr cells.length o2n ∧ IsMesh conn' connI' cells' ∧ (∀ i j : Nat, o2n[i]? = some (j : Int) → cells'[j]? = cells[i]?) ∧
      checkConsecutiveCellTypesForMEDFileFrmt conn' connI' = .ok true ∧
      ∀ (i j : Nat) (c d : Cell) (p q : Int), i < j → cells[i]? = some c → cells[j]? = some d → c.type = d.type →
        o2n[i]? = some p → o2n[j]? = some q → p < q := by
  obtain ⟨o2n, conn', connI', cells', a1, a2, a3, a4, a5, -, a6, a7⟩ := (C72_renum_array h medmemOrder).1 ht
  refine ⟨o2n, conn', connI', cells', ?_, a2, a4, a5, a6, a7⟩
  unfold sortCellsInMEDFileFrmt
  rw [a1, ok_bind, a3]; rfl

set_option maxRecDepth 20000 in
example : IsMesh [4, 0, 1, 2, 3, 3, 0, 1, 2, 4, 4, 5, 6, 7, 3, 1, 2, 3] [0, 5, 9, 14, 18]
      [⟨4, [0, 1, 2, 3]⟩, ⟨3, [0, 1, 2]⟩, ⟨4, [4, 5, 6, 7]⟩, ⟨3, [1, 2, 3]⟩] ∧
    sortCellsInMEDFileFrmt [4, 0, 1, 2, 3, 3, 0, 1, 2, 4, 4, 5, 6, 7, 3, 1, 2, 3] [0, 5, 9, 14, 18] =
      .ok ([2, 0, 3, 1], [3, 0, 1, 2, 3, 1, 2, 3, 4, 0, 1, 2, 3, 4, 4, 5, 6, 7].map some, [0, 4, 8, 13, 18].map some) := by decide

/-- every geometric type of the library has a place in the order of MED files, except the one which stands for an error -/
theorem medmemOrder_complete : ∀ cm ∈ cellModels, cm.code ∈ medmemOrder ∨ cm.code = 40 := by decide

/-- **C72, finding.** A mesh which contains a cell of the type of an error cannot be sorted. -/
theorem C72_error_type (conn connI : List Int) (cells : List Cell) (h : IsMesh conn connI cells) (he : ∃ c ∈ cells, c.type = 40) :
    sortCellsInMEDFileFrmt conn connI = .error .exn := by
  unfold sortCellsInMEDFileFrmt
  obtain ⟨c, hc, e⟩ := he
  rw [(C72_renum_array h medmemOrder).2 ⟨c, hc, by rw [e]; decide⟩]; rfl

/-! ## Rearrangement -/

/-- The cells of the mesh begin with one block per type, in the order `T`. -/
def StartsSorted (ts T : List Int) : Prop := ∃ pre post, ts = pre ++ post ∧ SortedByType pre T ∧ ∀ t ∈ post, t ∈ T

theorem SortedByType.snoc {ts T : List Int} (h : SortedByType ts T) {t : Int} (ht : t ∉ T) {n : Nat} (hn : 0 < n) :
    SortedByType (ts ++ List.replicate n t) (T ++ [t]) := by
  have hnts : t ∉ ts := fun hm => ht (h.mem_iff.mpr hm)
  refine ⟨?_, ?_, ?_⟩
  · rw [List.nodup_append]
    exact ⟨h.1, by simp, fun x hx y hy e => ht (by rw [List.mem_singleton.mp hy] at e; rw [← e]; exact hx)⟩
  · intro u hu
    rcases List.mem_append.mp hu with hu | hu
    · exact List.mem_append_left _ (h.2.1 u hu)
    · rw [List.mem_singleton.mp hu]
      exact List.mem_append_right _ (List.mem_replicate.mpr ⟨by omega, rfl⟩)
  · rw [List.flatMap_append]
    congr 1
    · conv_lhs => rw [h.2.2]
      apply List.flatMap_congr
      intro u hu
      rw [List.count_append, List.count_replicate, if_neg (by simpa using fun e => ht (by rw [e]; exact hu))]
      simp
    · simp [List.count_append, List.count_eq_zero.mpr hnts]

/-- one turn of the loop on a new type -/
theorem findRun {conn connI ts : List Int} (h : HasTypes conn connI ts) {pos : Nat} (hp : pos < ts.length) :
    ∃ n, findCell conn connI (fun u => decide (u ≠ ts[pos])) (pos + 1) = .ok (pos + (n + 1)) ∧ pos + (n + 1) ≤ ts.length ∧
      ts.take (pos + (n + 1)) = ts.take pos ++ List.replicate (n + 1) ts[pos] ∧
      ∀ u, ts[pos + (n + 1)]? = some u → u ≠ ts[pos] := by
  rw [findCell_ok h _ (by omega)]
  have hpred : (fun u => !decide (u ≠ ts[pos])) = fun u => decide (u = ts[pos]) := by funext u; simp
  rw [hpred]
  set P := ((ts.drop (pos + 1)).takeWhile fun u => decide (u = ts[pos])) with hP
  have hsplit := List.takeWhile_append_dropWhile (p := fun u => decide (u = ts[pos])) (l := ts.drop (pos + 1))
  rw [← hP] at hsplit
  have hPr : P = List.replicate P.length ts[pos] := by
    rw [List.eq_replicate_iff]
    exact ⟨rfl, fun b hb => by have := List.mem_takeWhile_imp hb; simpa using this⟩
  have hlen : P.length ≤ ts.length - (pos + 1) := by
    have := congrArg List.length hsplit
    simp only [List.length_append, List.length_drop] at this; omega
  refine ⟨P.length, by congr 1; omega, by omega, ?_, ?_⟩
  · rw [List.take_add]
    congr 1
    rw [List.drop_eq_getElem_cons hp, List.take_succ_cons, List.replicate_succ]
    congr 1
    conv_lhs => rw [← hsplit]
    rw [List.take_left]; exact hPr
  · intro u hu
    have h1 : ts[pos + (P.length + 1)]? = (ts.drop (pos + 1))[P.length]? := by rw [List.getElem?_drop]; congr 1; omega
    rw [h1, ← hsplit, List.getElem?_append_right (Nat.le_refl _), Nat.sub_self] at hu
    have h2 := List.head?_dropWhile_not (fun u => decide (u = ts[pos])) (ts.drop (pos + 1))
    rw [List.head?_eq_getElem?, hu] at h2
    simpa using h2

theorem firstTypes_ok {conn connI ts : List Int} (h : HasTypes conn connI ts) {T pre post : List Int} (e : ts = pre ++ post)
    (hs : SortedByType pre T) (fuel : Nat) (hf : T.length < fuel) : firstTypes T.length conn connI fuel 0 [] = .ok T := by
  have key : ∀ (fuel : Nat) (T1 T2 : List Int) (pos : Nat), T = T1 ++ T2 → T2.length < fuel → (T2 ≠ [] → pos < ts.length ∧
      pre.drop pos = T2.flatMap (fun t => List.replicate (pre.count t) t)) → firstTypes T.length conn connI fuel pos T1 = .ok T := by
    intro fuel
    induction fuel with
    | zero => intro T1 T2 pos _ h2; omega
    | succ fuel ih =>
      intro T1 T2 pos h1 h2 h3
      rw [firstTypes, h.1]
      cases T2 with
      | nil => rw [if_neg (by simp [h1])]; rw [h1]; simp
      | cons t T2 =>
        obtain ⟨h4, h5⟩ := h3 (by simp)
        obtain ⟨m, hm⟩ : ∃ m, pre.count t = m + 1 := ⟨pre.count t - 1, by
          have := List.count_pos_iff.mpr (hs.2.1 t (by rw [h1]; simp)); omega⟩
        rw [List.flatMap_cons, hm] at h5
        have hpl : pos + (m + 1) + (T2.flatMap fun t => List.replicate (pre.count t) t).length = pre.length := by
          have := congrArg List.length h5
          simp only [List.length_drop, List.length_append, List.length_replicate] at this
          omega
        have hdrop : ts.drop pos = List.replicate (m + 1) t ++ ((T2.flatMap fun t => List.replicate (pre.count t) t) ++ post) := by
          rw [e, List.drop_append_of_le_length (by omega), h5, List.append_assoc]
        have htp : ts[pos] = t := by
          have := List.drop_eq_getElem_cons h4
          rw [hdrop, List.replicate_succ, List.cons_append] at this
          exact (List.cons.inj this).1.symm
        rw [if_pos ⟨by omega, by rw [h1]; simp⟩, h.2.2 pos h4, ok_bind, htp]
        have hn := hs.1
        rw [h1, List.nodup_append] at hn
        rw [if_neg (fun hm => hn.2.2 t hm t List.mem_cons_self rfl)]
        obtain ⟨n, f1, f2, f3, f4⟩ := findRun h h4
        rw [htp] at f1 f3 f4
        rw [f1, ok_bind]
        refine ih (T1 ++ [t]) T2 _ (by rw [h1]; simp) (by simp at h2; omega) fun hne => ?_
        -- the run stops at the end of the block
        obtain ⟨u, T3, rfl⟩ := List.exists_cons_of_ne_nil hne
        obtain ⟨l, hl⟩ : ∃ m, pre.count u = m + 1 := ⟨pre.count u - 1, by
          have := List.count_pos_iff.mpr (hs.2.1 u (by rw [h1]; simp)); omega⟩
        have hut : u ≠ t := by
          intro e'
          have := hn.2.1
          rw [List.nodup_cons] at this
          exact this.1 (by rw [e']; simp)
        have hnm : n = m := by
          have hget : ∀ k, k < m + 1 → ts[pos + k]? = some t := by
            intro k hk
            rw [← List.getElem?_drop, hdrop, List.getElem?_append_left (by simpa using hk)]
            simp [hk]
          have hget2 : ts[pos + (m + 1)]? = some u := by
            rw [← List.getElem?_drop, hdrop, List.getElem?_append_right (by simp)]
            simp [hl, List.replicate_succ]
          rcases Nat.lt_trichotomy n m with hlt | heq | hgt
          · exact absurd rfl (f4 t (hget (n + 1) (by omega)))
          · exact heq
          · exfalso
            have h6 : (ts.take (pos + (n + 1)))[pos + (m + 1)]? = some u := by
              rw [List.getElem?_take_of_lt (by omega)]; exact hget2
            rw [f3, List.getElem?_append_right (by rw [List.length_take]; omega)] at h6
            have := List.mem_of_getElem? h6
            exact hut (List.mem_replicate.mp this).2
        subst hnm
        refine ⟨?_, ?_⟩
        · have : 0 < ((u :: T3).flatMap fun t => List.replicate (pre.count t) t).length := by
            rw [List.flatMap_cons, hl]; simp
          rw [e, List.length_append]; omega
        · rw [← List.drop_drop, h5, List.drop_append_of_le_length (by simp)]
          simp
  refine key fuel [] T 0 rfl hf fun hne => ?_
  refine ⟨?_, by rw [List.drop_zero]; exact hs.2.2⟩
  obtain ⟨t, T', rfl⟩ := List.exists_cons_of_ne_nil hne
  have := List.length_pos_of_mem (hs.2.1 t List.mem_cons_self)
  rw [e, List.length_append]; omega

theorem firstTypes_endless {conn connI ts : List Int} (h : HasTypes conn connI ts) {nb : Nat}
    (hnb : ∀ T : List Int, T.Nodup → (∀ t ∈ T, t ∈ ts) → T.length = nb → ∀ t ∈ ts, t ∈ T) (hno : ¬ ∃ T, StartsSorted ts T) :
    ∀ fuel, firstTypes nb conn connI fuel 0 [] = .error .ub := by
  have key : ∀ (fuel pos : Nat) (T : List Int), pos ≤ ts.length → SortedByType (ts.take pos) T →
      firstTypes nb conn connI fuel pos T = .error .ub := by
    intro fuel
    induction fuel with
    | zero => intros; rfl
    | succ fuel ih =>
      intro pos T hp hT
      rw [firstTypes, h.1]
      have hpn : pos ≠ ts.length := by
        rintro rfl
        rw [List.take_length] at hT
        exact hno ⟨T, ts, [], by simp, hT, by simp⟩
      have hTn : T.length ≠ nb := by
        intro e
        refine hno ⟨T, ts.take pos, ts.drop pos, by simp, hT, fun t ht => ?_⟩
        exact hnb T hT.1 (fun t ht => List.mem_of_mem_take (hT.2.1 t ht)) e t (List.mem_of_mem_drop ht)
      have hlt : pos < ts.length := by omega
      rw [if_pos ⟨hpn, hTn⟩, h.2.2 pos hlt, ok_bind]
      by_cases hm : ts[pos] ∈ T
      · rw [if_pos hm]; exact ih pos T hp hT
      · rw [if_neg hm]
        obtain ⟨n, f1, f2, f3, -⟩ := findRun h hlt
        rw [f1, ok_bind]
        exact ih _ _ f2 (by rw [f3]; exact hT.snoc hm (by omega))
  intro fuel
  exact key fuel 0 [] (by omega) ⟨by simp, by simp, by simp⟩

/-- the cells of type `t`, in increasing order -/
def cellsOfType (ts : List Int) (t : Int) : List Nat := (List.range ts.length).filter fun i => decide (ts[i]? = some t)

theorem mem_cellsOfType {ts : List Int} {t : Int} {i : Nat} : i ∈ cellsOfType ts t ↔ ts[i]? = some t := by
  unfold cellsOfType
  rw [List.mem_filter, List.mem_range]
  simp only [decide_eq_true_eq]
  exact ⟨fun h => h.2, fun h => ⟨(List.getElem?_eq_some_iff.mp h).1, h⟩⟩

/-- `ret` numbers the cells `L` in this order and holds -1 elsewhere -/
def Numbers (ret : List Int) (n : Nat) (L : List Nat) : Prop :=
  ret.length = n ∧ (∀ (k i : Nat), L[k]? = some i → ret[i]? = some (k : Int)) ∧ ∀ i, i < n → i ∉ L → ret[i]? = some (-1)

theorem Numbers.snoc {ret : List Int} {n : Nat} {L : List Nat} (h : Numbers ret n L) {i : Nat} (hi : i < n) (hL : i ∉ L) :
    Numbers (ret.set i (L.length : Int)) n (L ++ [i]) := by
  obtain ⟨h1, h2, h3⟩ := h
  refine ⟨by simpa using h1, fun k j hk => ?_, fun j hj hjL => ?_⟩
  · rcases Nat.lt_or_ge k L.length with hlt | hge
    · rw [List.getElem?_append_left hlt] at hk
      rw [List.getElem?_set_ne (by rintro rfl; exact hL (List.mem_of_getElem? hk))]
      exact h2 k j hk
    · rw [List.getElem?_append_right hge] at hk
      have hk0 : k - L.length = 0 := by
        have := (List.getElem?_eq_some_iff.mp hk).1; simp at this; omega
      rw [hk0] at hk
      have : i = j := by simpa using hk
      subst this
      have : k = L.length := by omega
      subst this
      rw [List.getElem?_set_self (by omega)]
  · simp only [List.mem_append, List.mem_singleton, not_or] at hjL
    rw [List.getElem?_set_ne (fun e => hjL.2 e.symm)]
    exact h3 j hj hjL.1

theorem rearrangeStep_ok {conn connI ts : List Int} (h : HasTypes conn connI ts) (t : Int) {ret : List Int} {L : List Nat}
    (hr : Numbers ret ts.length L) (hL : ∀ i ∈ L, ts[i]? ≠ some t) :
    ∃ ret', rearrangeStep conn connI (ret, (L.length : Int)) t = .ok (ret', ((L ++ cellsOfType ts t).length : Int)) ∧
      Numbers ret' ts.length (L ++ cellsOfType ts t) := by
  unfold rearrangeStep
  rw [h.1]
  obtain ⟨s, e1, e2, e3⟩ := wp_exists (wp_loop (E := False) (n := ts.length) (s := (ret, (L.length : Int)))
    (f := fun i s => do
      let u ← typeAt conn connI i
      if u = t then do
        let ret ← wr s.1 i s.2
        .ok (ret, s.2 + 1)
      else .ok s)
    (fun k (s : List Int × Int) => s.2 = ((L ++ (List.range k).filter fun i => decide (ts[i]? = some t)).length : Int) ∧
      Numbers s.1 ts.length (L ++ (List.range k).filter fun i => decide (ts[i]? = some t))) (by simpa using hr) (by
      rintro i hi ⟨ret, c⟩ ⟨h1, h2⟩
      simp only at h1 h2
      rw [h.2.2 i hi, ok_bind, List.range_succ, List.filter_append]
      by_cases ht : ts[i] = t
      · have hf : ([i].filter fun i => decide (ts[i]? = some t)) = [i] := by simp [hi, ht]
        rw [if_pos ht, wr_natCast (by rw [h2.1]; exact hi), ok_bind, hf, ← List.append_assoc]
        refine ⟨?_, ?_⟩
        · simp only [List.length_append, List.length_singleton]
          rw [h1, List.length_append]; push_cast; ring
        · simp only
          rw [h1]
          refine h2.snoc hi fun hm => ?_
          rcases List.mem_append.mp hm with hm | hm
          · exact hL i hm (by rw [List.getElem?_eq_getElem hi, ht])
          · have := (List.mem_filter.mp hm).1
            simp at this
      · have hf : ([i].filter fun i => decide (ts[i]? = some t)) = [] := by simp [hi, ht]
        rw [if_neg ht, hf, List.append_nil]
        exact ⟨h1, h2⟩))
  refine ⟨s.1, ?_, e3⟩
  rw [e1]
  have : s = (s.1, s.2) := rfl
  rw [this, e2]; rfl

/-- **C72.** `rearrange2ConsecutiveCellTypes()` of a mesh which begins with one block per type: the returned array is a permutation, the
cells are moved with it, the new mesh is made of one block per type, the types being in the order in which they come first, and the
cells of the same type keep their order. -/
theorem C72_rearrange {conn connI : List Int} {cells : List Cell} (h : IsMesh conn connI cells) {T : List Int}
    (hT : StartsSorted (cells.map Cell.type) T) {fuel : Nat} (hf : cells.length < fuel) :
    ∃ (o2n conn' connI' : List Int) (cells' : List Cell), rearrange2ConsecutiveCellTypes fuel conn connI = .ok (o2n, conn'.map some, connI'.map some) ∧
      IsPermArr cells.length o2n ∧ IsMesh conn' connI' cells' ∧ (∀ i j : Nat, o2n[i]? = some (j : Int) → cells'[j]? = cells[i]?) ∧
      SortedByType (cells'.map Cell.type) T ∧
      ∀ (i j : Nat) (c d : Cell) (p q : Int), i < j → cells[i]? = some c → cells[j]? = some d → c.type = d.type →
        o2n[i]? = some p → o2n[j]? = some q → p < q := by
  have hts := h.hasTypes
  set ts := cells.map Cell.type with htsd
  have hlen : ts.length = cells.length := by simp [htsd]
  obtain ⟨pre, post, e, hs, hpost⟩ := hT
  have hmem : ∀ t, t ∈ T ↔ t ∈ ts := by
    intro t
    rw [e, List.mem_append]
    exact ⟨fun ht => Or.inl (hs.2.1 t ht), fun ht => ht.elim (fun h' => hs.mem_iff.mpr h') (hpost t)⟩
  obtain ⟨geo, g1, g2, g3⟩ := (C51_observers h).2.2.2.2
  have hgl : geo.length = T.length := by
    have : geo.Perm T := (List.perm_ext_iff_of_nodup (g2.imp (fun h => Int.ne_of_lt h)) hs.1).mpr fun t => by
      rw [g3, hmem, htsd]; simp
    exact this.length_eq
  have hTl : T.length ≤ ts.length := (hs.1.subperm fun t ht => (hmem t).mp ht).length_le
  have hft := firstTypes_ok hts e hs fuel (by omega)
  -- the numbering
  have hnum : ∀ T1 T2, T = T1 ++ T2 → ∀ ret, Numbers ret ts.length (T1.flatMap (cellsOfType ts)) →
      ∃ ret', T2.foldlM (rearrangeStep conn connI) (ret, ((T1.flatMap (cellsOfType ts)).length : Int)) =
        .ok (ret', ((T.flatMap (cellsOfType ts)).length : Int)) ∧ Numbers ret' ts.length (T.flatMap (cellsOfType ts)) := by
    intro T1 T2
    induction T2 generalizing T1 with
    | nil => intro h1 ret hr; rw [List.append_nil] at h1; rw [h1]; exact ⟨ret, rfl, hr⟩
    | cons t T2 ih =>
      intro h1 ret hr
      have hn := hs.1
      rw [h1, List.nodup_append] at hn
      obtain ⟨ret', r1, r2⟩ := rearrangeStep_ok hts t hr (by
        intro i hi
        obtain ⟨u, hu, hm⟩ := List.mem_flatMap.mp hi
        rw [mem_cellsOfType] at hm
        rw [hm]
        intro e'
        exact hn.2.2 u hu t List.mem_cons_self (by simpa using e'))
      rw [List.foldlM_cons, r1, ok_bind]
      have hfm : T1.flatMap (cellsOfType ts) ++ cellsOfType ts t = (T1 ++ [t]).flatMap (cellsOfType ts) := by
        rw [List.flatMap_append]; simp
      rw [hfm] at r2 ⊢
      exact ih (T1 ++ [t]) (by rw [h1]; simp) ret' r2
  obtain ⟨o2n, n1, n2⟩ := hnum [] T rfl (List.replicate ts.length (-1)) ⟨by simp, by simp, fun i hi _ => by simp [hi]⟩
  set L := T.flatMap (cellsOfType ts) with hL
  have hLmem : ∀ i, i ∈ L ↔ i < ts.length := by
    intro i
    rw [hL, List.mem_flatMap]
    constructor
    · rintro ⟨t, -, hm⟩
      exact (List.getElem?_eq_some_iff.mp (mem_cellsOfType.mp hm)).1
    · intro hi
      exact ⟨ts[i], (hmem _).mpr (List.getElem_mem _), mem_cellsOfType.mpr (List.getElem?_eq_getElem hi)⟩
  have hLn : L.Nodup := by
    rw [hL, List.nodup_flatMap]
    refine ⟨fun t _ => List.nodup_range.filter _, ?_⟩
    refine hs.1.imp_of_mem ?_
    intro t u _ _ htu i hi1 hi2
    rw [mem_cellsOfType] at hi1 hi2
    rw [hi1] at hi2
    exact htu (by simpa using hi2)
  have hLl : L.length = ts.length := by
    have : L.Perm (List.range ts.length) := (List.perm_ext_iff_of_nodup hLn List.nodup_range).mpr fun i => by rw [hLmem, List.mem_range]
    rw [this.length_eq, List.length_range]
  -- every value of the array is the place of its cell in L
  have hval : ∀ (i : Nat) (v : Int), o2n[i]? = some v → ∃ k : Nat, v = k ∧ L[k]? = some i := by
    intro i v hv
    have hi : i < ts.length := by have := (List.getElem?_eq_some_iff.mp hv).1; rw [n2.1] at this; exact this
    obtain ⟨k, hk⟩ := List.mem_iff_getElem?.mp ((hLmem i).mpr hi)
    have := n2.2.1 k i hk
    rw [hv] at this
    exact ⟨k, by simpa using this, hk⟩
  have hperm : IsPermArr cells.length o2n := by
    refine ⟨by rw [n2.1, hlen], ?_, ?_⟩
    · intro v hv
      obtain ⟨i, hi⟩ := List.mem_iff_getElem?.mp hv
      obtain ⟨k, rfl, hk⟩ := hval i v hi
      have := (List.getElem?_eq_some_iff.mp hk).1
      omega
    · rw [List.nodup_iff_injective_getElem]
      rintro ⟨i, hi⟩ ⟨j, hj⟩ hij
      simp only at hij
      obtain ⟨k, hk, hk'⟩ := hval i _ (List.getElem?_eq_getElem hi)
      obtain ⟨l, hl, hl'⟩ := hval j _ (List.getElem?_eq_getElem hj)
      rw [hij] at hk
      have : k = l := by omega
      subst this
      rw [hk'] at hl'
      simpa using hl'
  obtain ⟨conn', connI', cells', r1, r2, r3, r4⟩ := C56_renumberCells h _ hperm
  have hcells' : cells'.map Cell.type = T.flatMap fun t => List.replicate (ts.count t) t := by
    have h1 : cells'.map Cell.type = L.map fun i => ts.getD i 0 := by
      apply List.ext_getElem?
      intro k
      by_cases hk : k < L.length
      · have := r4 L[k] k (n2.2.1 k L[k] (List.getElem?_eq_getElem hk))
        have hLk : L[k] < ts.length := (hLmem _).mp (List.getElem_mem _)
        rw [List.getElem?_map, this, List.getElem?_map, List.getElem?_eq_getElem hk, Option.map_some,
          List.getD_eq_getElem?_getD, List.getElem?_eq_getElem hLk, Option.getD_some, ← List.getElem?_map, ← htsd,
          List.getElem?_eq_getElem hLk]
      · rw [List.getElem?_eq_none (by simp; omega), List.getElem?_eq_none (by simp; omega)]
    rw [h1, hL, List.map_flatMap]
    apply List.flatMap_congr
    intro t _
    rw [List.eq_replicate_iff]
    constructor
    · rw [List.length_map]
      unfold cellsOfType
      rw [← List.countP_eq_length_filter]
      have key : ∀ l : List Int, (List.range l.length).countP (fun i => decide (l[i]? = some t)) = l.count t := by
        intro l
        induction l using List.reverseRecOn with
        | nil => rfl
        | append_singleton l a ih =>
          rw [List.length_append, List.length_singleton, List.range_succ, List.countP_append, List.count_append, ← ih]
          congr 1
          · apply List.countP_congr
            intro i hi
            rw [List.getElem?_append_left (List.mem_range.mp hi)]
          · simp [List.count_singleton]
      exact key ts
    · intro b hb
      obtain ⟨i, hi, rfl⟩ := List.mem_map.mp hb
      rw [mem_cellsOfType] at hi
      rw [List.getD_eq_getElem?_getD, hi]; rfl
  have hcount : ∀ t, (cells'.map Cell.type).count t = ts.count t := by
    intro t
    have hpm : (cells'.map Cell.type).Perm ts := by
      have h1 : cells'.Perm cells := by
        have : cells' = L.map fun i => cells.getD i ⟨0, []⟩ := by
          apply List.ext_getElem?
          intro k
          by_cases hk : k < L.length
          · have := r4 L[k] k (n2.2.1 k L[k] (List.getElem?_eq_getElem hk))
            have hLk : L[k] < cells.length := by rw [← hlen]; exact (hLmem _).mp (List.getElem_mem _)
            rw [this, List.getElem?_map, List.getElem?_eq_getElem hk, Option.map_some, List.getD_eq_getElem?_getD,
              List.getElem?_eq_getElem hLk, Option.getD_some]
          · rw [List.getElem?_eq_none (by omega), List.getElem?_eq_none (by simp; omega)]
        rw [this]
        have hp : L.Perm (List.range cells.length) := (List.perm_ext_iff_of_nodup hLn List.nodup_range).mpr fun i => by rw [hLmem, List.mem_range, hlen]
        refine (hp.map _).trans ?_
        have : (List.range cells.length).map (fun i => cells.getD i ⟨0, []⟩) = cells := by
          apply List.ext_getElem?
          intro k
          rw [List.getElem?_map]
          by_cases hk : k < cells.length
          · simp [hk]
          · rw [List.getElem?_eq_none (by simpa using hk), List.getElem?_eq_none (by omega)]; rfl
        rw [this]
      exact h1.map _
    exact hpm.count_eq t
  refine ⟨o2n, conn', connI', cells', ?_, hperm, r2, r4, ⟨hs.1, fun t ht => ?_, ?_⟩, ?_⟩
  · unfold rearrange2ConsecutiveCellTypes
    rw [g1, ok_bind, hgl, hft, ok_bind, hts.1]
    have : (([] : List Int).flatMap (cellsOfType ts)).length = 0 := rfl
    rw [this] at n1
    rw [show ((0 : Nat) : Int) = 0 from rfl] at n1
    rw [n1, ok_bind]
    simp only
    rw [r1]; rfl
  · have := List.count_pos_iff.mpr ((hmem t).mp ht)
    rw [← hcount] at this
    exact List.count_pos_iff.mp this
  · conv_lhs => rw [hcells']
    apply List.flatMap_congr
    intro t _
    rw [hcount]
  · intro i j c d p q hij hc hd hcd hp hq
    obtain ⟨k, rfl, hk⟩ := hval i p hp
    obtain ⟨l, rfl, hl⟩ := hval j q hq
    -- both are in the block of the same type, which is increasing
    by_contra hlt
    have hkl : l < k := by
      rcases Nat.lt_trichotomy l k with h1 | h1 | h1
      · exact h1
      · subst h1; rw [hk] at hl; simp at hl; omega
      · exact absurd (by exact_mod_cast h1) hlt
    -- a pairwise property of L
    have hpw : L.Pairwise fun a b => ts[a]? = ts[b]? → a < b := by
      rw [hL, List.pairwise_flatMap]
      refine ⟨fun t _ => ?_, hs.1.imp_of_mem ?_⟩
      · have h1 : (cellsOfType ts t).Pairwise (· < ·) := List.pairwise_lt_range.filter _
        exact h1.imp (S := fun a b => ts[a]? = ts[b]? → a < b) fun h' _ => h'
      · intro t u _ _ htu a ha b hb hab
        rw [mem_cellsOfType] at ha hb
        rw [ha, hb] at hab
        exact absurd (by simpa using hab) htu
    rw [List.pairwise_iff_getElem] at hpw
    obtain ⟨hk', ek⟩ := List.getElem?_eq_some_iff.mp hk
    obtain ⟨hl', el⟩ := List.getElem?_eq_some_iff.mp hl
    have := hpw l k hl' hk' hkl (by
      rw [ek, el, htsd, List.getElem?_map, List.getElem?_map, hc, hd]
      simp [hcd])
    rw [ek, el] at this
    omega

example : IsMesh [4, 0, 1, 2, 3, 3, 0, 1, 2, 4, 4, 5, 6, 7, 3, 1, 2, 3] [0, 5, 9, 14, 18]
      [⟨4, [0, 1, 2, 3]⟩, ⟨3, [0, 1, 2]⟩, ⟨4, [4, 5, 6, 7]⟩, ⟨3, [1, 2, 3]⟩] ∧ StartsSorted [4, 3, 4, 3] [4, 3] ∧
    rearrange2ConsecutiveCellTypes 5 [4, 0, 1, 2, 3, 3, 0, 1, 2, 4, 4, 5, 6, 7, 3, 1, 2, 3] [0, 5, 9, 14, 18] =
      .ok ([0, 2, 1, 3], [4, 0, 1, 2, 3, 4, 4, 5, 6, 7, 3, 0, 1, 2, 3, 1, 2, 3].map some, [0, 5, 10, 14, 18].map some) :=
  ⟨by decide, ⟨[4, 3], [4, 3], rfl, ⟨by decide, by decide, by decide⟩, by decide⟩, by decide⟩

/-- **C72, finding.** On any other mesh, that is when a type comes back before the first cell of another type, the loop of
`rearrange2ConsecutiveCellTypes()` which lists the types never ends: whatever the number of turns, it has not returned. -/
theorem C72_rearrange_endless {conn connI : List Int} {cells : List Cell} (h : IsMesh conn connI cells)
    (hno : ¬ ∃ T, StartsSorted (cells.map Cell.type) T) (fuel : Nat) : rearrange2ConsecutiveCellTypes fuel conn connI = .error .ub := by
  have hts := h.hasTypes
  obtain ⟨geo, g1, g2, g3⟩ := (C51_observers h).2.2.2.2
  unfold rearrange2ConsecutiveCellTypes
  rw [g1, ok_bind, firstTypes_endless hts ?_ hno fuel]
  · rfl
  · intro T hT hsub hl t ht
    by_contra hnot
    have hs : (t :: T).Nodup := List.nodup_cons.mpr ⟨hnot, hT⟩
    have := (hs.subperm (l₂ := geo) fun u hu => by
      rw [g3]
      have : u ∈ cells.map Cell.type := by
        rcases List.mem_cons.mp hu with rfl | hu
        · exact ht
        · exact hsub u hu
      simpa using this).length_le
    simp at this; omega

/-- triangle, quadrangle, triangle, polygon -/
theorem C72_rearrange_endless_witness : IsMesh [3, 0, 1, 2, 4, 0, 1, 2, 3, 3, 1, 2, 3, 5, 0, 1, 2, 3, 4] [0, 4, 9, 13, 19]
      [⟨3, [0, 1, 2]⟩, ⟨4, [0, 1, 2, 3]⟩, ⟨3, [1, 2, 3]⟩, ⟨5, [0, 1, 2, 3, 4]⟩] ∧
    ∀ fuel, rearrange2ConsecutiveCellTypes fuel [3, 0, 1, 2, 4, 0, 1, 2, 3, 3, 1, 2, 3, 5, 0, 1, 2, 3, 4] [0, 4, 9, 13, 19] = .error .ub := by
  have hm : IsMesh [3, 0, 1, 2, 4, 0, 1, 2, 3, 3, 1, 2, 3, 5, 0, 1, 2, 3, 4] [0, 4, 9, 13, 19]
      [⟨3, [0, 1, 2]⟩, ⟨4, [0, 1, 2, 3]⟩, ⟨3, [1, 2, 3]⟩, ⟨5, [0, 1, 2, 3, 4]⟩] := by decide
  refine ⟨hm, C72_rearrange_endless hm ?_⟩
  rintro ⟨T, pre, post, e, hs, hp⟩
  have e' : ([3, 4, 3, 5] : List Int) = pre ++ post := e
  -- 5 must be in pre, hence pre is the whole list, which is not sorted
  have hc := (sortedByType_iff_contiguous pre).mp ⟨T, hs⟩
  have h5 : (5 : Int) ∈ pre := by
    have : (5 : Int) ∈ pre ++ post := by rw [← e']; decide
    rcases List.mem_append.mp this with h | h
    · exact h
    · exact hs.mem_iff.mp (hp 5 h)
  have hlen : pre.length = 4 := by
    obtain ⟨k, hk⟩ := List.mem_iff_getElem?.mp h5
    have hlt := (List.getElem?_eq_some_iff.mp hk).1
    have hle := congrArg List.length e'
    simp at hle
    have hk' : ([3, 4, 3, 5] : List Int)[k]? = some 5 := by rw [e', List.getElem?_append_left hlt]; exact hk
    have : k = 3 := by
      rcases k with _ | _ | _ | _ | k
      · simp at hk'
      · simp at hk'
      · simp at hk'
      · rfl
      · simp at hk'
    omega
  have hpost : post = [] := by
    have := congrArg List.length e'
    simp at this
    exact List.length_eq_zero_iff.mp (by omega)
  rw [hpost, List.append_nil] at e'
  have := hc 0 1 2 3 (by omega) (by omega) (by rw [← e']; rfl) (by rw [← e']; rfl)
  rw [← e'] at this
  simp at this

end
end MC
