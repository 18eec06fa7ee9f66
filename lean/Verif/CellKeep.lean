import Verif.CellPick

/-!
# C74: keeping some cells of a type
-/

namespace MC
section

theorem SortedByType.filter_block {cells : List Cell} {T : List Int} (h : SortedByType (cells.map Cell.type) T) {t : Int} (ht : t ∈ T) :
    (cells.filter fun c => decide (c.type = t)) = (cells.drop ((cells.map Cell.type).idxOf t)).take ((cells.map Cell.type).count t) := by
  set ts := cells.map Cell.type with hts
  set a := ts.idxOf t with ha
  set n := ts.count t with hn
  have hty : ∀ (i : Nat) (hi : i < cells.length), cells[i].type = t ↔ a ≤ i ∧ i < a + n := by
    intro i hi
    rw [← h.get_iff ht i, hts, List.getElem?_map, List.getElem?_eq_getElem hi]
    simp
  have hle : a + n ≤ cells.length := by have := h.block_le ht; simpa [hts] using this
  have e : cells = cells.take a ++ ((cells.drop a).take n ++ (cells.drop a).drop n) := by rw [List.take_append_drop, List.take_append_drop]
  conv_lhs => rw [e]
  rw [List.filter_append, List.filter_append]
  have h1 : (cells.take a).filter (fun c => decide (c.type = t)) = [] := by
    rw [List.filter_eq_nil_iff]
    intro c hc
    obtain ⟨i, hi, rfl⟩ := List.getElem_of_mem hc
    simp only [List.length_take] at hi
    rw [List.getElem_take]
    simp only [decide_eq_true_eq]
    rw [hty]
    omega
  have h2 : ((cells.drop a).drop n).filter (fun c => decide (c.type = t)) = [] := by
    rw [List.filter_eq_nil_iff]
    intro c hc
    obtain ⟨i, hi, rfl⟩ := List.getElem_of_mem hc
    simp only [List.length_drop] at hi
    simp only [List.getElem_drop, decide_eq_true_eq]
    rw [hty]
    omega
  have h3 : ((cells.drop a).take n).filter (fun c => decide (c.type = t)) = (cells.drop a).take n := by
    rw [List.filter_eq_self]
    intro c hc
    obtain ⟨i, hi, rfl⟩ := List.getElem_of_mem hc
    simp only [List.length_take, List.length_drop] at hi
    simp only [List.getElem_take, List.getElem_drop, decide_eq_true_eq]
    rw [hty]
    omega
  rw [h1, h2, h3]; simp

/-- the cells kept: all those of the other types, and the given ones of the type -/
def keptCells (cells : List Cell) (T : List Int) (type : Int) (ids : List Int) : List Cell :=
  T.flatMap fun t =>
    if t = type then ids.filterMap fun k => (cells.filter fun c => decide (c.type = t))[k.toNat]?
    else cells.filter fun c => decide (c.type = t)

theorem emit_ids {off : Int} {n : Nat} : ∀ (ids acc : List Int), acc.length + ids.length ≤ n →
    ids.foldlM (m := Except Err) (fun (o : Cur Int) (k : Int) => emit o (k + off)) (filled acc n) = .ok (filled (acc ++ ids.map fun k => k + off) n) :=
  fun ids acc h => emit_foldlM (fun k => k + off) n ids acc h

/-- **C74.** `keepSpecifiedCells(type, ids)` of a mesh sorted by type: the cells of the other types and, in the place of the ones of this
type, the ones of given numbers, counted from the first cell of the type. -/
theorem C74_keepSpecified {dim : Int} (hd : dim ≠ -1) {conn connI : List Int} {cells : List Cell} (hm : IsMesh conn connI cells)
    {geoTypes : List Int} (hgn : geoTypes.Nodup) (hgeo : ∀ t, t ∈ geoTypes ↔ ∃ c ∈ cells, c.type = t) {T : List Int}
    (hT : SortedByType (cells.map Cell.type) T) (type : Int) (ids : List Int) :
    (AllIn ((cells.map Cell.type).count type) ids → ∃ conn' connI' : List Int, keepSpecifiedCells dim geoTypes conn connI type ids = .ok (conn', connI') ∧
      IsMesh conn' connI' (keptCells cells T type ids)) ∧
    (¬ AllIn ((cells.map Cell.type).count type) ids → keepSpecifiedCells dim geoTypes conn connI type ids = .error .exn) := by
  set ts := cells.map Cell.type with hts
  have hcode := (C71_distribution hm hgn hgeo).1 T hT
  set E : List (Int × Int × Int) := T.map fun t => (t, (ts.count t : Int), (-1 : Int)) with hE
  have hcodeE : (T.flatMap fun t => [t, ((cells.countP fun c => c.type = t : Nat) : Int), -1]) = codeOf E := by
    rw [codeOf, hE, List.flatMap_map]
    rw [List.flatMap_def, List.flatMap_def]
    congr 1
    refine List.map_congr_left fun t _ => ?_
    rw [hts, List.count, List.countP_map]
    congr 3
  rw [hcodeE] at hcode
  have hEl : E.length = T.length := by simp [hE]
  have hdiv : (codeOf E).length / 3 = T.length := by rw [codeOf_length]; omega
  have hEg : ∀ k (hk : k < T.length), E[k]'(by omega) = (T[k], (ts.count T[k] : Int), (-1 : Int)) := by intro k hk; simp [hE]
  -- sizes
  have hsz : ∀ k, k ≤ T.length → loop k ((0 : Int), (0 : Int)) (keepSizeStep (codeOf E) type) =
      .ok ((((T.take k).map fun t => if t = type then (0 : Int) else (ts.count t : Int)).sum), if type ∈ T.take k then (ts.count type : Int) else 0) := by
    intro k
    induction k with
    | zero => intro _; rfl
    | succ k ih =>
      intro hk
      obtain ⟨c1, c2, -⟩ := codeOf_rd (E := E) (i := k) (by omega)
      rw [hEg k (by omega)] at c1 c2
      have htk : T.take (k + 1) = T.take k ++ [T[k]] := by rw [List.take_append_getElem (by omega)]
      rw [loop_succ, ih (by omega), ok_bind, htk]
      unfold keepSizeStep
      rw [c1, ok_bind, c2, ok_bind, List.map_append, List.sum_append, List.map_singleton, List.sum_singleton]
      simp only
      by_cases ht : T[k] = type
      · rw [if_neg (by simpa using ht), if_pos ht, Int.add_zero, if_pos (List.mem_append_right _ (by simp [ht])), ht]
      · rw [if_pos ht, if_neg ht]
        congr 2
        have : (type ∈ T.take k ++ [T[k]]) ↔ type ∈ T.take k := by
          rw [List.mem_append, List.mem_singleton]
          exact ⟨fun h => h.resolve_right fun e => ht e.symm, Or.inl⟩
        by_cases h2 : type ∈ T.take k
        · rw [if_pos h2, if_pos (this.mpr h2)]
        · rw [if_neg h2, if_neg fun h => h2 (this.mp h)]
  have hszT := hsz T.length (Nat.le_refl _)
  rw [List.take_length] at hszT
  have hst : (if type ∈ T then (ts.count type : Int) else 0) = (ts.count type : Int) := by
    split
    · rfl
    · rename_i h
      rw [List.count_eq_zero_of_not_mem fun hh => h (hT.mem_iff.mpr hh)]; rfl
  rw [hst] at hszT
  have hany : (ids.any fun w => decide (w < 0 ∨ w ≥ (ts.count type : Int))) = true ↔ ¬ AllIn (ts.count type) ids := by
    rw [List.any_eq_true]
    unfold AllIn
    push Not
    constructor
    · rintro ⟨x, hx, h⟩
      rw [decide_eq_true_eq] at h
      exact ⟨x, hx, fun h0 => by omega⟩
    · rintro ⟨x, hx, h⟩
      exact ⟨x, hx, by rw [decide_eq_true_eq]; by_cases h0 : 0 ≤ x; exact Or.inr (h h0); exact Or.inl (by omega)⟩
  constructor
  · intro hin
    set keep : List Int := T.flatMap fun t => if t = type then ids.map fun k => k + (ts.idxOf t : Int)
      else (List.range (ts.count t)).map fun j : Nat => ((ts.idxOf t + j : Nat) : Int) with hkeep
    have hklen : ∀ T' : List Int, ((T'.flatMap fun t => if t = type then ids.map fun k => k + (ts.idxOf t : Int)
        else (List.range (ts.count t)).map fun j : Nat => ((ts.idxOf t + j : Nat) : Int)).length : Int) =
        (T'.map fun t => if t = type then (0 : Int) else (ts.count t : Int)).sum + (T'.count type * ids.length : Nat) := by
      intro T'
      induction T' with
      | nil => simp
      | cons t T' ih =>
        rw [List.flatMap_cons, List.length_append, List.map_cons, List.sum_cons, Nat.cast_add, ih, List.count_cons]
        by_cases ht : t = type
        · simp [ht, Nat.add_mul]; omega
        · simp [ht]; omega
    set N := ((T.map fun t => if t = type then (0 : Int) else (ts.count t : Int)).sum + (ids.length : Int)).toNat with hN
    have hsum0 : 0 ≤ (T.map fun t => if t = type then (0 : Int) else (ts.count t : Int)).sum := List.sum_nonneg fun x hx => by
      obtain ⟨t, -, rfl⟩ := List.mem_map.mp hx
      split <;> omega
    -- the ids; when the type is absent there is no id
    have hcount : (T.count type * ids.length : Nat) = ids.length := by
      by_cases hty : type ∈ T
      · rw [List.count_eq_one_of_mem hT.1 hty, Nat.one_mul]
      · have : ids = [] := by
          cases ids with
          | nil => rfl
          | cons x ids =>
            have := hin x List.mem_cons_self
            rw [List.count_eq_zero_of_not_mem fun hh => hty (hT.mem_iff.mpr hh)] at this
            omega
        rw [this]; simp
    have hkN : keep.length = N := by
      have := hklen T
      rw [hcount, ← hkeep] at this
      omega
    have hloop : ∀ k, k ≤ T.length → loop k (newCur Int N, (0 : Int)) (keepIdsStep (codeOf E) type ids) =
        .ok (filled ((T.take k).flatMap fun t => if t = type then ids.map fun k => k + (ts.idxOf t : Int)
          else (List.range (ts.count t)).map fun j : Nat => ((ts.idxOf t + j : Nat) : Int)) N,
          if hk : k < T.length then (ts.idxOf T[k] : Int) else (ts.length : Int)) := by
      intro k
      induction k with
      | zero =>
        intro _
        rw [newCur_eq]
        show Except.ok _ = _
        congr 2
        split
        · rename_i h0
          have h1 : ts.idxOf T[0] = 0 := by
            obtain ⟨t, T', rfl⟩ := List.exists_cons_of_length_pos h0
            obtain ⟨A, B, -, hl, -, -, hA, -, -⟩ := (show SortedByType ts ([] ++ t :: T') from hT).block
            have : A = [] := List.eq_nil_iff_forall_not_mem.mpr fun a ha => by simpa using hA a ha
            subst this
            simpa using hl.symm
          rw [h1]; rfl
        · have : T = [] := List.length_eq_zero_iff.mp (by omega)
          subst this
          have := hT.2.2
          simp at this
          rw [this]; rfl
      | succ k ih =>
        intro hk
        obtain ⟨c1, c2, -⟩ := codeOf_rd (E := E) (i := k) (by omega)
        rw [hEg k (by omega)] at c1 c2
        have htk : T.take (k + 1) = T.take k ++ [T[k]] := by rw [List.take_append_getElem (by omega)]
        have hroom : (((T.take k).flatMap fun t => if t = type then ids.map fun k => k + (ts.idxOf t : Int)
            else (List.range (ts.count t)).map fun j : Nat => ((ts.idxOf t + j : Nat) : Int)).length +
            (if T[k] = type then ids.length else ts.count T[k])) ≤ N := by
          rw [← hkN, hkeep]
          conv_rhs => rw [← List.take_append_drop (k + 1) T, htk]
          rw [List.flatMap_append, List.flatMap_append, List.length_append, List.length_append, List.flatMap_cons, List.flatMap_nil,
            List.append_nil]
          split <;> simp_all
        rw [loop_succ, ih (by omega), ok_bind, dif_pos (by omega), htk]
        unfold keepIdsStep
        rw [c1, ok_bind, c2, ok_bind]
        simp only
        have hnext : (if hk : k + 1 < T.length then (ts.idxOf T[k + 1] : Int) else (ts.length : Int)) = (ts.idxOf T[k] : Int) + (ts.count T[k] : Int) := by
          have h1 := bounds_next hT (j := k) (by omega)
          split
          · rename_i h2
            rw [bounds_get h2, Option.some.injEq] at h1
            rw [h1]; push_cast; rfl
          · have h2 : k + 1 = T.length := by omega
            rw [h2, bounds_last, Option.some.injEq] at h1
            rw [h1]; push_cast; rfl
        rw [hnext, List.flatMap_append, List.flatMap_cons, List.flatMap_nil, List.append_nil]
        by_cases ht : T[k] = type
        · rw [if_pos ht] at hroom
          rw [if_neg (by simpa using ht), emit_ids _ _ hroom, ok_bind, if_pos ht]
        · rw [if_neg ht] at hroom
          rw [if_pos ht, if_neg ht, Int.toNat_natCast, emit_loop (fun j : Nat => (ts.idxOf T[k] : Int) + (j : Int)) hroom, ok_bind]
          rfl
    have hloopT := hloop T.length (Nat.le_refl _)
    rw [List.take_length] at hloopT
    have hpick : List.Forall₂ (fun (s : Cell) (v : Int) => ∃ f : Nat, v = f ∧ cells[f]? = some s) (keptCells cells T type ids) keep := by
      rw [keptCells, hkeep]
      have : ∀ T' : List Int, (∀ t ∈ T', t ∈ T) → List.Forall₂ (fun (s : Cell) (v : Int) => ∃ f : Nat, v = f ∧ cells[f]? = some s)
          (T'.flatMap fun t => if t = type then ids.filterMap fun k => (cells.filter fun c => decide (c.type = t))[k.toNat]?
            else cells.filter fun c => decide (c.type = t))
          (T'.flatMap fun t => if t = type then ids.map fun k => k + (ts.idxOf t : Int)
            else (List.range (ts.count t)).map fun j : Nat => ((ts.idxOf t + j : Nat) : Int)) := by
        intro T'
        induction T' with
        | nil => intro _; exact List.Forall₂.nil
        | cons t T' ih =>
          intro hsub
          rw [List.flatMap_cons, List.flatMap_cons]
          refine List.rel_append ?_ (ih fun u hu => hsub u (List.mem_cons_of_mem _ hu))
          have htT := hsub t List.mem_cons_self
          have hb := hT.filter_block htT
          rw [← hts] at hb
          have hle := hT.block_le htT
          have hle : ts.idxOf t + ts.count t ≤ cells.length := by rw [hts, List.length_map] at hle; exact hle
          split
          · rename_i ht
            subst ht
            rw [hb]
            clear ih hloopT hloop hkN hcount hN hklen hkeep hany hszT hsz
            clear_value N
            clear_value keep
            induction ids with
            | nil => exact List.Forall₂.nil
            | cons x ids ihx =>
              have hx := hin x List.mem_cons_self
              have hg : ((cells.drop (ts.idxOf t)).take (ts.count t))[x.toNat]? = some (cells[ts.idxOf t + x.toNat]'(by omega)) := by
                rw [List.getElem?_take_of_lt (by omega), List.getElem?_drop, List.getElem?_eq_getElem]
              rw [List.filterMap_cons, hg, List.map_cons]
              refine List.Forall₂.cons ⟨ts.idxOf t + x.toNat, by omega, List.getElem?_eq_getElem _⟩ ?_
              exact ihx fun y hy => hin y (List.mem_cons_of_mem _ hy)
          · rw [hb]
            exact range_picks hle
      exact this T fun t ht => ht
    obtain ⟨conn', connI', e1, e2⟩ := buildPartKeep_spec hd hm hpick
    refine ⟨conn', connI', ?_, e2⟩
    unfold keepSpecifiedCells
    rw [hcode, ok_bind, hdiv, hszT, ok_bind]
    simp only
    rw [if_neg (fun h => hany.mp h hin), if_neg (by omega), ← hN, hloopT, ok_bind]
    simp only
    rw [filled_full hkN, initialised_map_some, ok_bind, e1]
  · intro hno
    unfold keepSpecifiedCells
    rw [hcode, ok_bind, hdiv, hszT, ok_bind]
    simp only
    rw [if_pos (hany.mpr hno)]; rfl

set_option maxRecDepth 20000 in
example : IsMesh [3, 0, 1, 2, 3, 1, 2, 3, 3, 7, 8, 9, 4, 0, 1, 2, 3] [0, 4, 8, 12, 17]
      [⟨3, [0, 1, 2]⟩, ⟨3, [1, 2, 3]⟩, ⟨3, [7, 8, 9]⟩, ⟨4, [0, 1, 2, 3]⟩] ∧ SortedByType [3, 3, 3, 4] [3, 4] ∧ AllIn (([3, 3, 3, 4] : List Int).count 3) [2, 0] ∧
    keepSpecifiedCells 2 [3, 4] [3, 0, 1, 2, 3, 1, 2, 3, 3, 7, 8, 9, 4, 0, 1, 2, 3] [0, 4, 8, 12, 17] 3 [2, 0] =
      .ok ([3, 7, 8, 9, 3, 0, 1, 2, 4, 0, 1, 2, 3], [0, 4, 8, 13]) ∧
    keepSpecifiedCells 2 [3, 4] [3, 0, 1, 2, 3, 1, 2, 3, 3, 7, 8, 9, 4, 0, 1, 2, 3] [0, 4, 8, 12, 17] 4 [1] = .error .exn :=
  ⟨by decide, ⟨by decide, by decide, by decide⟩, by unfold AllIn; decide, by decide, by decide⟩

end
end MC
