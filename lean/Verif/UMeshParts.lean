import Verif.UMeshNodes
import Verif.PermsProps
import Verif.IndexProps

/-!
# C56: renumbering, extraction and replacement of cells
-/

namespace MC
section

theorem isSky_rows {conn connI : List Int} {g : List (List Int)} (h : IsSky conn connI g) (hg : ∀ x ∈ g, ∃ c : Cell, x = c.row) :
    ∃ cells, IsMesh conn connI cells ∧ g = cells.map Cell.row := by
  have : ∃ cells : List Cell, g = cells.map Cell.row := by
    clear h
    induction g with
    | nil => exact ⟨[], rfl⟩
    | cons x g ih =>
      obtain ⟨c, rfl⟩ := hg x (by simp)
      obtain ⟨cs, rfl⟩ := ih fun y hy => hg y (by simp [hy])
      exact ⟨c :: cs, rfl⟩
  obtain ⟨cells, rfl⟩ := this
  exact ⟨cells, h, rfl⟩

theorem row_injective : Function.Injective Cell.row := by
  rintro ⟨t, n⟩ ⟨t', n'⟩ h
  simp only [Cell.row, List.cons.injEq] at h
  rw [h.1, h.2]

/-- C56: `renumberCells` without check, on a permutation: cell `i` goes to position `o2n[i]`. -/
theorem C56_renumberCells {conn connI : List Int} {cells : List Cell} (h : IsMesh conn connI cells) (o2n : List Int)
    (hp : IsPermArr cells.length o2n) :
    ∃ (conn' connI' : List Int) (cells' : List Cell), renumberCells conn connI o2n false = .ok (conn'.map some, connI'.map some) ∧
      IsMesh conn' connI' cells' ∧ cells'.length = cells.length ∧ ∀ i j : Nat, o2n[i]? = some (j : Int) → cells'[j]? = cells[i]? := by
  have hl := h.length
  obtain ⟨q, h1, h2, h3⟩ := C07_inverse cells.length o2n hp
  have hql : q.length = cells.length := h2.1
  have hqr : ∀ k (hk : k < q.length), q[k].toNat < cells.length ∧ 0 ≤ q[k] := by
    intro k hk
    have := h2.2.1 _ (List.getElem_mem hk)
    omega
  let cells' : List Cell := (List.range cells.length).map fun k => cells.getD (q.getD k 0).toNat ⟨0, []⟩
  have hget : ∀ k (hk : k < q.length), cells'[k]? = some (cells[q[k].toNat]'(hqr k hk).1) := by
    intro k hk
    have := (hqr k hk).1
    simp only [cells', List.getElem?_map, List.getElem?_range (show k < cells.length by omega), Option.map_some, List.getD_eq_getElem?_getD,
      List.getElem?_eq_getElem hk, Option.getD_some, List.getElem?_eq_getElem this]
  have hlen' : cells'.length = cells.length := by simp [cells']
  have hperm : (cells'.map Cell.row).flatten.length = conn.length := by
    rw [h.1, List.length_flatten, List.length_flatten]
    apply List.Perm.sum_eq
    apply List.Perm.map
    apply List.Perm.map
    have hq := h2.perm_range
    have e1 : cells' = q.map fun x => cells.getD x.toNat ⟨0, []⟩ := by
      apply List.ext_getElem?
      intro k
      by_cases hk : k < q.length
      · rw [hget k hk, List.getElem?_map, List.getElem?_eq_getElem hk]
        simp only [Option.map_some, List.getD_eq_getElem?_getD, List.getElem?_eq_getElem (hqr k hk).1, Option.getD_some]
      · rw [List.getElem?_eq_none (by omega), List.getElem?_eq_none (by simp; omega)]
    have e2 : cells = ((List.range cells.length).map Int.ofNat).map fun x => cells.getD x.toNat ⟨0, []⟩ := by
      apply List.ext_getElem?
      intro k
      by_cases hk : k < cells.length
      · simp [List.getElem?_range hk, List.getElem?_eq_getElem hk]
      · rw [List.getElem?_eq_none (by omega), List.getElem?_eq_none (by simp; omega)]
    rw [e1]
    conv_rhs => rw [e2]
    exact hq.map _
  have main : wp (renumberCells conn connI o2n false) (fun r =>
      r = ((cells'.map Cell.row).flatten.map some, (skyIdx (cells'.map Cell.row)).map some)) False := by
    unfold renumberCells
    rw [show connI.length - 1 = cells.length by omega]
    simp only [Bool.false_eq_true, if_false]
    rw [ok_bind, h1, ok_bind, newCur_eq, emit_filled (by simp; omega), ok_bind, wp_bind]
    refine wp_mono (wp_loop (fun i s => s = (filled ((cells'.take i).map Cell.row).flatten conn.length,
      filled (skyIdx ((cells'.take i).map Cell.row)) connI.length, ((((cells'.take i).map Cell.row).flatten.length : Nat) : Int))) ?_ ?_) ?_ id
    · simp [skyIdx, newCur_eq]
    · rintro i hi s rfl
      have hiq : i < q.length := by omega
      have hqi := hqr i hiq
      have hci : i < cells'.length := by omega
      rw [rdI_ok (a := q[i]) (by omega) (by simp [hiq]), ok_bind]
      obtain ⟨a, b, g1, g2, g3, g4, g5, g6, g7, g8, g9, g10⟩ := h.get hqi.1
      rw [show ((q[i].toNat : Nat) : Int) = q[i] by omega] at g4 g5
      have hc' : cells'[i] = cells[q[i].toNat]'hqi.1 := by
        have := hget i hiq
        rw [List.getElem?_eq_getElem hci] at this
        exact Option.some.inj this
      rw [g5, ok_bind, g4, ok_bind]
      have hflat : ((cells'.take (i + 1)).map Cell.row).flatten = ((cells'.take i).map Cell.row).flatten ++ cells'[i].row := by
        rw [List.take_succ_eq_append_getElem hci, List.map_append, List.flatten_append]; simp
      have hbound : ((cells'.take (i + 1)).map Cell.row).flatten.length ≤ conn.length := by
        rw [← hperm]
        conv_rhs => rw [← List.take_append_drop (i + 1) cells', List.map_append, List.flatten_append, List.length_append]
        omega
      have hrl : ((cells'[i].row.length : Nat) : Int) = b - a := by rw [hc', g10]; simp [Cell.row]
      rw [hflat, List.length_append] at hbound
      rw [emitCopy_filled (by omega) (by omega) (by omega) (by omega), ok_bind, g8, emit_filled (by simp; omega), ok_bind]
      show _ = _
      rw [hflat, hc', List.take_succ_eq_append_getElem hci, List.map_append, List.map_cons, List.map_nil, skyIdx_snoc, hc']
      rw [hc'] at hrl
      simp only [List.length_append]
      push_cast
      rw [hrl]
    · rintro s rfl
      show _ = _
      rw [List.take_of_length_le (by omega)]
      simp only
      rw [filled_full hperm, filled_full (by simp; omega)]
  obtain ⟨r, e1, e2⟩ := wp_exists main
  refine ⟨_, _, cells', by rw [e1, e2], ⟨rfl, rfl⟩, hlen', fun i j hij => ?_⟩
  have hqj := (h3 i j).mp hij
  obtain ⟨hj, hje⟩ := List.getElem?_eq_some_iff.mp hqj
  rw [hget j hj, List.getElem?_eq_getElem (by have := (hqr j hj).1; rw [hje] at this; simpa using this)]
  simp [hje]

example : IsPermArr 2 [1, 0] ∧ renumberCells [3, 0, 1, 2, 4, 1, 2, 3, 4] [0, 4, 9] [1, 0] false =
    .ok ([4, 1, 2, 3, 4, 3, 0, 1, 2].map some, [0, 5, 9].map some) := ⟨⟨by decide, by decide, by decide⟩, by decide⟩

/-- C56: with check, `renumberCells` accepts any distinct values and puts the cells in the order of these values; it refuses
repeated values. -/
theorem C56_renumberCells_check {conn connI : List Int} {cells : List Cell} (h : IsMesh conn connI cells) (o2n : List Int) :
    (o2n.Nodup → o2n.length = cells.length → ∃ (conn' connI' : List Int) (cells' : List Cell) (pos : List Int),
      renumberCells conn connI o2n true = .ok (conn'.map some, connI'.map some) ∧
      IsMesh conn' connI' cells' ∧ IsPermArr cells.length pos ∧ (∀ i j : Nat, pos[i]? = some (j : Int) → cells'[j]? = cells[i]?) ∧
      ∀ i j : Nat, ∀ x y p q : Int, o2n[i]? = some x → o2n[j]? = some y → pos[i]? = some p → pos[j]? = some q → (x < y ↔ p < q)) ∧
    (¬ o2n.Nodup → renumberCells conn connI o2n true = .error .exn) := by
  constructor
  · intro hn hlen
    obtain ⟨r, r1, r2, r3, -⟩ := (C09_rank o2n).1 hn
    rw [hlen] at r2
    obtain ⟨c, ci, cs, e1, e2, -, e4⟩ := C56_renumberCells h r r2
    refine ⟨c, ci, cs, r, ?_, e2, r2, e4, r3⟩
    rw [← e1]
    unfold renumberCells
    simp only [if_true, Bool.false_eq_true, if_false]
    rw [r1]
  · intro hn
    unfold renumberCells
    simp only [if_true]
    rw [(C09_rank o2n).2 hn]; rfl

example : renumberCells [3, 0, 1, 2, 4, 1, 2, 3, 4] [0, 4, 9] [12, -7] true =
    .ok ([4, 1, 2, 3, 4, 3, 0, 1, 2].map some, [0, 5, 9].map some) := by decide

/-- C56, finding: without check, a repeated value makes `renumberCells` read an uninitialised id. -/
theorem C56_renumberCells_repeated : IsMesh [3, 0, 1, 2, 3, 1, 2, 3] [0, 4, 8] [⟨3, [0, 1, 2]⟩, ⟨3, [1, 2, 3]⟩] ∧
    renumberCells [3, 0, 1, 2, 3, 1, 2, 3] [0, 4, 8] [0, 0] false = .error .ub := by decide

/-! ## Extraction -/

/-- The cells `ids` of the mesh. -/
def pickCells (cells : List Cell) (ids : List Int) : List Cell := ids.map fun i => cells.getD i.toNat ⟨0, []⟩

theorem partIdx_fold {conn connI : List Int} {cells : List Cell} (h : IsMesh conn connI cells) (ids : List Int) :
    (AllIn cells.length ids → ids.foldlM (partIdxStep connI) [0] = .ok (skyIdx ((pickCells cells ids).map Cell.row))) ∧
    (¬ AllIn cells.length ids → ids.foldlM (partIdxStep connI) [0] = .error .exn) := by
  have hl := h.length
  have main : ∀ E : Prop, (¬ AllIn cells.length ids → E) → wp (ids.foldlM (partIdxStep connI) [0]) (fun r => AllIn cells.length ids ∧
      r = skyIdx ((pickCells cells ids).map Cell.row)) E := by
    intro E hE
    refine wp_foldlM (fun (pre : List Int) r => AllIn cells.length pre ∧ r = skyIdx ((pickCells cells pre).map Cell.row)) ⟨by simp [AllIn], by simp [skyIdx, pickCells]⟩ ?_
    rintro pre x suf rfl r ⟨h1, rfl⟩
    unfold partIdxStep
    by_cases hx : 0 ≤ x ∧ x < (connI.length : Int) - 1
    · rw [if_pos hx]
      have hxl : x.toNat < cells.length := by omega
      obtain ⟨a, b, g1, g2, g3, g4, g5, g6, g7, g8, g9, g10⟩ := h.get hxl
      rw [show ((x.toNat : Nat) : Int) = x by omega] at g4 g5
      rw [wp_bind]
      refine wp_rd' (by simp) (a := (((pickCells cells pre).map Cell.row).flatten.length : Int)) ?_ ?_
      · rw [skyIdx_length, show (((((pickCells cells pre).map Cell.row).length + 1 : Nat) : Int) - 1).toNat = ((pickCells cells pre).map Cell.row).length by omega,
          skyIdx_getElem? _ (le_refl _), List.take_length]
      · rw [g5, ok_bind, g4, ok_bind]
        refine ⟨?_, ?_⟩
        · intro v hv
          rcases List.mem_append.mp hv with hv | hv
          · exact h1 v hv
          · rw [List.mem_singleton] at hv; omega
        · have : pickCells cells (pre ++ [x]) = pickCells cells pre ++ [cells[x.toNat]] := by
            simp [pickCells, List.getD_eq_getElem?_getD, List.getElem?_eq_getElem hxl]
          rw [this, List.map_append, List.map_cons, List.map_nil, skyIdx_snoc]
          congr 2
          simp only [Cell.row, List.length_cons]
          push_cast
          omega
    · rw [if_neg hx]
      exact hE fun ha => hx (by have := ha x (by simp); omega)
  constructor
  · intro ha
    obtain ⟨r, e1, _, e2⟩ := wp_exists (main False fun hn => hn ha)
    rw [e1, e2]
  · intro hn
    exact wp_throws (wp_mono (main True fun _ => trivial) (fun r ⟨h1, _⟩ => hn h1) id)

/-- C56: `buildPartOfMySelf` gives the cells designated by the ids, in the order of the ids (with repetitions), and the set of
their types; an id out of range is refused before anything is read. -/
theorem C56_buildPart {conn connI : List Int} {cells : List Cell} (h : IsMesh conn connI cells) (ids : List Int) :
    (AllIn cells.length ids → ∃ (conn' connI' types : List Int) (cells' : List Cell),
      buildPartKeepCoords conn connI ids = .ok (conn'.map some, connI', types) ∧ IsMesh conn' connI' cells' ∧
      cells'.length = ids.length ∧ (∀ (k : Nat) (id : Int), ids[k]? = some id → cells'[k]? = cells[id.toNat]?) ∧
      StrictSorted types ∧ ∀ t, t ∈ types ↔ ∃ c ∈ cells', c.type = t) ∧
    (¬ AllIn cells.length ids → buildPartKeepCoords conn connI ids = .error .exn) := by
  have hl := h.length
  constructor
  · intro ha
    set G := (pickCells cells ids).map Cell.row with hG
    have main : wp (buildPartKeepCoords conn connI ids) (fun r => r.1 = G.flatten.map some ∧ r.2.1 = skyIdx G ∧ StrictSorted r.2.2 ∧
        ∀ t, t ∈ r.2.2 ↔ ∃ c ∈ pickCells cells ids, c.type = t) False := by
      unfold buildPartKeepCoords
      rw [(partIdx_fold h ids).1 ha, ok_bind]
      have hn : rd (skyIdx G) (((skyIdx G).length : Int) - 1) = .ok (G.flatten.length : Int) := by
        apply rd_of_getElem? (by simp)
        rw [skyIdx_length, show (((G.length + 1 : Nat) : Int) - 1).toNat = G.length by omega, skyIdx_getElem? _ (le_refl _), List.take_length]
      rw [hn, ok_bind, if_neg (by omega), Int.toNat_natCast, wp_bind]
      refine wp_mono (wp_foldlM (E := False) (fun (pre : List Int) s => s.1 = filled ((pickCells cells pre).map Cell.row).flatten G.flatten.length ∧
        StrictSorted s.2 ∧ ∀ t, t ∈ s.2 ↔ ∃ c ∈ pickCells cells pre, c.type = t) ?_ ?_) ?_ id
      · exact ⟨by simp [pickCells, newCur_eq], List.Pairwise.nil, by simp [pickCells]⟩
      · rintro pre x suf hids ⟨cur, types⟩ ⟨rfl, h2, h3⟩
        have hx := ha x (by rw [hids]; simp)
        have hxl : x.toNat < cells.length := by omega
        obtain ⟨a, b, g1, g2, g3, g4, g5, g6, g7, g8, g9, g10⟩ := h.get hxl
        rw [show ((x.toNat : Nat) : Int) = x by omega] at g4 g5
        have hp : pickCells cells (pre ++ [x]) = pickCells cells pre ++ [cells[x.toNat]] := by
          simp [pickCells, List.getD_eq_getElem?_getD, List.getElem?_eq_getElem hxl]
        have hb : (((pickCells cells pre).map Cell.row).flatten ++ cells[x.toNat].row).length ≤ G.flatten.length := by
          have : pickCells cells ids = pickCells cells (pre ++ [x]) ++ pickCells cells suf := by rw [hids]; simp [pickCells]
          rw [hG, this, hp, List.map_append, List.flatten_append, List.length_append, List.map_append]
          simp
        rw [List.length_append] at hb
        have hrl : ((cells[x.toNat].row.length : Nat) : Int) = b - a := by rw [g10]; simp [Cell.row]
        rw [g4, ok_bind, g6, ok_bind, g5, ok_bind, emitCopy_filled (by omega) (by omega) (by omega) (by omega), ok_bind, g8]
        refine ⟨?_, sorted_setInsert h2, fun t => ?_⟩
        · rw [hp]; simp
        · rw [mem_setInsert, h3 t, hp]
          simp only [List.mem_append, List.mem_singleton]
          constructor
          · rintro (rfl | ⟨c, hc, rfl⟩)
            · exact ⟨_, Or.inr rfl, rfl⟩
            · exact ⟨c, Or.inl hc, rfl⟩
          · rintro ⟨c, hc | rfl, rfl⟩
            · exact Or.inr ⟨c, hc, rfl⟩
            · exact Or.inl rfl
      · rintro ⟨cur, types⟩ ⟨rfl, h2, h3⟩
        exact ⟨by rw [← hG]; exact filled_full rfl, rfl, h2, h3⟩
    obtain ⟨⟨r1, r2, r3⟩, e, h1, h2, h3, h4⟩ := wp_exists main
    simp only at h1 h2 h3 h4
    subst h1 h2
    refine ⟨_, _, r3, pickCells cells ids, e, ⟨rfl, rfl⟩, by simp [pickCells], fun k id hk => ?_, h3, h4⟩
    have := ha id (List.mem_of_getElem? hk)
    rw [pickCells, List.getElem?_map, hk, Option.map_some, List.getD_eq_getElem?_getD, List.getElem?_eq_getElem (by omega)]
    rfl
  · intro hn
    unfold buildPartKeepCoords
    rw [(partIdx_fold h ids).2 hn]; rfl

example : buildPartKeepCoords [3, 0, 1, 2, 4, 1, 2, 3, 4] [0, 4, 9] [1, 0, 1] =
    .ok ([4, 1, 2, 3, 4, 3, 0, 1, 2, 4, 1, 2, 3, 4].map some, [0, 5, 9, 14], [3, 4]) := by decide

/-- C56: `buildPartOfMySelfSlice` is the same on the progression of the slice. -/
theorem C56_buildPartSlice (b e s : Int) (n : Nat) (conn connI : List Int) :
    (SliceOk b e s → IsTermCount b e s n → buildPartKeepCoordsSlice conn connI b e s = buildPartKeepCoords conn connI (progression b s n)) ∧
    (¬ SliceOk b e s → buildPartKeepCoordsSlice conn connI b e s = .error .exn) := by
  constructor
  · intro hok hn
    obtain ⟨n', hn', ht⟩ := (C01_relative_count b e s).1 hok
    have := ht.unique hn
    subst this
    unfold buildPartKeepCoordsSlice
    rw [hn']
    rfl
  · intro h
    unfold buildPartKeepCoordsSlice
    rw [(C01_relative_count b e s).2 h]; rfl

example : buildPartKeepCoordsSlice [3, 0, 1, 2, 4, 1, 2, 3, 4, 3, 7, 8, 9] [0, 4, 9, 13] 2 (-1) (-2) =
    .ok ([3, 7, 8, 9, 3, 0, 1, 2].map some, [0, 4, 8], [3]) := by decide

/-- C56: extracting cells of an extraction is extracting with the composed ids. -/
theorem C56_buildPart_twice {conn connI : List Int} {cells : List Cell} (h : IsMesh conn connI cells) (ids ids2 : List Int)
    (ha : AllIn cells.length ids) (hb : AllIn ids.length ids2) :
    ∃ conn' connI' types r, buildPartKeepCoords conn connI ids = .ok (conn'.map some, connI', types) ∧
      buildPartKeepCoords conn' connI' ids2 = .ok r ∧ buildPartKeepCoords conn connI (ids2.map fun k => ids.getD k.toNat 0) = .ok r := by
  obtain ⟨c1, i1, t1, cs1, e1, m1, l1, g1, -⟩ := (C56_buildPart h ids).1 ha
  obtain ⟨c2, i2, t2, cs2, e2, m2, l2, g2, s2, k2⟩ := (C56_buildPart m1 ids2).1 (by rw [l1]; exact hb)
  have hget : ∀ k : Int, 0 ≤ k → k < ids.length → ids[k.toNat]? = some (ids.getD k.toNat 0) := by
    intro k h0 h1
    rw [List.getD_eq_getElem?_getD, List.getElem?_eq_getElem (by omega)]; rfl
  have hc : AllIn cells.length (ids2.map fun k => ids.getD k.toNat 0) := by
    intro v hv
    obtain ⟨k, hk, rfl⟩ := List.mem_map.mp hv
    have := hb k hk
    exact ha _ (List.mem_of_getElem? (hget k this.1 this.2))
  obtain ⟨c3, i3, t3, cs3, e3, m3, l3, g3, s3, k3⟩ := (C56_buildPart h _).1 hc
  have hcs : cs2 = cs3 := by
    apply List.ext_getElem?
    intro k
    by_cases hk : k < ids2.length
    · have hm := hb _ (List.getElem_mem hk)
      rw [g2 k ids2[k] (List.getElem?_eq_getElem hk), g1 ids2[k].toNat _ (hget _ hm.1 hm.2),
        g3 k (ids.getD ids2[k].toNat 0) (by rw [List.getElem?_map, List.getElem?_eq_getElem hk]; rfl)]
    · rw [List.getElem?_eq_none (by omega), List.getElem?_eq_none (by rw [l3]; simpa using hk)]
  subst hcs
  have ht : t2 = t3 := StrictSorted.ext s2 s3 fun t => by rw [k2 t, k3 t]
  refine ⟨c1, i1, t1, _, e1, e2, ?_⟩
  rw [e3, m2.1, m3.1, m2.2, m3.2, ht]

/-! ## Replacement -/

theorem initialised_map_some (l : List Int) : initialised (l.map some) = .ok l := by
  unfold initialised
  induction l with
  | nil => rfl
  | cons x l ih => rw [List.map_cons, List.mapM_cons, ih]; rfl

theorem easyAssign_spec {conn connI connO connIO : List Int} {cells others : List Cell} (h : IsMesh conn connI cells) (ho : IsMesh connO connIO others)
    (ids : List Int) (k : Nat) (hk : k + ids.length ≤ others.length) :
    (∃ b, easyAssign connI connIO k ids = .ok b ∧ (b = true → ∀ (j : Nat) (id : Int), ids[j]? = some id → 0 ≤ id ∧ id < cells.length ∧
      (others[k + j]?).map (fun c => c.row.length) = (cells[id.toNat]?).map (fun c => c.row.length))) ∨
    (¬ AllIn cells.length ids ∧ easyAssign connI connIO k ids = .error .exn) := by
  have hl := h.length
  induction ids generalizing k with
  | nil => exact Or.inl ⟨true, rfl, by simp⟩
  | cons id ids ih =>
    rw [List.length_cons] at hk
    unfold easyAssign
    by_cases hid : 0 ≤ id ∧ id < (connI.length : Int) - 1
    · rw [if_pos hid]
      have hil : id.toNat < cells.length := by omega
      obtain ⟨a, b, -, -, -, g4, g5, -, -, -, -, g10⟩ := h.get hil
      rw [show ((id.toNat : Nat) : Int) = id by omega] at g4 g5
      obtain ⟨a', b', -, -, -, g4', g5', -, -, -, -, g10'⟩ := ho.get (show k < others.length by omega)
      rw [g5', ok_bind, g4', ok_bind, g5, ok_bind, g4, ok_bind]
      by_cases heq : b' - a' = b - a
      · rw [if_pos heq]
        rcases ih (k + 1) (by omega) with ⟨r, h1, h2⟩ | ⟨h1, h2⟩
        · refine Or.inl ⟨r, h1, fun hr j x hj => ?_⟩
          cases j with
          | zero =>
            simp only [List.getElem?_cons_zero, Option.some.injEq] at hj
            subst hj
            refine ⟨hid.1, by omega, ?_⟩
            rw [Nat.add_zero, List.getElem?_eq_getElem (by omega), List.getElem?_eq_getElem hil]
            simp only [Option.map_some, Cell.row, List.length_cons]
            congr 1
            omega
          | succ j =>
            have := h2 hr j x (by simpa using hj)
            rwa [show k + 1 + j = k + (j + 1) by omega] at this
        · exact Or.inr ⟨fun ha => h1 fun v hv => ha v (by simp [hv]), h2⟩
      · rw [if_neg heq]
        exact Or.inl ⟨false, rfl, by simp⟩
    · rw [if_neg hid]
      exact Or.inr ⟨fun ha => hid (by have := ha id (by simp); omega), rfl⟩

/-- C56: `setPartOfMySelf` replaces cell `ids[k]` by cell `k` of the other mesh and leaves the other cells; the set of types is
recomputed.  Ids out of range and a wrong number of ids are refused. -/
theorem C56_setPart {conn connI connO connIO : List Int} {cells others : List Cell} (h : IsMesh conn connI cells) (ho : IsMesh connO connIO others)
    (ids : List Int) :
    (ids.length = others.length → AllIn cells.length ids → ids.Nodup → ∃ (conn' connI' types : List Int) (cells' : List Cell),
      setPartOfMySelf conn connI ids connO connIO = .ok (conn'.map some, connI', types) ∧ IsMesh conn' connI' cells' ∧
      cells'.length = cells.length ∧ (∀ (k : Nat) (id : Int), ids[k]? = some id → cells'[id.toNat]? = others[k]?) ∧
      (∀ i : Nat, (i : Int) ∉ ids → cells'[i]? = cells[i]?) ∧ StrictSorted types ∧ ∀ t, t ∈ types ↔ ∃ c ∈ cells', c.type = t) ∧
    ((ids.length ≠ others.length ∨ ¬ AllIn cells.length ids) → setPartOfMySelf conn connI ids connO connIO = .error .exn) := by
  have hl := h.length
  have hlo := ho.length
  have toCells : ∀ (d dI : List Int) (ng : List (List Int)), IsSky d dI ng → ng.length = cells.length → AllIn cells.length ids → ids.length = others.length →
      (∀ (k : Nat) (id : Int), ids[k]? = some id → ng[id.toNat]? = (others.map Cell.row)[k]?) →
      (∀ i : Nat, (i : Int) ∉ ids → ng[i]? = (cells.map Cell.row)[i]?) →
      ∃ cells', IsMesh d dI cells' ∧ cells'.length = cells.length ∧ (∀ (k : Nat) (id : Int), ids[k]? = some id → cells'[id.toNat]? = others[k]?) ∧
        (∀ i : Nat, (i : Int) ∉ ids → cells'[i]? = cells[i]?) := by
    intro d dI ng hsky hng ha hlen h1 h2
    have hrows : ∀ x ∈ ng, ∃ c : Cell, x = c.row := by
      intro x hx
      obtain ⟨i, hi⟩ := List.mem_iff_getElem?.mp hx
      by_cases hm : (i : Int) ∈ ids
      · obtain ⟨k, hk⟩ := List.mem_iff_getElem?.mp hm
        have := h1 k i hk
        rw [Int.toNat_natCast, hi, List.getElem?_map] at this
        obtain ⟨c, _, hc⟩ := Option.map_eq_some_iff.mp this.symm
        exact ⟨c, hc.symm⟩
      · have := h2 i hm
        rw [hi, List.getElem?_map] at this
        obtain ⟨c, _, hc⟩ := Option.map_eq_some_iff.mp this.symm
        exact ⟨c, hc.symm⟩
    obtain ⟨cells', m, rfl⟩ := isSky_rows hsky hrows
    refine ⟨cells', m, by simpa using hng, fun k id hk => ?_, fun i hi => ?_⟩
    · have := h1 k id hk
      rw [List.getElem?_map, List.getElem?_map] at this
      exact Option.map_injective row_injective this
    · have := h2 i hi
      rw [List.getElem?_map, List.getElem?_map] at this
      exact Option.map_injective row_injective this
  constructor
  · intro hlen ha hnd
    unfold setPartOfMySelf
    rw [if_neg (by omega)]
    rcases easyAssign_spec h ho ids 0 (by omega) with ⟨b, e1, e2⟩ | ⟨hn, _⟩
    · rw [e1, ok_bind]
      cases b with
      | true =>
        have hgood := e2 rfl
        obtain ⟨d, ng, k1, k2, k3, k4, k5⟩ := (C19_same_idx ids conn connO connI connIO _ _ h ho (by simp; omega)).1 (by
          intro k id hk
          obtain ⟨g1, g2, g3⟩ := hgood k id hk
          refine ⟨g1, by simpa using g2, ?_⟩
          rw [Nat.zero_add] at g3
          rw [List.getElem?_map, List.getElem?_map, Option.map_map, Option.map_map]
          exact g3)
        obtain ⟨cells', m1, m2, m3, m4⟩ := toCells d connI ng k2 (by simpa using k3) ha hlen (fun k id hk => k4 k id hk fun k' hk' hc => by
          have h1 := List.getElem?_eq_some_iff.mp hk
          have h2 := List.getElem?_eq_some_iff.mp hc
          have := (List.Nodup.getElem_inj_iff hnd).mp (h1.2.trans h2.2.symm)
          omega) k5
        obtain ⟨-, -, -, -, t, t1, t2, t3⟩ := C51_observers m1
        refine ⟨d, connI, t, cells', ?_, m1, m2, m3, m4, t2, t3⟩
        simp only [if_true]
        rw [k1, ok_bind, t1, ok_bind]
      | false =>
        obtain ⟨d, dI, ng, k1, k2, k3, k4, k5⟩ := (C19_set_part ids conn connO connI connIO _ _ h ho (by simp; omega)).1 (by simpa using ha) hnd
        obtain ⟨cells', m1, m2, m3, m4⟩ := toCells d dI ng k2 (by simpa using k3) ha hlen k4 k5
        obtain ⟨-, -, -, -, t, t1, t2, t3⟩ := C51_observers m1
        refine ⟨d, dI, t, cells', ?_, m1, m2, m3, m4, t2, t3⟩
        simp only [Bool.false_eq_true, if_false]
        rw [k1, ok_bind]
        simp only
        rw [initialised_map_some, ok_bind, t1, ok_bind]
    · exact absurd ha hn
  · intro hbad
    unfold setPartOfMySelf
    by_cases hlen : (ids.length : Int) ≠ (connIO.length : Int) - 1
    · rw [if_pos hlen]; rfl
    · rw [if_neg hlen]
      have ha : ¬ AllIn cells.length ids := by
        rcases hbad with hb | hb
        · omega
        · exact hb
      rcases easyAssign_spec h ho ids 0 (by omega) with ⟨b, e1, e2⟩ | ⟨_, e1⟩
      · rw [e1, ok_bind]
        cases b with
        | true =>
          exfalso
          apply ha
          intro v hv
          obtain ⟨j, hj⟩ := List.mem_iff_getElem?.mp hv
          have := e2 rfl j v hj
          exact ⟨this.1, this.2.1⟩
        | false =>
          simp only [Bool.false_eq_true, if_false]
          rw [(C19_set_part ids conn connO connI connIO _ _ h ho (by simp; omega)).2 (by simpa using ha)]; rfl
      · rw [e1]; rfl

example : setPartOfMySelf [3, 0, 1, 2, 4, 1, 2, 3, 4] [0, 4, 9] [1] [5, 9, 8, 7, 6, 5] [0, 6] =
    .ok ([3, 0, 1, 2, 5, 9, 8, 7, 6, 5].map some, [0, 4, 10], [3, 5]) := by decide

end
end MC
