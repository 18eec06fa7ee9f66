import Verif.Degen
import Verif.CellPoly
import Verif.SkyLineThm

/-!
# The loops on the cells: the cells are rewritten in place (C105)
-/

namespace MC

/-- What the cells write -/
def rowsOf (cells : List Cell) : List Int := (cells.map Cell.row).flatten

theorem rowsOf_cons (c : Cell) (cs : List Cell) : rowsOf (c :: cs) = c.row ++ rowsOf cs := by simp [rowsOf]

theorem rowsOf_snoc (cs : List Cell) (c : Cell) : rowsOf (cs ++ [c]) = rowsOf cs ++ c.row := by simp [rowsOf]

theorem rowsOf_drop {cells : List Cell} {i : Nat} (hi : i < cells.length) :
    rowsOf (cells.drop i) = cells[i].row ++ rowsOf (cells.drop (i + 1)) := by
  rw [List.drop_eq_getElem_cons hi, rowsOf_cons]

theorem rowsOf_take {cells : List Cell} {i : Nat} (hi : i < cells.length) :
    rowsOf (cells.take (i + 1)) = rowsOf (cells.take i) ++ cells[i].row := by
  rw [List.take_succ_eq_append_getElem hi, rowsOf_snoc]

theorem row_length (c : Cell) : c.row.length = c.nodes.length + 1 := by simp [Cell.row]

/-- The state of the loops: `kept` is written, the cells from `i` on are still there. -/
structure DegInv (connI0 : List Int) (cells : List Cell) (i : Nat) (kept : List Cell) (s : DegSt) : Prop where
  conn : ∃ G, s.conn = rowsOf kept ++ G ++ rowsOf (cells.drop i) ∧ (rowsOf kept).length + G.length = (rowsOf (cells.take i)).length
  pos : s.pos = (rowsOf (cells.take i)).length
  newPos : s.newPos = (rowsOf kept).length
  len : s.connI.length = cells.length + 1
  le : kept.length ≤ i
  idx : s.connI.take (kept.length + 1) = skyIdx (kept.map Cell.row)
  old : ∀ j, i < j → s.connI[j]? = connI0[j]?

theorem readWindow_mid {X Y : List Int} {c : Cell} {a b : Int} (ha : a = X.length) (hb : b = X.length + c.row.length) :
    readWindow (X ++ (c.row ++ Y)) a b = .ok c := by
  subst ha hb
  unfold readWindow
  rw [show X ++ (c.row ++ Y) = X ++ c.type :: (c.nodes ++ Y) by simp [Cell.row], rd_mid rfl, ok_bind, if_pos (by
    rw [row_length]
    simp only [List.length_append, List.length_cons]
    omega)]
  congr 1
  unfold slice
  rw [row_length, show ((X.length : Int) + 1).toNat = X.length + 1 by omega,
    show ((X.length : Int) + ((c.nodes.length + 1 : Nat) : Int) - (X.length + 1)).toNat = c.nodes.length by omega]
  have : (X ++ c.type :: (c.nodes ++ Y)).drop (X.length + 1) = c.nodes ++ Y := by
    rw [← List.drop_drop, List.drop_left]
    simp
  rw [this, List.take_left]

theorem putAt_mid {X W Y V : List Int} {p : Int} (hp : p = X.length) (hl : W.length = V.length) :
    putAt (X ++ (W ++ Y)) p V = .ok (X ++ (V ++ Y)) := by
  subst hp
  unfold putAt
  rw [if_pos (by simp only [List.length_append]; omega)]
  congr 1
  rw [show ((X.length : Int)).toNat = X.length by omega, List.take_left, ← List.drop_drop, List.drop_left, ← hl, List.drop_left,
    List.append_assoc]

/-- The window of the cell `i` is read. -/
theorem DegInv.read {connI0 : List Int} {cells kept : List Cell} {i : Nat} {s : DegSt} (h0 : connI0 = skyIdx (cells.map Cell.row))
    (h : DegInv connI0 cells i kept s) (hi : i < cells.length) :
    rd s.connI ((i : Int) + 1) = .ok ((rowsOf (cells.take (i + 1))).length : Int) ∧
      readWindow s.conn s.pos ((rowsOf (cells.take (i + 1))).length : Int) = .ok cells[i] := by
  obtain ⟨⟨G, hG, hl⟩, hp, -, -, -, -, ho⟩ := h
  constructor
  · refine rd_of_getElem? (by omega) ?_
    rw [show ((i : Int) + 1).toNat = i + 1 by omega, ho _ (by omega), h0, skyIdx_getElem? _ (by simp; omega), rowsOf, List.map_take]
  · rw [hG, rowsOf_drop hi, hp]
    refine readWindow_mid ?_ ?_
    · rw [List.length_append]; omega
    · rw [rowsOf_take hi, List.length_append, List.length_append]
      omega

/-- The nodes of the new cell are written: the cells after it stay. -/
theorem DegInv.put {connI0 : List Int} {cells kept : List Cell} {i : Nat} {s : DegSt}
    (h : DegInv connI0 cells i kept s) (hi : i < cells.length) (c : Cell) (hc : c.nodes.length ≤ cells[i].nodes.length) :
    ∃ w Z, putAt s.conn (s.newPos + 1) c.nodes = .ok (rowsOf kept ++ w :: (c.nodes ++ (Z ++ rowsOf (cells.drop (i + 1))))) ∧
      (rowsOf kept).length + c.row.length + Z.length = (rowsOf (cells.take (i + 1))).length := by
  obtain ⟨⟨G, hG, hl⟩, -, hn, -⟩ := h
  have hr1 := row_length c
  have hr2 := row_length cells[i]
  obtain ⟨w, W, hW⟩ : ∃ w W, G ++ cells[i].row = w :: W := by
    cases G with
    | nil => exact ⟨_, _, rfl⟩
    | cons w G => exact ⟨_, _, rfl⟩
  have hWl : W.length = G.length + cells[i].nodes.length := by
    have := congrArg List.length hW
    simp only [List.length_append, List.length_cons] at this
    omega
  have hsplit : W = W.take c.nodes.length ++ W.drop c.nodes.length := (List.take_append_drop _ _).symm
  refine ⟨w, W.drop c.nodes.length, ?_, ?_⟩
  · rw [hG, hn, rowsOf_drop hi]
    have e : rowsOf kept ++ G ++ (cells[i].row ++ rowsOf (cells.drop (i + 1))) =
        (rowsOf kept ++ [w]) ++ (W.take c.nodes.length ++ (W.drop c.nodes.length ++ rowsOf (cells.drop (i + 1)))) := by
      rw [← List.append_assoc (W.take _), ← hsplit]
      have : G ++ (cells[i].row ++ rowsOf (cells.drop (i + 1))) = w :: (W ++ rowsOf (cells.drop (i + 1))) := by
        rw [← List.append_assoc, hW]; rfl
      rw [List.append_assoc, this]
      simp
    rw [e, putAt_mid (by simp) (by rw [List.length_take]; omega)]
    simp
  · rw [rowsOf_take hi, List.length_append, List.length_drop]
    omega

/-- The index array is written. -/
theorem DegInv.index {connI0 : List Int} {cells kept : List Cell} {i : Nat} {s : DegSt} (h : DegInv connI0 cells i kept s)
    (hi : i < cells.length) (c : Cell) {p : Int} (hp : p = (kept.length : Int) + 1) :
    ∃ I, wr s.connI p (s.newPos + c.nodes.length + 1) = .ok I ∧ I.length = cells.length + 1 ∧
      I.take ((kept ++ [c]).length + 1) = skyIdx ((kept ++ [c]).map Cell.row) ∧ ∀ j, i + 1 < j → I[j]? = connI0[j]? := by
  obtain ⟨-, -, hn, hlen, hle, hidx, hold⟩ := h
  subst hp
  refine ⟨s.connI.set (kept.length + 1) (s.newPos + c.nodes.length + 1), ?_, by simpa using hlen, ?_, ?_⟩
  · rw [wr_ok (by omega) (by omega), show ((kept.length : Int) + 1).toNat = kept.length + 1 by omega]
  · rw [List.map_append, List.map_singleton, skyIdx_snoc, ← hidx, List.length_append, List.length_singleton]
    have hk : kept.length + 1 < (s.connI.set (kept.length + 1) (s.newPos + c.nodes.length + 1)).length := by
      rw [List.length_set]; omega
    rw [List.take_succ_eq_append_getElem hk]
    congr 1
    · rw [List.take_set_of_le (by omega)]
    · rw [List.getElem_set_self, hn]
      simp only [rowsOf, row_length]
      push_cast
      rw [← add_assoc]
  · intro j hj
    rw [List.getElem?_set_ne (by omega)]
    exact hold j (by omega)

theorem DegInv.init {conn connI : List Int} {cells : List Cell} (h : IsMesh conn connI cells) :
    DegInv connI cells 0 [] { conn := conn, connI := connI } := by
  refine ⟨⟨[], ?_, by simp [rowsOf]⟩, by simp [rowsOf], by simp [rowsOf], h.length, by simp, ?_, fun _ _ => rfl⟩
  · rw [h.1]; simp [rowsOf]
  · rw [h.2]
    have : (skyIdx (cells.map Cell.row)).length ≥ 1 := by simp
    rw [List.map_nil]
    rcases hs : skyIdx (cells.map Cell.row) with _ | ⟨a, t⟩
    · rw [hs] at this; simp at this
    · have := skyIdx_getElem? (cells.map Cell.row) (k := 0) (by omega)
      rw [hs] at this
      simp at this
      simp [this, skyIdx]

theorem DegInv.done {connI0 : List Int} {cells kept : List Cell} {s : DegSt} (h : DegInv connI0 cells cells.length kept s) :
    IsMesh (s.conn.take s.newPos.toNat) (s.connI.take (kept.length + 1)) kept := by
  obtain ⟨⟨G, hG, -⟩, -, hn, -, -, hi, -⟩ := h
  refine ⟨?_, hi⟩
  rw [hn, hG, List.append_assoc, Int.toNat_natCast, List.take_left]
  rfl

/-- One turn of `convertDegeneratedCells` or `unPolyze` on a cell which does not get longer. -/
theorem degStep_spec {connI0 : List Int} {cells kept : List Cell} {i : Nat} {s : DegSt} {f : Cell → M Cell}
    (h0 : connI0 = skyIdx (cells.map Cell.row)) (h : DegInv connI0 cells i kept s) (hk : kept.length = i) (hi : i < cells.length) {c : Cell}
    (hf : f cells[i] = .ok c) (hc : c.nodes.length ≤ cells[i].nodes.length) :
    ∃ s', degStep f i s = .ok s' ∧ DegInv connI0 cells (i + 1) (kept ++ [c]) s' ∧
      s'.chg = (s.chg || decide (c.type ≠ cells[i].type)) := by
  obtain ⟨r1, r2⟩ := h.read h0 hi
  obtain ⟨w, Z, p1, p2⟩ := h.put hi c hc
  obtain ⟨I, i1, i2, i3, i4⟩ := h.index hi c (p := (i : Int) + 1) (by omega)
  have hn := h.newPos
  unfold degStep
  rw [r1, ok_bind, r2, ok_bind, hf, ok_bind, p1, ok_bind, wr_mid hn, ok_bind, i1, ok_bind]
  refine ⟨_, rfl, ⟨⟨Z, ?_, ?_⟩, rfl, ?_, i2, ?_, i3, i4⟩, rfl⟩
  · simp [rowsOf_snoc, Cell.row]
  · rw [rowsOf_snoc, List.length_append, p2]
  · rw [rowsOf_snoc, List.length_append, row_length]
    dsimp only
    rw [hn]
    push_cast
    omega
  · rw [List.length_append, List.length_singleton]; omega

/-- The whole loop. -/
theorem degLoop_spec {conn connI : List Int} {cells outs : List Cell} {f : Cell → M Cell} (hm : IsMesh conn connI cells)
    (hf : List.Forall₂ (fun c c' => f c = .ok c' ∧ c'.nodes.length ≤ c.nodes.length) cells outs) :
    ∃ s, loop (connI.length - 1) { conn := conn, connI := connI : DegSt } (degStep f) = .ok s ∧
      IsMesh (s.conn.take s.newPos.toNat) s.connI outs ∧
      (s.chg = true ↔ cells.map Cell.type ≠ outs.map Cell.type) := by
  have hlen : cells.length = outs.length := hf.length_eq
  have key : ∀ i, i ≤ cells.length → ∃ s, loop i { conn := conn, connI := connI : DegSt } (degStep f) = .ok s ∧
      DegInv connI cells i (outs.take i) s ∧ (s.chg = true ↔ (cells.take i).map Cell.type ≠ (outs.take i).map Cell.type) := by
    intro i
    induction i with
    | zero =>
      intro _
      refine ⟨_, rfl, DegInv.init hm, by simp⟩
    | succ i ih =>
      intro hi
      obtain ⟨s, h1, h2, h3⟩ := ih (by omega)
      have hi' : i < cells.length := by omega
      obtain ⟨g1, g2⟩ := (List.forall₂_iff_get.mp hf).2 i hi' (by omega)
      obtain ⟨s', t1, t2, t3⟩ := degStep_spec hm.2 h2 (by simp; omega) hi' g1 g2
      refine ⟨s', by rw [loop_succ, h1, ok_bind, t1], ?_, ?_⟩
      · rw [List.take_succ_eq_append_getElem (by omega)]
        exact t2
      · rw [t3, Bool.or_eq_true, h3, List.take_succ_eq_append_getElem hi', List.take_succ_eq_append_getElem (show i < outs.length by omega),
          List.map_append, List.map_append]
        constructor
        · rintro (h | h) he
          · exact h (List.append_inj_left he (by simp; omega))
          · have := List.append_inj_right he (by simp; omega)
            simp at this h
            exact h this.symm
        · intro h
          by_contra hcon
          rw [not_or] at hcon
          obtain ⟨a, b⟩ := hcon
          rw [not_not] at a
          simp at b
          exact h (by rw [a]; simp [b])
  obtain ⟨s, h1, h2, h3⟩ := key cells.length le_rfl
  have hl := hm.length
  refine ⟨s, by rw [show connI.length - 1 = cells.length by omega]; exact h1, ?_, ?_⟩
  · have := h2.done
    rw [hlen, List.take_length] at this
    rw [List.take_of_length_le (l := s.connI) (by rw [h2.len]; omega)] at this
    exact this
  · rw [h3, List.take_length, hlen, List.take_length]

/-! ## Flat cells -/

/-- The cells removed by `convertDegeneratedCellsAndRemoveFlatOnes`: at most two nodes, or a quadratic cell made of two points and twice the
same middle point. -/
def IsThin (c : Cell) : Prop :=
  c.nodes.length ≤ 2 ∨ ((∃ cm ∈ cellModels, cm.code = c.type ∧ cm.quad = true) ∧ c.nodes.length = 4 ∧ c.nodes[2]? = c.nodes[3]?)

instance (c : Cell) : Decidable (IsThin c) := by unfold IsThin; infer_instance

/-- The numbers of the cells which satisfy `p` -/
def idsWhere (p : Cell → Bool) (cells : List Cell) : List Int :=
  (cells.zipIdx.filter fun x => p x.1).map fun x => (x.2 : Int)

theorem idsWhere_snoc (p : Cell → Bool) (cells : List Cell) (c : Cell) :
    idsWhere p (cells ++ [c]) = idsWhere p cells ++ if p c then [(cells.length : Int)] else [] := by
  unfold idsWhere
  rw [List.zipIdx_append, List.filter_append, List.map_append]
  congr 1
  simp only [List.zipIdx_singleton, List.filter_cons, List.filter_nil, Nat.zero_add]
  split <;> rfl

theorem mem_idsWhere (p : Cell → Bool) (cells : List Cell) (k : Int) :
    k ∈ idsWhere p cells ↔ ∃ i : Nat, ∃ hi : i < cells.length, k = i ∧ p cells[i] = true := by
  unfold idsWhere
  simp only [List.mem_map, List.mem_filter, List.mem_zipIdx_iff_getElem?, Prod.exists]
  constructor
  · rintro ⟨c, i, ⟨h1, h2⟩, rfl⟩
    obtain ⟨hi, h3⟩ := List.getElem?_eq_some_iff.mp h1
    exact ⟨i, hi, rfl, by rw [h3]; exact h2⟩
  · rintro ⟨i, hi, rfl, h⟩
    exact ⟨_, i, ⟨List.getElem?_eq_getElem hi, h⟩, rfl⟩

theorem idsWhere_length (p : Cell → Bool) (cells : List Cell) :
    (idsWhere p cells).length + (cells.filter fun c => !p c).length = cells.length := by
  induction cells using List.reverseRecOn with
  | nil => rfl
  | append_singleton l c ih =>
    rw [idsWhere_snoc, List.filter_append]
    cases h : p c <;> simp [h] <;> omega

theorem isFlat_spec {A Z : List Int} {w : Int} {c : Cell} {cm : CellModel} (hc : getCellModel c.type = .ok cm) {p : Int} (hp : p = A.length) :
    isFlatCell (A ++ w :: (c.nodes ++ Z)) p c.nodes.length c.type = .ok (decide (IsThin c)) := by
  have hq : (∃ cm ∈ cellModels, cm.code = c.type ∧ cm.quad = true) ↔ cm.quad = true := by
    obtain ⟨hm, he⟩ := getCellModel_mem hc
    constructor
    · rintro ⟨cm', h1, h2, h3⟩
      have tab : ∀ a ∈ cellModels, ∀ b ∈ cellModels, a.code = b.code → a.quad = b.quad := by decide
      rw [← tab cm' h1 cm hm (h2.trans he.symm)]
      exact h3
    · exact fun h => ⟨cm, hm, he, h⟩
  have hT : decide (IsThin c) = decide (c.nodes.length ≤ 2 ∨ cm.quad = true ∧ c.nodes.length = 4 ∧ c.nodes[2]? = c.nodes[3]?) := by
    rw [decide_eq_decide, IsThin, hq]
  rw [hT]
  unfold isFlatCell
  rw [hc, ok_bind]
  by_cases h2 : c.nodes.length ≤ 2
  · simp [h2]
  · rw [if_neg h2]
    by_cases h4 : cm.quad = true ∧ c.nodes.length = 4
    · rw [if_pos h4]
      obtain ⟨hq', h4⟩ := h4
      obtain ⟨t, nodes⟩ := c
      match nodes, h4 with
      | [x0, x1, x2, x3], _ =>
        subst hp
        have e1 : rd (A ++ w :: ([x0, x1, x2, x3] ++ Z)) ((A.length : Int) + 1 + (([x0, x1, x2, x3].length / 2 : Nat) : Int)) = .ok x2 := by
          rw [show A ++ w :: ([x0, x1, x2, x3] ++ Z) = (A ++ [w, x0, x1]) ++ x2 :: (x3 :: Z) by simp]
          exact rd_mid (by simp; omega)
        have e2 : rd (A ++ w :: ([x0, x1, x2, x3] ++ Z)) ((A.length : Int) + 1 + (([x0, x1, x2, x3].length / 2 : Nat) : Int) + 1) = .ok x3 := by
          rw [show A ++ w :: ([x0, x1, x2, x3] ++ Z) = (A ++ [w, x0, x1, x2]) ++ x3 :: Z by simp]
          exact rd_mid (by simp; omega)
        dsimp only at e1 e2 ⊢
        rw [e1, ok_bind, e2, ok_bind]
        simp [hq']
    · rw [if_neg h4]
      have : ¬ (c.nodes.length ≤ 2 ∨ cm.quad = true ∧ c.nodes.length = 4 ∧ c.nodes[2]? = c.nodes[3]?) := by tauto
      rw [decide_eq_false this]

theorem flatStep_spec {connI0 : List Int} {cells kept : List Cell} {i : Nat} {s : DegSt}
    (h0 : connI0 = skyIdx (cells.map Cell.row)) (h : DegInv connI0 cells i kept s) (hk : kept.length + s.del.length = i) (hi : i < cells.length)
    {c : Cell} {cm : CellModel} (hf : simplifyCell cells[i] = .ok c) (hcm : getCellModel c.type = .ok cm)
    (hc : c.nodes.length ≤ cells[i].nodes.length) :
    ∃ s', flatStep i s = .ok s' ∧ DegInv connI0 cells (i + 1) (kept ++ if IsThin c then [] else [c]) s' ∧
      s'.del = s.del ++ if IsThin c then [(i : Int)] else [] := by
  obtain ⟨r1, r2⟩ := h.read h0 hi
  obtain ⟨w, Z, p1, p2⟩ := h.put hi c hc
  have hn := h.newPos
  unfold flatStep
  rw [r1, ok_bind, r2, ok_bind, hf, ok_bind, p1, ok_bind, isFlat_spec hcm hn, ok_bind]
  unfold flatEnd
  by_cases ht : IsThin c
  · simp only [ht, decide_true, if_true]
    obtain ⟨⟨G, hG, hl⟩, hp, hn, hlen, hle, hidx, hold⟩ := h
    have hlast : s.connI[kept.length]? = some s.newPos := by
      have : (s.connI.take (kept.length + 1))[kept.length]? = (skyIdx (kept.map Cell.row))[kept.length]? := by rw [hidx]
      rw [List.getElem?_take_of_lt (by omega), skyIdx_getElem? _ (by simp), List.take_of_length_le (by simp)] at this
      rw [this, hn]
      rfl
    have hset : s.connI.set kept.length s.newPos = s.connI := by
      apply List.ext_getElem?
      intro j
      by_cases hj : kept.length = j
      · subst hj
        rw [List.getElem?_set_self (by omega), hlast]
      · rw [List.getElem?_set_ne hj]
    rw [wr_ok (by push_cast; omega) (by push_cast; omega), ok_bind,
      show ((i : Int) + 1 - ((s.del.length + 1 : Nat) : Int)).toNat = kept.length by push_cast; omega, hset]
    refine ⟨_, rfl, ⟨⟨w :: (c.nodes ++ Z), ?_, ?_⟩, rfl, ?_, hlen, ?_, ?_, ?_⟩, rfl⟩
    · simp
    · rw [List.append_nil, ← p2, row_length, List.length_cons, List.length_append]
      omega
    · rw [List.append_nil]; exact hn
    · rw [List.append_nil]; omega
    · rw [List.append_nil]; exact hidx
    · exact fun j hj => hold j (by omega)
  · simp only [ht, decide_false, Bool.false_eq_true, if_false]
    obtain ⟨I, i1, i2, i3, i4⟩ := h.index hi c (p := (i : Int) + 1 - (s.del.length : Nat)) (by omega)
    rw [wr_mid hn, ok_bind, i1, ok_bind]
    refine ⟨_, rfl, ⟨⟨Z, ?_, ?_⟩, rfl, ?_, i2, ?_, i3, i4⟩, by simp⟩
    · simp [rowsOf_snoc, Cell.row]
    · rw [rowsOf_snoc, List.length_append, p2]
    · rw [rowsOf_snoc, List.length_append, row_length]
      dsimp only
      rw [hn]
      push_cast
      omega
    · have := h.le
      rw [List.length_append, List.length_singleton]; omega

theorem flatLoop_spec {conn connI : List Int} {cells outs : List Cell} (hm : IsMesh conn connI cells)
    (hf : List.Forall₂ (fun c c' => simplifyCell c = .ok c' ∧ (∃ cm, getCellModel c'.type = .ok cm) ∧ c'.nodes.length ≤ c.nodes.length) cells outs) :
    ∃ s, loop (connI.length - 1) { conn := conn, connI := connI : DegSt } flatStep = .ok s ∧
      IsMesh (s.conn.take s.newPos.toNat) (s.connI.take (connI.length - s.del.length)) (outs.filter fun c => !decide (IsThin c)) ∧
      s.del = idsWhere (fun c => decide (IsThin c)) outs := by
  have hlen : cells.length = outs.length := hf.length_eq
  have key : ∀ i, i ≤ cells.length → ∃ s, loop i { conn := conn, connI := connI : DegSt } flatStep = .ok s ∧
      DegInv connI cells i ((outs.take i).filter fun c => !decide (IsThin c)) s ∧ s.del = idsWhere (fun c => decide (IsThin c)) (outs.take i) := by
    intro i
    induction i with
    | zero =>
      intro _
      exact ⟨_, rfl, DegInv.init hm, rfl⟩
    | succ i ih =>
      intro hi
      obtain ⟨s, h1, h2, h3⟩ := ih (by omega)
      have hi' : i < cells.length := by omega
      have hil : (outs.take i).length = i := List.length_take_of_le (by omega)
      have hcnt := idsWhere_length (fun c => decide (IsThin c)) (outs.take i)
      obtain ⟨g1, ⟨cm, g2⟩, g3⟩ := (List.forall₂_iff_get.mp hf).2 i hi' (by omega)
      obtain ⟨s', t1, t2, t3⟩ := flatStep_spec hm.2 h2 (by rw [h3]; omega) hi' g1 g2 g3
      refine ⟨s', by rw [loop_succ, h1, ok_bind, t1], ?_, ?_⟩
      · rw [List.take_succ_eq_append_getElem (by omega), List.filter_append, List.filter_cons, List.filter_nil]
        convert t2 using 2
        simp only [List.get_eq_getElem]
        by_cases h : IsThin (outs[i]'(by omega)) <;> simp [h]
      · rw [t3, List.take_succ_eq_append_getElem (show i < outs.length by omega), idsWhere_snoc, h3, hil]
        simp
  obtain ⟨s, h1, h2, h3⟩ := key cells.length le_rfl
  have hl := hm.length
  rw [hlen, List.take_length] at h3
  have hcnt := idsWhere_length (fun c => decide (IsThin c)) outs
  refine ⟨s, by rw [show connI.length - 1 = cells.length by omega]; exact h1, ?_, h3⟩
  have := h2.done
  rw [hlen, List.take_length] at this
  rw [h3, show connI.length - (idsWhere (fun c => decide (IsThin c)) outs).length = (outs.filter fun c => !decide (IsThin c)).length + 1 by omega]
  exact this

end MC
