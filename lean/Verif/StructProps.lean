import Verif.Struct
import Verif.RenumberProps
import Verif.StdAlg
import Mathlib.Tactic.Ring
import Mathlib.Tactic.Linarith

/-!
# Structured grids (C39, C41, C42) – proofs
-/

namespace MC

/-! ## Specification -/

/-- The id of the element at position `p`, first axis fastest. -/
def lin : List Int → List Int → Int
  | n :: st, p :: ps => p + n * lin st ps
  | _, _ => 0

/-- A position inside a structure. -/
def InGrid (st p : List Int) : Prop := List.Forall₂ (fun p n => 0 ≤ p ∧ p < n) p st

/-- A position inside a part in compact format. -/
def InBox (part : List (Int × Int)) (q : List Int) : Prop := List.Forall₂ (fun q (r : Int × Int) => r.1 ≤ q ∧ q < r.2) q part

/-- A part in compact format inside a structure. -/
def BoxIn (st : List Int) (part : List (Int × Int)) : Prop :=
  List.Forall₂ (fun (r : Int × Int) n => 0 ≤ r.1 ∧ r.1 ≤ r.2 ∧ r.2 ≤ n) part st

/-- `ids` is the increasing list of the ids of the positions of the part. -/
def IsBoxList (st : List Int) (part : List (Int × Int)) (ids : List Int) : Prop :=
  StrictSorted ids ∧ ∀ x, x ∈ ids ↔ ∃ q, InBox part q ∧ lin st q = x

/-! ## Arithmetic of positions -/

theorem splitVect_cons (n : Int) (st : List Int) : splitVect (n :: st) = 1 :: (splitVect st).map (n * ·) := by
  simp [splitVect, List.range_succ_eq_map, Function.comp_def]

theorem sum_zipWith_scale (c : Int) : ∀ (p s : List Int), (List.zipWith (· * ·) p (s.map (c * ·))).sum = c * (List.zipWith (· * ·) p s).sum
  | [], _ => by simp
  | _ :: _, [] => by simp
  | x :: p, y :: s => by
    simp only [List.map_cons, List.zipWith_cons_cons, List.sum_cons, sum_zipWith_scale c p s]
    ring

theorem dot_split : ∀ (st p : List Int), (List.zipWith (· * ·) p (splitVect st)).sum = lin st p
  | [], p => by simp [splitVect, lin]
  | n :: st, [] => by simp [lin]
  | n :: st, x :: p => by
    rw [splitVect_cons, List.zipWith_cons_cons, List.sum_cons, sum_zipWith_scale, dot_split st p, lin]
    ring

theorem lin_bounds : ∀ {st p : List Int}, InGrid st p → 0 ≤ lin st p ∧ lin st p < st.prod
  | _, _, .nil => by simp [lin]
  | _, _, .cons (a := x) (b := n) (l₁ := p) (l₂ := st) h hs => by
    obtain ⟨h1, h2⟩ := lin_bounds hs
    rw [lin, List.prod_cons]
    constructor
    · have : 0 ≤ n * lin st p := Int.mul_nonneg (by omega) h1
      omega
    · have : n * (lin st p + 1) ≤ n * st.prod := Int.mul_le_mul_of_nonneg_left (by omega) (by omega)
      rw [Int.mul_add] at this
      omega

theorem lin_inj : ∀ {st p q : List Int}, InGrid st p → InGrid st q → lin st p = lin st q → p = q
  | _, _, _, .nil, hq, _ => by cases hq; rfl
  | _, _, _, .cons (a := x) (b := n) (l₁ := p) (l₂ := st) h hs, hq, e => by
    cases hq with
    | cons h' hs' =>
      rename_i y q
      simp only [lin] at e
      have e1 : x = y := by
        have a1 : (x + n * lin st p) % n = x := by rw [Int.add_mul_emod_self_left, Int.emod_eq_of_lt h.1 h.2]
        have a2 : (y + n * lin st q) % n = y := by rw [Int.add_mul_emod_self_left, Int.emod_eq_of_lt h'.1 h'.2]
        rw [← a1, ← a2, e]
      subst e1
      have e2 : n * lin st p = n * lin st q := by omega
      have e3 := Int.eq_of_mul_eq_mul_left (by omega) e2
      rw [lin_inj hs hs' e3]

theorem lin_mono : ∀ {st p q : List Int}, (∀ n ∈ st, 0 ≤ n) → List.Forall₂ (· ≤ ·) p q → p.length = st.length → lin st p ≤ lin st q
  | [], _, _, _, _, _ => by simp [lin]
  | n :: st, _, _, hst, .nil, hl => by simp at hl
  | n :: st, _, _, hst, .cons h hs, hl => by
    simp only [lin]
    have := Int.mul_le_mul_of_nonneg_left (lin_mono (st := st) (fun m hm => hst m (List.mem_cons_of_mem _ hm)) hs (by simpa using hl)) (hst n (by simp))
    omega

/-- `GetPosFromId` on the scaled strides. -/
theorem posLoop_spec : ∀ (st : List Int) (c w : Int), (∀ n ∈ st, 0 < n) → 0 < c → 0 ≤ w → w < c * st.prod →
    ∃ r p, posLoop ((splitVect st).map (c * ·)) w = .ok (r, p) ∧ InGrid st p ∧ w = r + c * lin st p ∧ 0 ≤ r ∧ r < c
  | [], c, w, _, _, h0, hw => by
    refine ⟨w, [], by simp [splitVect, posLoop], .nil, by simp [lin], h0, by simpa using hw⟩
  | n :: st, c, w, hst, hc, h0, hw => by
    have hn : 0 < n := hst n (by simp)
    have hcn : 0 < c * n := Int.mul_pos hc hn
    obtain ⟨r, p, e1, e2, e3, e4, e5⟩ := posLoop_spec st (c * n) w (fun m hm => hst m (by simp [hm])) hcn h0 (by
      rw [List.prod_cons, ← Int.mul_assoc] at hw
      exact hw)
    refine ⟨r.tmod c, r.tdiv c :: p, ?_, ?_, ?_, ?_, ?_⟩
    · rw [splitVect_cons, List.map_cons, List.map_map, posLoop]
      have hf : ((fun x => c * x) ∘ fun x => n * x) = fun x => (c * n) * x := by
        funext x; simp [Int.mul_assoc]
      rw [hf, e1, ok_bind, if_neg (by omega)]
      simp
    · refine .cons ⟨?_, ?_⟩ e2
      · rw [Int.tdiv_eq_ediv_of_nonneg e4]
        exact Int.ediv_nonneg e4 (by omega)
      · rw [Int.tdiv_eq_ediv_of_nonneg e4]
        exact Int.ediv_lt_of_lt_mul hc (by rw [Int.mul_comm n c]; exact e5)
    · have := Int.mul_tdiv_add_tmod r c
      rw [e3, lin]
      have e6 : c * (r.tdiv c + n * lin st p) = c * r.tdiv c + c * n * lin st p := by ring
      rw [e6]
      omega
    · exact Int.tmod_nonneg c e4
    · exact Int.tmod_lt_of_pos r hc

theorem getPosFromId_spec {st : List Int} (hst : ∀ n ∈ st, 0 < n) {x : Int} (h0 : 0 ≤ x) (hx : x < st.prod) :
    ∃ p, getPosFromId x (splitVect st) = .ok p ∧ InGrid st p ∧ lin st p = x := by
  obtain ⟨r, p, e1, e2, e3, e4, e5⟩ := posLoop_spec st 1 x hst (by omega) h0 (by omega)
  refine ⟨p, ?_, e2, by omega⟩
  have : ((splitVect st).map ((1 : Int) * ·)) = splitVect st := by simp
  rw [this] at e1
  simp only [getPosFromId, e1, ok_bind]

theorem getPosFromId_lin {st p : List Int} (hp : InGrid st p) : getPosFromId (lin st p) (splitVect st) = .ok p := by
  have hst : ∀ n ∈ st, 0 < n := by
    intro n hn
    obtain ⟨i, hi, rfl⟩ := List.mem_iff_getElem.mp hn
    have := (List.forall₂_iff_get.mp hp).2 i (by rw [hp.length_eq]; exact hi) hi
    simp at this
    omega
  obtain ⟨h1, h2⟩ := lin_bounds hp
  obtain ⟨q, e1, e2, e3⟩ := getPosFromId_spec hst h1 h2
  rw [e1, lin_inj e2 hp e3]

/-! ## C39 -/

theorem wrap32_small {x : Int} (h0 : -2 ^ 31 ≤ x) (h1 : x < 2 ^ 31) : wrap32 x = x := by
  unfold wrap32
  rw [Int.bmod_eq_of_le (by simpa using h0) (by simpa using h1)]

theorem accumulateInt_small : ∀ (l : List Int) (a : Int), 0 ≤ a → (∀ x ∈ l, 0 ≤ x) → a + l.sum < 2 ^ 31 →
    l.foldl (fun acc x => wrap32 (acc + x)) a = a + l.sum
  | [], a, _, _, _ => by simp
  | x :: l, a, ha, hl, h => by
    have hx := hl x (by simp)
    have hs : 0 ≤ l.sum := List.sum_nonneg fun y hy => hl y (by simp [hy])
    rw [List.sum_cons] at h
    rw [List.foldl_cons, wrap32_small (by omega) (by omega), accumulateInt_small l (a + x) (by omega) (fun y hy => hl y (by simp [hy])) (by omega),
      List.sum_cons]
    omega

theorem prod_pos_int : ∀ {l : List Int}, (∀ x ∈ l, 0 < x) → 0 < l.prod
  | [], _ => by simp
  | x :: l, h => by
    rw [List.prod_cons]
    exact Int.mul_pos (h x (by simp)) (prod_pos_int fun y hy => h y (by simp [hy]))

theorem accumulateMulInt_small : ∀ (l : List Int) (a : Int), 0 < a → (∀ x ∈ l, 0 < x) → a * l.prod < 2 ^ 31 →
    l.foldl (fun acc x => wrap32 (acc * x)) a = a * l.prod
  | [], a, _, _, _ => by simp
  | x :: l, a, ha, hl, h => by
    have hx := hl x (by simp)
    have hp : 0 < l.prod := prod_pos_int fun y hy => hl y (by simp [hy])
    have hax : 0 < a * x := Int.mul_pos ha hx
    rw [List.prod_cons, ← Int.mul_assoc] at h
    have : a * x * 1 ≤ a * x * l.prod := Int.mul_le_mul_of_nonneg_left (by omega) (by omega)
    rw [List.foldl_cons, wrap32_small (by omega) (by omega), accumulateMulInt_small l (a * x) hax (fun y hy => hl y (by simp [hy])) h,
      List.prod_cons, Int.mul_assoc]

theorem zip_terms_nonneg {st p : List Int} (hp : InGrid st p) : ∀ x ∈ List.zipWith (· * ·) p (splitVect st), 0 ≤ x := by
  intro x hx
  obtain ⟨i, hi, rfl⟩ := List.mem_iff_getElem.mp hx
  rw [List.getElem_zipWith]
  simp only [List.length_zipWith] at hi
  have hi' : i < p.length := by omega
  have hst : ∀ n ∈ st, 0 < n := by
    intro n hn
    obtain ⟨i, hi, rfl⟩ := List.mem_iff_getElem.mp hn
    have := (List.forall₂_iff_get.mp hp).2 i (by rw [hp.length_eq]; exact hi) hi
    simp at this
    omega
  have h1 := (List.forall₂_iff_get.mp hp).2 i hi' (by rw [← hp.length_eq]; exact hi')
  refine Int.mul_nonneg (by simpa using h1.1) ?_
  simp only [splitVect, List.getElem_map, List.getElem_range]
  exact Int.le_of_lt (prod_pos_int fun y hy => hst y (List.mem_of_mem_take hy))

theorem structMeshDim_full {ngs : List Int} (h : ∀ n ∈ ngs, 2 ≤ n) : structMeshDim ngs = .ok ngs.length := by
  unfold structMeshDim
  rw [if_neg]
  · congr 2
    rw [List.filter_eq_self.mpr]
    intro n hn
    have := h n hn
    simp; omega
  · simp only [List.any_eq_true, decide_eq_true_eq, not_exists, not_and]
    intro n hn
    have := h n hn
    omega

theorem cellGrid_pos {ngs : List Int} (h : ∀ n ∈ ngs, 2 ≤ n) : ∀ n ∈ cellGridStructure ngs, 0 < n := by
  intro n hn
  simp only [cellGridStructure, List.mem_map] at hn
  obtain ⟨m, hm, rfl⟩ := hn
  have := h m hm
  omega

/-- **C39** Cells: on a grid with at least two nodes on each axis and at most `2^31 - 1` cells, `getCellIdFromPos` gives the positions the ids
`0 .. nbCells-1` one to one, first axis fastest, and `getLocationFromCellId` is the inverse; other ids are refused. -/
theorem C39_cells {ngs : List Int} (h : ∀ n ∈ ngs, 2 ≤ n) (hsz : (cellGridStructure ngs).prod < 2 ^ 31) :
    (∀ p, InGrid (cellGridStructure ngs) p → ∃ id, getCellIdFromPos ngs p = .ok id ∧ id = lin (cellGridStructure ngs) p ∧
        0 ≤ id ∧ id < (cellGridStructure ngs).prod ∧ getLocationFromCellId ngs id = .ok p) ∧
    (∀ id, 0 ≤ id → id < (cellGridStructure ngs).prod →
        ∃ p, getLocationFromCellId ngs id = .ok p ∧ InGrid (cellGridStructure ngs) p ∧ getCellIdFromPos ngs p = .ok id) ∧
    (∀ id, id < 0 ∨ (cellGridStructure ngs).prod ≤ id → getLocationFromCellId ngs id = .error .exn) := by
  have hpos := cellGrid_pos h
  have hacc : accumulateMulInt (cellGridStructure ngs) = (cellGridStructure ngs).prod := by
    have := accumulateMulInt_small (cellGridStructure ngs) 1 (by omega) hpos (by omega)
    simpa [accumulateMulInt] using this
  have hlen : (cellGridStructure ngs).length = ngs.length := by simp [cellGridStructure]
  have htake : (splitVect (cellGridStructure ngs)).take ngs.length = splitVect (cellGridStructure ngs) := by
    apply List.take_of_length_le
    simp [splitVect, hlen]
  have fwd : ∀ p, InGrid (cellGridStructure ngs) p → getCellIdFromPos ngs p = .ok (lin (cellGridStructure ngs) p) := by
    intro p hp
    have hpl : p.take ngs.length = p := List.take_of_length_le (by rw [hp.length_eq, hlen])
    simp only [getCellIdFromPos, structMeshDim_full h, ok_bind, hpl]
    congr 1
    have := accumulateInt_small _ 0 (by omega) (zip_terms_nonneg hp) (by
      rw [dot_split]
      have := (lin_bounds hp).2
      omega)
    rw [dot_split] at this
    simpa [accumulateInt] using this
  refine ⟨fun p hp => ?_, fun id h0 h1 => ?_, fun id hid => ?_⟩
  · obtain ⟨b0, b1⟩ := lin_bounds hp
    refine ⟨_, fwd p hp, rfl, b0, b1, ?_⟩
    simp only [getLocationFromCellId, structMeshDim_full h, ok_bind, hacc, htake]
    rw [if_neg (by omega)]
    exact getPosFromId_lin hp
  · obtain ⟨p, e1, e2, e3⟩ := getPosFromId_spec hpos h0 h1
    refine ⟨p, ?_, e2, by rw [fwd p e2, e3]⟩
    simp only [getLocationFromCellId, structMeshDim_full h, ok_bind, hacc, htake]
    rw [if_neg (by omega)]
    exact e1
  · simp only [getLocationFromCellId, structMeshDim_full h, ok_bind, hacc]
    rw [if_pos (by omega)]
    rfl

/-- **C39** Nodes: the same, also with a single node on some axes. -/
theorem C39_nodes {ngs : List Int} (h : ∀ n ∈ ngs, 1 ≤ n) (hsz : ngs.prod < 2 ^ 31) :
    (∀ p, InGrid ngs p → getNodeIdFromPos ngs p = lin ngs p ∧ 0 ≤ lin ngs p ∧ lin ngs p < structNumberOfNodes ngs ∧
        getLocationFromNodeId ngs (lin ngs p) = .ok p) ∧
    (∀ id, 0 ≤ id → id < structNumberOfNodes ngs → ∃ p, getLocationFromNodeId ngs id = .ok p ∧ InGrid ngs p ∧ getNodeIdFromPos ngs p = id) ∧
    (∀ id, id < 0 ∨ structNumberOfNodes ngs ≤ id → getLocationFromNodeId ngs id = .error .exn) := by
  have hpos : ∀ n ∈ ngs, 0 < n := fun n hn => by have := h n hn; omega
  have hacc : accumulateMulInt ngs = ngs.prod := by
    have := accumulateMulInt_small ngs 1 (by omega) hpos (by omega)
    simpa [accumulateMulInt] using this
  have fwd : ∀ p, InGrid ngs p → getNodeIdFromPos ngs p = lin ngs p := by
    intro p hp
    have hpl : p.take ngs.length = p := List.take_of_length_le (by rw [hp.length_eq])
    simp only [getNodeIdFromPos, hpl]
    have := accumulateInt_small _ 0 (by omega) (zip_terms_nonneg hp) (by
      rw [dot_split]
      have := (lin_bounds hp).2
      omega)
    rw [dot_split] at this
    simpa [accumulateInt] using this
  refine ⟨fun p hp => ?_, fun id h0 h1 => ?_, fun id hid => ?_⟩
  · obtain ⟨b0, b1⟩ := lin_bounds hp
    refine ⟨fwd p hp, b0, b1, ?_⟩
    simp only [getLocationFromNodeId, hacc]
    rw [if_neg (by omega)]
    exact getPosFromId_lin hp
  · obtain ⟨p, e1, e2, e3⟩ := getPosFromId_spec hpos h0 h1
    refine ⟨p, ?_, e2, by rw [fwd p e2, e3]⟩
    simp only [getLocationFromNodeId, hacc]
    simp only [structNumberOfNodes] at h1
    rw [if_neg (by omega)]
    exact e1
  · simp only [getLocationFromNodeId, hacc]
    simp only [structNumberOfNodes] at hid
    rw [if_pos (by omega)]
    rfl

/-- **C39** `getNumberOfCells` agrees with the number of ids. -/
theorem C39_number_of_cells {ngs : List Int} (h : ∀ n ∈ ngs, 2 ≤ n) (hne : ngs ≠ []) :
    structNumberOfCells ngs = .ok (cellGridStructure ngs).prod := by
  have hf : ngs.filter (fun n => decide (n > 1)) = ngs := by
    rw [List.filter_eq_self]
    intro n hn
    have := h n hn
    simp; omega
  unfold structNumberOfCells
  rw [if_neg]
  · simp only [hf, hne, if_false]
    rfl
  · simp only [List.any_eq_true, decide_eq_true_eq, not_exists, not_and]
    intro n hn
    have := h n hn
    omega

example : (∀ n ∈ ([4, 3, 2] : List Int), 2 ≤ n) ∧ getCellIdFromPos [4, 3, 2] [2, 1, 0] = .ok 5 ∧ getLocationFromCellId [4, 3, 2] 5 = .ok [2, 1, 0] ∧
    getLocationFromNodeId [4, 3, 2] 23 = .ok [3, 2, 1] := by
  refine ⟨by decide, rfl, rfl, rfl⟩

/-- Finding: with a single node on the first axis (a surface in space) all cells get the ids of one line, and finding the place of a cell
divides by zero (reached through `getNodeIdsOfCell`) or is refused (`getLocationFromCellId`). -/
theorem C39_flat_first_axis :
    getCellIdFromPos [1, 3, 4] [0, 0] = .ok 0 ∧ getCellIdFromPos [1, 3, 4] [0, 1] = .ok 0 ∧
    structNumberOfCells [1, 3, 4] = .ok 6 ∧ getLocationFromCellId [1, 3, 4] 3 = .error .exn ∧
    getPosFromId 3 ((splitVect (cellGridStructure [1, 3, 4])).take 2) = .error .ub := ⟨rfl, rfl, rfl, rfl, rfl⟩

/-- Finding: ids are added in a 32 bit `int` even if ids have 64 bits: the id of the last cell of a 3000 x 3000 x 300 grid is negative and
`getLocationFromCellId` refuses every id. -/
theorem C39_large_grids :
    getCellIdFromPos [3001, 3001, 301] [2999, 2999, 299] = .ok (-1594967297) ∧ structNumberOfCells [3001, 3001, 301] = .ok 2700000000 ∧
    getLocationFromCellId [3001, 3001, 301] 0 = .error .exn := ⟨rfl, rfl, rfl⟩

end MC
