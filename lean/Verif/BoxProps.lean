import Verif.StructProps
import Mathlib.Tactic.ByContra

/-!
# Parts of structured grids (C41) – proofs
-/

namespace MC

/-! ## The loops -/

theorem mem_boxPos : ∀ {ds p : List Int}, p ∈ boxPos ds ↔ InGrid ds p
  | [], p => by
    simp only [boxPos, List.mem_singleton, InGrid]
    constructor
    · rintro rfl; exact .nil
    · intro h; cases h; rfl
  | d :: ds, p => by
    simp only [boxPos, List.mem_flatMap, List.mem_map, List.mem_range, InGrid]
    constructor
    · rintro ⟨q, hq, k, hk, rfl⟩
      exact .cons (by omega) (mem_boxPos.mp hq)
    · intro h
      cases h with
      | cons h hs =>
        rename_i x q
        exact ⟨q, mem_boxPos.mpr hs, x.toNat, by omega, by congr 1; omega⟩

theorem length_boxPos : ∀ {ds : List Int}, (∀ d ∈ ds, 0 ≤ d) → (boxPos ds).length = ds.prod.toNat
  | [], _ => by simp [boxPos]
  | d :: ds, h => by
    have hd := h d (by simp)
    simp only [boxPos, List.length_flatMap, List.length_map, List.length_range, List.map_const', List.sum_replicate, List.prod_cons]
    rw [length_boxPos fun x hx => h x (by simp [hx])]
    have hp : 0 ≤ ds.prod := by
      clear hd
      induction ds with
      | nil => simp
      | cons a l ih =>
        rw [List.prod_cons]
        exact Int.mul_nonneg (h a (by simp)) (ih fun x hx => h x (by
          simp only [List.mem_cons] at hx ⊢
          tauto))
    rw [Int.toNat_mul hd hp]
    simp [Nat.mul_comm]

/-- The dimensions of a part. -/
def boxDims (part : List (Int × Int)) : List Int := part.map fun r => r.2 - r.1

/-- The ids in the order of the loops. -/
def boxIds (st : List Int) (part : List (Int × Int)) : List Int := (boxPos (boxDims part)).map (partOffset st part)

theorem partOffset_eq (st : List Int) (part : List (Int × Int)) (p : List Int) :
    partOffset st part p = lin st (List.zipWith (fun (r : Int × Int) k => r.1 + k) part p) := by
  rw [partOffset, dot_split]

theorem boxIds_cons (n : Int) (st : List Int) (a b : Int) (part : List (Int × Int)) :
    boxIds (n :: st) ((a, b) :: part) = (boxIds st part).flatMap fun x => (List.range (b - a).toNat).map fun (k : Nat) => (a + k) + n * x := by
  simp only [boxIds, boxDims, List.map_cons, boxPos, List.map_flatMap, List.flatMap_map, List.map_map]
  congr 1
  funext p
  apply List.map_congr_left
  intro k _
  simp [partOffset_eq, lin]

theorem inBox_shift : ∀ {part : List (Int × Int)} {q : List Int},
    InBox part q ↔ ∃ p, InGrid (boxDims part) p ∧ List.zipWith (fun (r : Int × Int) k => r.1 + k) part p = q
  | [], q => by
    constructor
    · intro h; cases h; exact ⟨[], .nil, rfl⟩
    · rintro ⟨p, h, rfl⟩; cases h; exact .nil
  | (a, b) :: part, q => by
    constructor
    · intro h
      cases h with
      | cons h hs =>
        rename_i x q
        obtain ⟨p, hp, e⟩ := inBox_shift.mp hs
        refine ⟨(x - a) :: p, .cons (by simp only at h ⊢; omega) hp, ?_⟩
        simp only [List.zipWith_cons_cons, e]
        congr 1; omega
    · rintro ⟨p, hp, rfl⟩
      cases hp with
      | cons h hs =>
        rename_i x p
        rw [List.zipWith_cons_cons]
        exact .cons (by simp only at h ⊢; omega) (inBox_shift.mpr ⟨p, hs, rfl⟩)

theorem BoxIn.grid {st : List Int} {part : List (Int × Int)} (h : BoxIn st part) {q : List Int} (hq : InBox part q) : InGrid st q := by
  induction h generalizing q with
  | nil => cases hq; exact .nil
  | cons h hs ih =>
    cases hq with
    | cons h' hs' => exact .cons (by omega) (ih hs')

theorem mem_boxIds {st : List Int} {part : List (Int × Int)} {x : Int} : x ∈ boxIds st part ↔ ∃ q, InBox part q ∧ lin st q = x := by
  simp only [boxIds, List.mem_map, mem_boxPos]
  constructor
  · rintro ⟨p, hp, rfl⟩
    exact ⟨_, inBox_shift.mpr ⟨p, hp, rfl⟩, (partOffset_eq _ _ _).symm⟩
  · rintro ⟨q, hq, rfl⟩
    obtain ⟨p, hp, rfl⟩ := inBox_shift.mp hq
    exact ⟨p, hp, partOffset_eq _ _ _⟩

theorem boxIds_sorted {st : List Int} {part : List (Int × Int)} (h : BoxIn st part) : StrictSorted (boxIds st part) := by
  induction h with
  | nil => simp [boxIds, boxDims, boxPos, StrictSorted]
  | cons h hs ih =>
    rename_i r n part st
    obtain ⟨a, b⟩ := r
    simp only at h
    rw [boxIds_cons]
    unfold StrictSorted at ih ⊢
    rw [List.pairwise_flatMap]
    refine ⟨fun x _ => ?_, ?_⟩
    · rw [List.pairwise_map]
      exact List.Pairwise.imp (fun {i j} (hij : i < j) => by omega) List.pairwise_lt_range
    · refine ih.imp fun {x y} hxy => ?_
      simp only [List.mem_map, List.mem_range]
      rintro u ⟨k, hk, rfl⟩ v ⟨k', hk', rfl⟩
      have : n * (x + 1) ≤ n * y := Int.mul_le_mul_of_nonneg_left (by omega) (by omega)
      rw [Int.mul_add] at this
      omega

theorem boxIds_isBoxList {st : List Int} {part : List (Int × Int)} (h : BoxIn st part) : IsBoxList st part (boxIds st part) :=
  ⟨boxIds_sorted h, fun _ => mem_boxIds⟩

theorem IsBoxList.unique {st : List Int} {part : List (Int × Int)} {l l' : List Int} (h : IsBoxList st part l) (h' : IsBoxList st part l') : l = l' :=
  StrictSorted.ext h.1 h'.1 fun x => by rw [h.2, h'.2]

theorem BoxIn.dims_nonneg {st : List Int} {part : List (Int × Int)} (h : BoxIn st part) : ∀ d ∈ boxDims part, 0 ≤ d := by
  intro d hd
  simp only [boxDims, List.mem_map] at hd
  obtain ⟨r, hr, rfl⟩ := hd
  obtain ⟨i, hi, rfl⟩ := List.mem_iff_getElem.mp hr
  have := (List.forall₂_iff_get.mp h).2 i hi (by rw [← h.length_eq]; exact hi)
  simp at this
  omega

theorem length_boxIds {st : List Int} {part : List (Int × Int)} (h : BoxIn st part) : (boxIds st part).length = (boxDims part).prod.toNat := by
  rw [boxIds, List.length_map, length_boxPos h.dims_nonneg]

theorem boxIds_range {st : List Int} {part : List (Int × Int)} (h : BoxIn st part) : ∀ x ∈ boxIds st part, 0 ≤ x ∧ x < st.prod := by
  intro x hx
  obtain ⟨q, hq, rfl⟩ := mem_boxIds.mp hx
  exact lin_bounds (h.grid hq)

theorem partOffset_range {st : List Int} {part : List (Int × Int)} (h : BoxIn st part) {p : List Int} (hp : p ∈ boxPos (boxDims part)) :
    0 ≤ partOffset st part p ∧ partOffset st part p < st.prod :=
  boxIds_range h _ (List.mem_map.mpr ⟨p, hp, rfl⟩)

theorem emit_foldlM {α β : Type} (f : β → α) (n : Nat) : ∀ (l : List β) (acc : List α), acc.length + l.length ≤ n →
    l.foldlM (m := Except Err) (fun c p => emit c (f p)) (filled acc n) = .ok (filled (acc ++ l.map f) n)
  | [], acc, _ => by
    rw [List.map_nil, List.append_nil]; rfl
  | x :: l, acc, h => by
    simp only [List.length_cons] at h
    rw [List.foldlM_cons, emit_filled (by omega)]
    show List.foldlM _ _ _ = _
    rw [emit_foldlM f n l _ (by simp; omega)]
    simp

theorem zip_all_iff {st : List Int} {part : List (Int × Int)} (hl : st.length = part.length) (R : Int × Int → Int → Prop) :
    (∀ rn ∈ List.zip part st, R rn.1 rn.2) ↔ List.Forall₂ R part st := by
  rw [List.forall₂_iff_zip]
  constructor
  · intro h
    exact ⟨hl.symm, fun {a b} hab => h (a, b) hab⟩
  · rintro ⟨_, h⟩ ⟨a, b⟩ hab
    exact h hab

/-- A `mapM` of checks. -/
theorem mapM_check {α β : Type} (c : α → M β) (f : α → β) (ok : α → Prop) (h1 : ∀ a, ok a → c a = .ok (f a)) (h2 : ∀ a, ¬ ok a → c a = .error .exn) :
    ∀ l : List α, ((∀ a ∈ l, ok a) → l.mapM c = .ok (l.map f)) ∧ (¬ (∀ a ∈ l, ok a) → l.mapM c = .error .exn)
  | [] => ⟨fun _ => rfl, fun h => absurd (by simp) h⟩
  | a :: l => by
    obtain ⟨i1, i2⟩ := mapM_check c f ok h1 h2 l
    constructor
    · intro h
      rw [List.mapM_cons, h1 a (h a (by simp)), i1 fun b hb => h b (by simp [hb])]
      rfl
    · intro h
      rw [List.mapM_cons]
      by_cases ha : ok a
      · rw [h1 a ha, i2 fun hl => h fun b hb => by
          rcases List.mem_cons.mp hb with rfl | hb
          · exact ha
          · exact hl b hb]
        rfl
      · rw [h2 a ha]
        rfl

theorem zip_map_dims : ∀ {part : List (Int × Int)} {st : List Int}, st.length = part.length →
    (List.zip part st).map (fun rn => rn.1.2 - rn.1.1) = boxDims part
  | [], st, _ => by simp [boxDims]
  | r :: part, [], h => by simp at h
  | r :: part, n :: st, h => by
    simp only [List.zip_cons_cons, List.map_cons, boxDims]
    rw [zip_map_dims (by simpa using h)]
    rfl

theorem checkedDims_spec (st : List Int) (part : List (Int × Int)) :
    (BoxIn st part → checkedDims st part = .ok (boxDims part)) ∧ (¬ BoxIn st part → checkedDims st part = .error .exn) := by
  unfold checkedDims
  by_cases hl : st.length = part.length
  · rw [if_neg (by simp [hl])]
    have h := mapM_check (fun rn : (Int × Int) × Int => if rn.1.1 < 0 ∨ rn.1.1 > rn.2 then throwX
      else if rn.1.2 < 0 ∨ rn.1.2 > rn.2 then throwX
      else if rn.1.2 < rn.1.1 then throwX
      else .ok (rn.1.2 - rn.1.1)) (fun rn => rn.1.2 - rn.1.1) (fun rn => 0 ≤ rn.1.1 ∧ rn.1.1 ≤ rn.1.2 ∧ rn.1.2 ≤ rn.2)
      (fun a ha => by rw [if_neg (by omega), if_neg (by omega), if_neg (by omega)])
      (fun a ha => by
        by_cases h1 : a.1.1 < 0 ∨ a.1.1 > a.2
        · rw [if_pos h1]; rfl
        · by_cases h2 : a.1.2 < 0 ∨ a.1.2 > a.2
          · rw [if_neg h1, if_pos h2]; rfl
          · rw [if_neg h1, if_neg h2, if_pos (by omega)]; rfl) (List.zip part st)
    rw [zip_all_iff hl (fun (r : Int × Int) n => 0 ≤ r.1 ∧ r.1 ≤ r.2 ∧ r.2 ≤ n), zip_map_dims hl] at h
    exact h
  · rw [if_pos (by simpa using hl)]
    exact ⟨fun h => absurd h.length_eq.symm hl, fun _ => rfl⟩

theorem dimensions_ok {st : List Int} {part : List (Int × Int)} (h : BoxIn st part) : dimensionsFromCompactFrmt part = .ok (boxDims part) := by
  have := (mapM_check (fun r : Int × Int => if r.1 > r.2 then throwX else .ok (r.2 - r.1)) (fun r => r.2 - r.1) (fun r => r.1 ≤ r.2)
    (fun a ha => by rw [if_neg (by omega)]) (fun a ha => by rw [if_pos (by omega)]; rfl) part).1 (fun r hr => by
      have := h.dims_nonneg (r.2 - r.1) (List.mem_map.mpr ⟨r, hr, rfl⟩)
      omega)
  exact this

theorem deduceStructure_ok {st : List Int} (h : ∀ n ∈ st, 0 ≤ n) (hne : st ≠ []) : deduceNumberOfGivenStructure st = .ok st.prod := by
  unfold deduceNumberOfGivenStructure
  rw [if_neg, if_neg hne]
  simp only [List.any_eq_true, decide_eq_true_eq, not_exists, not_and]
  intro n hn
  have := h n hn
  omega

/-! ## C41 -/

/-- **C41** `BuildExplicitIdsFrom` gives exactly the ids of the positions of the part, increasing; it throws exactly when the part does not fit in
the structure or the number of axes is not 1, 2 or 3. -/
theorem C41_buildExplicitIds (st : List Int) (part : List (Int × Int)) :
    (BoxIn st part → 1 ≤ st.length → st.length ≤ 3 →
      ∃ ids, buildExplicitIdsFrom st part = .ok (ids.map some) ∧ IsBoxList st part ids ∧ (ids.length : Int) = (boxDims part).prod) ∧
    (¬ (BoxIn st part ∧ 1 ≤ st.length ∧ st.length ≤ 3) → buildExplicitIdsFrom st part = .error .exn) := by
  constructor
  · intro h h1 h3
    have hlen := length_boxIds h
    have hp : (0 : Int) ≤ (boxDims part).prod := by
      have := h.dims_nonneg
      generalize boxDims part = l at this
      induction l with
      | nil => simp
      | cons a l ih =>
        rw [List.prod_cons]
        exact Int.mul_nonneg (this a (by simp)) (ih fun x hx => this x (by simp [hx]))
    refine ⟨boxIds st part, ?_, boxIds_isBoxList h, by rw [hlen]; omega⟩
    simp only [buildExplicitIdsFrom, (checkedDims_spec st part).1 h, ok_bind]
    rw [if_pos ⟨h1, h3⟩, newCur_eq, emit_foldlM _ _ _ _ (by simp [length_boxPos h.dims_nonneg]), ok_bind, List.nil_append]
    rw [filled_full (by simpa [boxIds] using hlen)]
    rfl
  · intro h
    unfold buildExplicitIdsFrom
    by_cases hb : BoxIn st part
    · rw [(checkedDims_spec st part).1 hb, ok_bind, if_neg (fun h' => h ⟨hb, h'⟩)]
      rfl
    · rw [(checkedDims_spec st part).2 hb]
      rfl

/-- **C41** `SwitchOnIdsFrom` turns on exactly the cells of the part. -/
theorem C41_switchOn {st : List Int} {part : List (Int × Int)} (h : BoxIn st part) (h1 : 1 ≤ st.length) (h3 : st.length ≤ 3)
    {v : List Bool} (hv : (v.length : Int) = st.prod) :
    ∃ r, switchOnIdsFrom st part v = .ok r ∧ r.length = v.length ∧
      (∀ q, InBox part q → r[(lin st q).toNat]? = some true) ∧
      ∀ i : Nat, (¬ ∃ q, InBox part q ∧ lin st q = i) → r[i]? = v[i]? := by
  have hst : ∀ n ∈ st, 0 ≤ n := by
    intro n hn
    obtain ⟨i, hi, rfl⟩ := List.mem_iff_getElem.mp hn
    have := (List.forall₂_iff_get.mp h).2 i (by rw [h.length_eq]; exact hi) hi
    simp at this
    omega
  have hne : st ≠ [] := by rintro rfl; simp at h1
  have key : wp ((boxPos (boxDims part)).foldlM (m := Except Err) (fun v p => wr v (partOffset st part p) true) v)
      (fun r => r.length = v.length ∧ (∀ x ∈ boxIds st part, r[x.toNat]? = some true) ∧
        ∀ i : Nat, (i : Int) ∉ boxIds st part → r[i]? = v[i]?) False := by
    refine wp_mono (wp_foldlM (fun pre (r : List Bool) => r.length = v.length ∧ (∀ x ∈ pre.map (partOffset st part), r[x.toNat]? = some true) ∧
      ∀ i : Nat, (i : Int) ∉ pre.map (partOffset st part) → r[i]? = v[i]?) ?_ ?_) ?_ id
    · exact ⟨rfl, by simp, by simp⟩
    · rintro pre p suf hl r ⟨e1, e2, e3⟩
      obtain ⟨b0, b1⟩ := partOffset_range h (p := p) (by rw [hl]; simp)
      obtain ⟨o, ho⟩ := Int.eq_ofNat_of_zero_le b0
      have ho' : o < r.length := by omega
      rw [ho, wr_natCast ho', wp_ok]
      refine ⟨by simp [e1], ?_, ?_⟩
      · intro x hx
        rw [List.map_append, List.mem_append] at hx
        rw [List.getElem?_set]
        split
        · rfl
        · rcases hx with hx | hx
          · exact e2 x hx
          · simp only [List.map_cons, List.map_nil, List.mem_singleton] at hx
            omega
      · intro i hi
        rw [List.map_append, List.mem_append, not_or] at hi
        simp only [List.map_cons, List.map_nil, List.mem_singleton] at hi
        rw [List.getElem?_set_ne (by omega)]
        exact e3 i hi.1
    · rintro r ⟨e1, e2, e3⟩
      exact ⟨e1, e2, e3⟩
  obtain ⟨r, hr, e1, e2, e3⟩ := wp_exists key
  refine ⟨r, ?_, e1, fun q hq => e2 _ (mem_boxIds.mpr ⟨q, hq, rfl⟩), fun i hi => e3 i fun hm => hi (mem_boxIds.mp hm)⟩
  simp only [switchOnIdsFrom, deduceStructure_ok hst hne, dimensions_ok h, ok_bind]
  rw [if_neg (by simp [h.length_eq]), if_neg (by simp [hv]), if_pos ⟨h1, h3⟩]
  exact hr

/-- **C41** `ExtractFieldOfBoolFrom` reads the cells of the part in increasing order. -/
theorem C41_extractBool {st : List Int} {part : List (Int × Int)} (h : BoxIn st part) (h1 : 1 ≤ st.length) (h3 : st.length ≤ 3)
    {v : List Bool} (hv : (v.length : Int) = st.prod) :
    ∃ ids r, extractFieldOfBoolFrom st v part = .ok (r.map some) ∧ IsBoxList st part ids ∧
      List.Forall₂ (fun id x => v[id.toNat]? = some x) ids r := by
  have hst : ∀ n ∈ st, 0 ≤ n := by
    intro n hn
    obtain ⟨i, hi, rfl⟩ := List.mem_iff_getElem.mp hn
    have := (List.forall₂_iff_get.mp h).2 i (by rw [h.length_eq]; exact hi) hi
    simp at this
    omega
  have hne : st ≠ [] := by rintro rfl; simp at h1
  have hne' : boxDims part ≠ [] := by
    intro e
    have : part.length = 0 := by simpa [boxDims] using congrArg List.length e
    rw [h.length_eq] at this
    omega
  have key : wp ((boxPos (boxDims part)).foldlM (m := Except Err) (fun c p => do let x ← rd v (partOffset st part p); emit c x)
      (newCur Bool (boxDims part).prod.toNat))
      (fun c => ∃ r, c = filled r (boxDims part).prod.toNat ∧ List.Forall₂ (fun id x => v[id.toNat]? = some x) (boxIds st part) r) False := by
    refine wp_mono (wp_foldlM (fun pre (c : Cur Bool) => ∃ r : List Bool, c = filled r (boxDims part).prod.toNat ∧
      List.Forall₂ (fun (id : Int) x => v[id.toNat]? = some x) (pre.map (partOffset st part)) r) ?_ ?_) ?_ id
    · exact ⟨[], newCur_eq _, .nil⟩
    · rintro pre p suf hl c ⟨r, rfl, hr⟩
      obtain ⟨b0, b1⟩ := partOffset_range h (p := p) (by rw [hl]; simp)
      obtain ⟨o, ho⟩ := Int.eq_ofNat_of_zero_le b0
      have ho' : o < v.length := by omega
      have hlen := length_boxPos h.dims_nonneg
      rw [hl] at hlen
      have hrl := hr.length_eq
      simp only [List.length_map, List.length_append, List.length_cons] at hrl hlen
      rw [ho, rd_natCast ho', ok_bind, emit_filled (by omega), wp_ok]
      refine ⟨_, rfl, ?_⟩
      rw [List.map_append]
      refine List.rel_append hr (.cons ?_ .nil)
      rw [ho]
      simp [ho']
    · rintro c ⟨r, e, hr⟩
      exact ⟨r, e, hr⟩
  obtain ⟨c, hc, r, rfl, hr⟩ := wp_exists key
  refine ⟨boxIds st part, r, ?_, boxIds_isBoxList h, hr⟩
  simp only [extractFieldOfBoolFrom, deduceStructure_ok hst hne, deduceStructure_ok h.dims_nonneg hne', dimensions_ok h, ok_bind]
  rw [if_neg (by simp [h.length_eq]), if_neg (by simp [hv]), if_pos ⟨h1, h3⟩, hc, ok_bind, filled_full]
  rw [← hr.length_eq, length_boxIds h]

/-- **C41** `ExtractFieldOfDoubleFrom` gives the tuples of the cells of the part in increasing order. -/
theorem C41_extractField {α : Type} {st : List Int} {part : List (Int × Int)} (h : BoxIn st part) (h1 : 1 ≤ st.length) (h3 : st.length ≤ 3)
    {nt nc : Nat} (hv : (nt : Int) = st.prod) {v : List α} (hvl : v.length = nt * nc) :
    ∃ ids r, extractFieldFrom st nt nc v part = .ok r ∧ IsBoxList st part ids ∧ IsGather nc v ids r := by
  have hst : ∀ n ∈ st, 0 ≤ n := by
    intro n hn
    obtain ⟨i, hi, rfl⟩ := List.mem_iff_getElem.mp hn
    have := (List.forall₂_iff_get.mp h).2 i (by rw [h.length_eq]; exact hi) hi
    simp at this
    omega
  have hne : st ≠ [] := by rintro rfl; simp at h1
  have hne' : boxDims part ≠ [] := by
    intro e
    have : part.length = 0 := by simpa [boxDims] using congrArg List.length e
    rw [h.length_eq] at this
    omega
  generalize hm : (boxDims part).prod.toNat = m
  have hlen := length_boxPos h.dims_nonneg
  rw [hm] at hlen
  have key : wp ((boxPos (boxDims part)).foldlM (m := Except Err)
      (fun c p => emitCopy c v (partOffset st part p * nc) ((partOffset st part p + 1) * nc)) (newCur α (m * nc)))
      (fun c => c = filled ((boxIds st part).flatMap fun id => tup nc v id.toNat) (m * nc)) False := by
    refine wp_mono (wp_foldlM (fun pre (c : Cur α) => c = filled ((pre.map (partOffset st part)).flatMap fun id => tup nc v id.toNat) (m * nc)) ?_ ?_) ?_ id
    · exact newCur_eq _
    · rintro pre p suf hl c rfl
      obtain ⟨b0, b1⟩ := partOffset_range h (p := p) (by rw [hl]; simp)
      obtain ⟨o, ho⟩ := Int.eq_ofNat_of_zero_le b0
      have ho' : o < nt := by omega
      have hon : (o + 1) * nc ≤ nt * nc := Nat.mul_le_mul_right nc (by omega)
      have hfl : ((pre.map (partOffset st part)).flatMap fun id => tup nc v id.toNat).length = pre.length * nc := by
        rw [List.length_flatMap, List.map_map]
        have : (pre.map ((fun a : Int => (tup nc v a.toNat).length) ∘ partOffset st part)) = pre.map fun _ => nc := by
          apply List.map_congr_left
          intro x hx
          obtain ⟨c0, c1⟩ := partOffset_range h (p := x) (by rw [hl]; simp [hx])
          have : ((partOffset st part x).toNat + 1) * nc ≤ nt * nc := Nat.mul_le_mul_right nc (by omega)
          simp only [Function.comp, tup, List.length_take, List.length_drop, hvl]
          rw [Nat.add_mul] at this
          omega
        rw [this]
        simp
      have e1 : (partOffset st part p * nc : Int) = ((o * nc : Nat) : Int) := by rw [ho]; simp
      have e2 : ((partOffset st part p + 1) * nc : Int) = (((o + 1) * nc : Nat) : Int) := by rw [ho]; simp
      rw [e1, e2]
      have hpl : pre.length + 1 ≤ m := by
        rw [hl] at hlen
        simp only [List.length_append, List.length_cons] at hlen
        omega
      have hpl' : (pre.length + 1) * nc ≤ m * nc := Nat.mul_le_mul_right nc hpl
      rw [Nat.add_mul] at hpl' hon
      rw [emitCopy_filled (by omega) (by rw [Nat.add_mul]; omega) (by rw [Nat.add_mul, hvl]; omega) (by rw [hfl, Nat.add_mul]; omega), wp_ok]
      rw [List.map_append, List.flatMap_append]
      congr 2
      simp only [List.map_cons, List.map_nil, List.flatMap_cons, List.flatMap_nil, List.append_nil, ho]
      simp only [tup, slice, Int.toNat_natCast]
      congr 1
      rw [Nat.add_mul]
      omega
    · rintro c e
      exact e
  obtain ⟨c, hc, hce⟩ := wp_exists key
  subst hce
  have hL : ∀ x ∈ boxIds st part, (tup nc v x.toNat).length = nc := by
    intro x hx
    obtain ⟨c0, c1⟩ := boxIds_range h x hx
    have : (x.toNat + 1) * nc ≤ nt * nc := Nat.mul_le_mul_right nc (by omega)
    simp only [tup, List.length_take, List.length_drop, hvl]
    rw [Nat.add_mul] at this
    omega
  have hfl : ((boxIds st part).flatMap fun id => tup nc v id.toNat).length = m * nc := by
    rw [List.length_flatMap, List.map_congr_left hL, List.map_const', List.sum_replicate, length_boxIds h, hm]
    simp
  refine ⟨boxIds st part, ((boxIds st part).flatMap fun id => tup nc v id.toNat).map some, ?_, boxIds_isBoxList h, ?_⟩
  · simp only [extractFieldFrom, deduceStructure_ok hst hne, deduceStructure_ok h.dims_nonneg hne', dimensions_ok h, ok_bind]
    rw [if_neg (by simp [h.length_eq]), if_neg (by simp [hv]), if_pos ⟨h1, h3⟩, hm, hc, ok_bind, filled_full hfl]
  · refine ⟨by rw [List.length_map, hfl, length_boxIds h, hm], fun i hi => ?_⟩
    clear hc key hfl
    generalize boxIds st part = ids at hL hi
    induction ids generalizing i with
    | nil => simp at hi
    | cons x ids ih =>
      have hx := hL x (by simp)
      rw [List.flatMap_cons, List.map_append]
      cases i with
      | zero =>
        simp only [tup, Nat.zero_mul, List.drop_zero, List.getElem_cons_zero]
        rw [List.take_append_of_le_length (by simp only [List.length_map]; exact hx.ge), List.take_of_length_le (by simp only [List.length_map]; exact hx.le)]
      | succ i =>
        have := ih i (fun y hy => hL y (by simp [hy])) (by simpa using hi)
        simp only [List.getElem_cons_succ]
        rw [← this]
        unfold tup at hx ⊢
        rw [Nat.add_mul, Nat.one_mul, Nat.add_comm, ← List.drop_drop, List.drop_append_of_le_length (by simp only [List.length_map]; exact hx.ge),
          List.drop_of_length_le (l := List.map some (List.take nc (List.drop (x.toNat * nc) v))) (by simp only [List.length_map]; exact hx.le), List.nil_append]

theorem mapTuple_spec {α : Type} (f : α → α) (nc : Nat) (v : List α) (o : Nat) (ho : nc * o + nc ≤ v.length) :
    ∃ r, mapTuple f nc v (o : Int) = .ok r ∧ r.length = v.length ∧
      ∀ j : Nat, r[j]? = if nc * o ≤ j ∧ j < nc * o + nc then (v[j]?).map f else v[j]? := by
  have key : wp (mapTuple f nc v (o : Int)) (fun r => r.length = v.length ∧
      ∀ j : Nat, r[j]? = if nc * o ≤ j ∧ j < nc * o + nc then (v[j]?).map f else v[j]?) False := by
    unfold mapTuple
    refine wp_loop (fun k (r : List α) => r.length = v.length ∧
      ∀ j : Nat, r[j]? = if nc * o ≤ j ∧ j < nc * o + k then (v[j]?).map f else v[j]?) ?_ ?_
    · refine ⟨rfl, fun j => ?_⟩
      rw [if_neg (by omega)]
    · rintro k hk r ⟨e1, e2⟩
      have hlt : nc * o + k < r.length := by omega
      have e : ((nc : Int) * o + k) = ((nc * o + k : Nat) : Int) := by simp
      rw [e, rd_natCast hlt, ok_bind, wr_natCast hlt, wp_ok]
      refine ⟨by simp [e1], fun j => ?_⟩
      have hk' := e2 (nc * o + k)
      rw [if_neg (by omega), List.getElem?_eq_getElem hlt] at hk'
      rw [List.getElem?_set]
      by_cases hj : nc * o + k = j
      · subst hj
        rw [if_pos rfl, if_pos hlt, if_pos (by omega), ← hk']
        rfl
      · rw [if_neg hj, e2 j]
        by_cases hc : nc * o ≤ j ∧ j < nc * o + k
        · rw [if_pos hc, if_pos (by omega)]
        · rw [if_neg hc, if_neg (by omega)]
  obtain ⟨r, hr, h⟩ := wp_exists key
  exact ⟨r, hr, h⟩

/-- **C41** `MultiplyPartOf`: the tuples of the cells of the part are changed, each once, and no other; a part which does not fit is refused. -/
theorem C41_mapPartOf {α : Type} (f : α → α) (st : List Int) (part : List (Int × Int)) (h1 : 1 ≤ st.length) (h3 : st.length ≤ 3)
    (nt nc : Nat) (v : List α) (hvl : v.length = nt * nc) :
    (BoxIn st part → (nt : Int) = st.prod →
      ∃ r, mapPartOf f st part nt nc v = .ok r ∧ r.length = v.length ∧
        (∀ q, InBox part q → tup nc r (lin st q).toNat = (tup nc v (lin st q).toNat).map f) ∧
        ∀ i : Nat, (¬ ∃ q, InBox part q ∧ lin st q = i) → tup nc r i = tup nc v i) ∧
    (¬ BoxIn st part → mapPartOf f st part nt nc v = .error .exn) := by
  constructor
  swap
  · intro h
    unfold mapPartOf
    rw [(checkedDims_spec st part).2 h]
    rfl
  intro h hv
  have hst : ∀ n ∈ st, 0 ≤ n := by
    intro n hn
    obtain ⟨i, hi, rfl⟩ := List.mem_iff_getElem.mp hn
    have := (List.forall₂_iff_get.mp h).2 i (by rw [h.length_eq]; exact hi) hi
    simp at this
    omega
  have hne : st ≠ [] := by rintro rfl; simp at h1
  have hnd : (boxIds st part).Nodup := (boxIds_sorted h).nodup
  have key : wp ((boxPos (boxDims part)).foldlM (m := Except Err) (fun v p => mapTuple f nc v (partOffset st part p)) v)
      (fun r => r.length = v.length ∧ ∀ i : Nat, i < nt → ∀ c, c < nc →
        (((i : Int) ∈ boxIds st part → r[nc * i + c]? = (v[nc * i + c]?).map f) ∧
        ((i : Int) ∉ boxIds st part → r[nc * i + c]? = v[nc * i + c]?))) False := by
    refine wp_mono (wp_foldlM (fun pre (r : List α) => r.length = v.length ∧ ∀ i : Nat, i < nt → ∀ c, c < nc →
        (((i : Int) ∈ pre.map (partOffset st part) → r[nc * i + c]? = (v[nc * i + c]?).map f) ∧
        ((i : Int) ∉ pre.map (partOffset st part) → r[nc * i + c]? = v[nc * i + c]?))) ?_ ?_) ?_ id
    · exact ⟨rfl, fun i _ c _ => ⟨by simp, fun _ => rfl⟩⟩
    · rintro pre p suf hl r ⟨e1, e2⟩
      obtain ⟨b0, b1⟩ := partOffset_range h (p := p) (by rw [hl]; simp)
      obtain ⟨o, ho⟩ := Int.eq_ofNat_of_zero_le b0
      have ho' : o < nt := by omega
      have hon : nc * (o + 1) ≤ nc * nt := Nat.mul_le_mul_left nc (by omega)
      obtain ⟨r', hr', l', g'⟩ := mapTuple_spec f nc r o (by rw [e1, hvl, Nat.mul_comm nt]; rw [Nat.mul_add] at hon; omega)
      have hnew : (o : Int) ∉ pre.map (partOffset st part) := by
        rw [boxIds, hl, List.map_append, List.map_cons, List.nodup_append, ho] at hnd
        intro hm
        exact hnd.2.2 _ hm _ (by simp) rfl
      rw [ho, hr', wp_ok]
      refine ⟨by rw [l', e1], fun i hi c hc => ?_⟩
      have hg := g' (nc * i + c)
      have hiff : (nc * o ≤ nc * i + c ∧ nc * i + c < nc * o + nc) ↔ i = o := by
        constructor
        · rintro ⟨a1, a2⟩
          rcases Nat.lt_trichotomy i o with hlt | heq | hgt
          · have : nc * (i + 1) ≤ nc * o := Nat.mul_le_mul_left nc (by omega)
            rw [Nat.mul_add] at this; omega
          · exact heq
          · have : nc * (o + 1) ≤ nc * i := Nat.mul_le_mul_left nc (by omega)
            rw [Nat.mul_add] at this; omega
        · rintro rfl; omega
      simp only [hiff] at hg
      rw [List.map_append, List.mem_append]
      simp only [List.map_cons, List.map_nil, List.mem_singleton, ho]
      obtain ⟨f1, f2⟩ := e2 i hi c hc
      by_cases hio : i = o
      · subst hio
        rw [if_pos rfl, f2 hnew] at hg
        exact ⟨fun _ => hg, fun hn => absurd (Or.inr rfl) hn⟩
      · rw [if_neg hio] at hg
        rw [hg]
        refine ⟨fun hm => f1 ?_, fun hm => f2 fun hm' => hm (Or.inl hm')⟩
        rcases hm with hm | hm
        · exact hm
        · exact absurd (Int.ofNat.inj hm) hio
    · exact fun r hr => hr
  obtain ⟨r, hr, e1, e2⟩ := wp_exists key
  have hrl : r.length = nt * nc := by rw [e1, hvl]
  refine ⟨r, ?_, e1, fun q hq => ?_, fun i hi => ?_⟩
  · simp only [mapPartOf, (checkedDims_spec st part).1 h, deduceStructure_ok hst hne, ok_bind]
    rw [if_neg (by simp [hv]), if_pos ⟨h1, h3⟩]
    exact hr
  · obtain ⟨b0, b1⟩ := lin_bounds (h.grid hq)
    apply List.ext_getElem?
    intro c
    rw [List.getElem?_map, tup_getElem?, tup_getElem?]
    by_cases hc : c < nc
    · rw [if_pos hc, if_pos hc, Nat.mul_comm _ nc]
      exact (e2 _ (by omega) c hc).1 (mem_boxIds.mpr ⟨q, hq, by omega⟩)
    · simp [hc]
  · apply List.ext_getElem?
    intro c
    rw [tup_getElem?, tup_getElem?]
    by_cases hc : c < nc
    · rw [if_pos hc, if_pos hc, Nat.mul_comm _ nc]
      by_cases hint : i < nt
      · exact (e2 i hint c hc).2 fun hm => hi (mem_boxIds.mp hm)
      · have : nc * nt ≤ nc * i := Nat.mul_le_mul_left nc (by omega)
        rw [Nat.mul_comm nc nt] at this
        rw [List.getElem?_eq_none (by omega), List.getElem?_eq_none (by omega)]
    · simp [hc]

/-! ### IsPartStructured -/

theorem splitVect_append_last (s : List Int) (a b : Int) : splitVect (s ++ [a]) = splitVect (s ++ [b]) := by
  simp only [splitVect, List.length_append, List.length_cons, List.length_nil]
  apply List.map_congr_left
  intro q hq
  rw [List.mem_range] at hq
  rw [List.take_append_of_le_length (by omega), List.take_append_of_le_length (by omega)]

theorem lin_append_last : ∀ (s : List Int) (a b : Int) (p : List Int), lin (s ++ [a]) p = lin (s ++ [b]) p
  | [], a, b, [] => rfl
  | [], a, b, x :: p => by simp [lin]
  | n :: s, a, b, [] => rfl
  | n :: s, a, b, x :: p => by
    simp only [List.cons_append, lin]
    rw [lin_append_last s a b p]

theorem inGrid_snoc : ∀ {s : List Int} {n : Int} {p : List Int}, InGrid (s ++ [n]) p → ∃ p' z, p = p' ++ [z] ∧ InGrid s p' ∧ 0 ≤ z ∧ z < n
  | [], n, p, h => by
    cases h with
    | cons h hs => cases hs; exact ⟨[], _, rfl, .nil, h⟩
  | m :: s, n, p, h => by
    cases h with
    | cons h hs =>
      obtain ⟨p', z, rfl, a, b⟩ := inGrid_snoc hs
      exact ⟨_ :: p', z, rfl, .cons h a, b⟩

/-- `GetPosFromId` on a non negative id: only the last coordinate can be out of the grid. -/
theorem getPosFromId_any {s : List Int} {n : Int} (hst : ∀ m ∈ s ++ [n], 0 < m) {x : Int} (h0 : 0 ≤ x) :
    ∃ p z, getPosFromId x (splitVect (s ++ [n])) = .ok (p ++ [z]) ∧ InGrid s p ∧ 0 ≤ z ∧ lin (s ++ [n]) (p ++ [z]) = x ∧
      (z < n ↔ x < (s ++ [n]).prod) := by
  have hs : ∀ m ∈ s, 0 < m := fun m hm => hst m (by simp [hm])
  have hn := hst n (by simp)
  have hsp := prod_pos_int hs
  have hN : x < (s ++ [x + 1]).prod := by
    simp only [List.prod_append, List.prod_cons, List.prod_nil, Int.mul_one]
    have : 1 * (x + 1) ≤ s.prod * (x + 1) := Int.mul_le_mul_of_nonneg_right (by omega) (by omega)
    omega
  obtain ⟨p, e1, e2, e3⟩ := getPosFromId_spec (st := s ++ [x + 1]) (by
    intro m hm
    rcases List.mem_append.mp hm with hm | hm
    · exact hs m hm
    · simp only [List.mem_singleton] at hm; omega) h0 hN
  rw [splitVect_append_last s _ n] at e1
  rw [lin_append_last s _ n] at e3
  obtain ⟨p, zz, rfl, hp⟩ := inGrid_snoc e2
  refine ⟨p, zz, e1, hp.1, hp.2.1, e3, ?_⟩
  constructor
  · intro hz
    rw [← e3]
    exact (lin_bounds (List.rel_append hp.1 (.cons ⟨hp.2.1, hz⟩ .nil))).2
  · intro hx
    obtain ⟨q, f1, f2, f3⟩ := getPosFromId_spec hst h0 hx
    rw [e1] at f1
    injection f1 with f1
    subst f1
    obtain ⟨p', z', g3, _, _, g1⟩ := inGrid_snoc f2
    have := List.append_inj_right' g3 (by simp)
    simp only [List.cons.injEq, and_true] at this
    omega

theorem cmpLoop_spec (off : List Int → Int) : ∀ (ps : List (List Int)) (ws : List Int), ps.length = ws.length →
    (ps.map off = ws ∧ cmpLoop off ps ws = .ok true) ∨ (ps.map off ≠ ws ∧ cmpLoop off ps ws = .ok false)
  | [], [], _ => Or.inl ⟨rfl, rfl⟩
  | [], _ :: _, h => by simp at h
  | _ :: _, [], h => by simp at h
  | p :: ps, w :: ws, h => by
    rw [cmpLoop, List.map_cons]
    by_cases hw : off p = w
    · rw [if_neg (by simp [hw])]
      rcases cmpLoop_spec off ps ws (by simpa using h) with ⟨a, b⟩ | ⟨a, b⟩
      · exact Or.inl ⟨by rw [hw, a], b⟩
      · exact Or.inr ⟨by simp [hw, a], b⟩
    · rw [if_pos hw]
      exact Or.inr ⟨by simp [hw], rfl⟩

/-- The part delimited by two positions. -/
def spanPart (first last : List Int) : List (Int × Int) := List.zipWith (fun f l => (f, l + 1)) first last

/-- The loop on the axes: it fails only when the last position is out of the grid, gives up only when it is before the first on some axis. -/
theorem partSizesLoop_spec : ∀ (first last st : List Int), InGrid st first → List.length last = st.length → (∀ l ∈ last, 0 ≤ l) →
    (InGrid st last ∧ List.Forall₂ (· ≤ ·) first last ∧ partSizesLoop (List.zip (List.zip first last) st) = .ok (some (boxDims (spanPart first last))) ∧
      BoxIn st (spanPart first last)) ∨
    (¬ (InGrid st last ∧ List.Forall₂ (· ≤ ·) first last) ∧ partSizesLoop (List.zip (List.zip first last) st) = .ok none) ∨
    (¬ InGrid st last ∧ partSizesLoop (List.zip (List.zip first last) st) = .error .exn)
  | _, last, _, .nil, hl, _ => by
    cases last with
    | nil => exact Or.inl ⟨.nil, .nil, rfl, .nil⟩
    | cons => simp at hl
  | _, [], _, .cons _ _, hl, _ => by simp at hl
  | _, l :: last, _, .cons (a := f) (b := n) (l₁ := first) (l₂ := st) h hs, hl, h0 => by
    have hl0 := h0 l (by simp)
    simp only [List.zip_cons_cons, partSizesLoop]
    by_cases hln : l < n
    · rw [if_neg (by omega)]
      by_cases hfl : f ≤ l
      · rw [if_neg (by omega)]
        rcases partSizesLoop_spec first last st hs (by simpa using hl) (fun x hx => h0 x (by simp [hx])) with ⟨a, b, c, d⟩ | ⟨a, c⟩ | ⟨a, c⟩
        · refine Or.inl ⟨.cons ⟨hl0, hln⟩ a, .cons hfl b, ?_, .cons ⟨h.1, by simp; omega, by simp; omega⟩ d⟩
          rw [c]
          rfl
        · refine Or.inr (Or.inl ⟨?_, by rw [c]; rfl⟩)
          rintro ⟨x, y⟩
          cases x; cases y
          exact a ⟨by assumption, by assumption⟩
        · refine Or.inr (Or.inr ⟨?_, by rw [c]; rfl⟩)
          intro x
          cases x
          exact a (by assumption)
      · rw [if_pos (by omega)]
        refine Or.inr (Or.inl ⟨?_, rfl⟩)
        rintro ⟨x, y⟩
        cases y
        omega
    · rw [if_pos (by omega)]
      refine Or.inr (Or.inr ⟨?_, rfl⟩)
      intro x
      cases x
      omega

theorem inBox_first {part : List (Int × Int)} (h : ∀ r ∈ part, r.1 < r.2) : InBox part (part.map (·.1)) := by
  induction part with
  | nil => exact .nil
  | cons r part ih => exact .cons ⟨Int.le_refl _, h r (by simp)⟩ (ih fun s hs => h s (by simp [hs]))

theorem inBox_last {part : List (Int × Int)} (h : ∀ r ∈ part, r.1 < r.2) : InBox part (part.map (·.2 - 1)) := by
  induction part with
  | nil => exact .nil
  | cons r part ih => exact .cons (by have := h r (by simp); show r.1 ≤ r.2 - 1 ∧ r.2 - 1 < r.2; omega) (ih fun s hs => h s (by simp [hs]))

theorem box_head {st : List Int} {part : List (Int × Int)} {ids : List Int} (hb : BoxIn st part) (hn : ∀ r ∈ part, r.1 < r.2)
    (h : IsBoxList st part ids) : ids.head? = some (lin st (part.map (·.1))) ∧ ids.getLast? = some (lin st (part.map (·.2 - 1))) := by
  have hst : ∀ n ∈ st, 0 ≤ n := by
    intro n hn
    obtain ⟨i, hi, rfl⟩ := List.mem_iff_getElem.mp hn
    have := (List.forall₂_iff_get.mp hb).2 i (by rw [hb.length_eq]; exact hi) hi
    simp at this
    omega
  have m1 := (h.2 _).mpr ⟨_, inBox_first hn, rfl⟩
  have m2 := (h.2 _).mpr ⟨_, inBox_last hn, rfl⟩
  have lo : ∀ x ∈ ids, lin st (part.map (·.1)) ≤ x := by
    intro x hx
    obtain ⟨q, hq, rfl⟩ := (h.2 x).mp hx
    refine lin_mono hst ?_ (by rw [List.length_map, hb.length_eq])
    clear hx m1 m2 hn h hb
    induction hq with
    | nil => exact .nil
    | cons h hs ih => exact .cons h.1 ih
  have hi : ∀ x ∈ ids, x ≤ lin st (part.map (·.2 - 1)) := by
    intro x hx
    obtain ⟨q, hq, rfl⟩ := (h.2 x).mp hx
    refine lin_mono hst ?_ (by rw [(hb.grid hq).length_eq])
    clear hx m1 m2 hn h hb lo
    induction hq with
    | nil => exact .nil
    | cons h hs ih =>
      rename_i x r _ _
      exact .cons (by show x ≤ r.2 - 1; omega) ih
  have hs := h.1
  unfold StrictSorted at hs
  constructor
  · cases ids with
    | nil => simp at m1
    | cons a l =>
      rw [List.head?_cons]
      congr 1
      have h1 := lo a (by simp)
      rcases List.mem_cons.mp m1 with e | e
      · exact e.symm
      · have := (List.pairwise_cons.mp hs).1 _ e
        omega
  · rcases List.eq_nil_or_concat ids with rfl | ⟨l, a, rfl⟩
    · simp at m1
    · rw [List.concat_eq_append] at hs m2 hi ⊢
      rw [List.getLast?_append_of_ne_nil _ (by simp)]
      simp only [List.getLast?_singleton, Option.some.injEq]
      have h1 := hi a (by simp)
      rcases List.mem_append.mp m2 with e | e
      · have := (List.pairwise_append.mp hs).2.2 _ e a (by simp)
        omega
      · simp only [List.mem_singleton] at e
        exact e.symm

theorem spanPart_corners {part : List (Int × Int)} : spanPart (part.map (·.1)) (part.map (·.2 - 1)) = part := by
  unfold spanPart
  rw [List.zipWith_map]
  induction part with
  | nil => rfl
  | cons r part ih =>
    rw [List.zipWith_cons_cons, ih]
    simp

theorem spanPart_nonempty {st first last : List Int} (h : BoxIn st (spanPart first last)) (hle : List.Forall₂ (· ≤ ·) first last) :
    ∀ r ∈ spanPart first last, r.1 < r.2 := by
  clear h
  induction hle with
  | nil => simp [spanPart]
  | cons h hs ih =>
    intro r hr
    simp only [spanPart, List.zipWith_cons_cons, List.mem_cons] at hr
    rcases hr with rfl | hr
    · simp; omega
    · exact ih r hr

theorem prod_nonneg_int : ∀ {l : List Int}, (∀ x ∈ l, 0 ≤ x) → 0 ≤ l.prod
  | [], _ => by simp
  | x :: l, h => by
    rw [List.prod_cons]
    exact Int.mul_nonneg (h x (by simp)) (prod_nonneg_int fun y hy => h y (by simp [hy]))

/-- Everything about a run of `IsPartStructured`. -/
theorem isPartStructured_run {st ids : List Int} (hst : ∀ n ∈ st, 0 < n) (h1 : 1 ≤ st.length) (h3 : st.length ≤ 3) (hids : ∀ x ∈ ids, 0 ≤ x) :
    (∃ part, isPartStructured ids st = .ok (some part) ∧ BoxIn st part ∧ (∀ r ∈ part, r.1 < r.2) ∧ IsBoxList st part ids) ∨
    ((∀ part, BoxIn st part → (∀ r ∈ part, r.1 < r.2) → ¬ IsBoxList st part ids) ∧
      (isPartStructured ids st = .ok none ∨
        (isPartStructured ids st = .error .exn ∧ (ids = [] ∨ ∃ x ∈ ids, st.prod ≤ x)))) := by
  unfold isPartStructured
  rw [if_neg (by omega)]
  rcases hids' : ids with _ | ⟨a, tl⟩
  · right
    refine ⟨fun part hb hn hl => ?_, Or.inr ⟨rfl, Or.inl rfl⟩⟩
    have := (hl.2 _).mpr ⟨_, inBox_first hn, rfl⟩
    simp at this
  rw [← hids']
  have hha : ids.head? = some a := by rw [hids']; rfl
  obtain ⟨z, hz⟩ : ∃ z, ids.getLast? = some z := by
    rw [hids']
    exact ⟨_, List.getLast?_eq_some_getLast (by simp)⟩
  have ha0 := hids a (List.mem_of_mem_head? hha)
  have hz0 := hids z (List.mem_of_getLast? hz)
  rw [hha, hz]
  simp only
  obtain ⟨s, n, rfl⟩ : ∃ s n, st = s ++ [n] := by
    rcases List.eq_nil_or_concat st with rfl | ⟨s, n, e⟩
    · simp at h1
    · exact ⟨s, n, by rw [e, List.concat_eq_append]⟩
  obtain ⟨fp, fz, f1, f2, f3, f4, f5⟩ := getPosFromId_any hst ha0
  obtain ⟨lp, lz, g1, g2, g3, g4, g5⟩ := getPosFromId_any hst hz0
  have i1 : (((s ++ [n]).length : Int) - 1) = (s.length : Int) := by simp
  have r1 : rd (fp ++ [fz]) (((s ++ [n]).length : Int) - 1) = .ok fz := by
    rw [i1]
    apply rd_of_getElem? (by omega)
    have hfl : fp.length = s.length := f2.length_eq
    rw [Int.toNat_natCast, List.getElem?_append_right (by omega)]
    simp [hfl]
  have r2 : rd (s ++ [n]) (((s ++ [n]).length : Int) - 1) = .ok n := by
    rw [i1]
    apply rd_of_getElem? (by omega)
    rw [Int.toNat_natCast, List.getElem?_append_right (by omega)]
    simp
  rw [f1, ok_bind, r1, ok_bind, r2, ok_bind]
  -- what a structured list forces
  have forced : ∀ part, BoxIn (s ++ [n]) part → (∀ r ∈ part, r.1 < r.2) → IsBoxList (s ++ [n]) part ids →
      fp ++ [fz] = part.map (·.1) ∧ lp ++ [lz] = part.map (·.2 - 1) ∧ InGrid (s ++ [n]) (fp ++ [fz]) ∧ InGrid (s ++ [n]) (lp ++ [lz]) := by
    intro part hb hn hl
    obtain ⟨c1, c2⟩ := box_head hb hn hl
    rw [hha] at c1
    rw [hz] at c2
    injection c1 with c1
    injection c2 with c2
    have k1 := hb.grid (inBox_first hn)
    have k2 := hb.grid (inBox_last hn)
    have q1 := getPosFromId_lin k1
    have q2 := getPosFromId_lin k2
    rw [← c1, f1] at q1
    rw [← c2, g1] at q2
    injection q1 with q1
    injection q2 with q2
    exact ⟨q1, q2, q1 ▸ k1, q2 ▸ k2⟩
  by_cases hfz : fz < n
  swap
  · right
    rw [if_pos (by omega)]
    refine ⟨fun part hb hn hl => ?_, Or.inr ⟨rfl, Or.inr ⟨a, List.mem_of_mem_head? hha, ?_⟩⟩⟩
    · obtain ⟨_, _, c, _⟩ := forced part hb hn hl
      obtain ⟨p', z', g3, _, _, g1⟩ := inGrid_snoc c
      have := List.append_inj_right' g3 (by simp)
      simp only [List.cons.injEq, and_true] at this
      omega
    · by_contra hc
      exact hfz (f5.mpr (by omega))
  rw [if_neg (by omega)]
  have hfg : InGrid (s ++ [n]) (fp ++ [fz]) := List.rel_append f2 (.cons ⟨f3, hfz⟩ .nil)
  by_cases hone : ids.length = 1
  · left
    rw [if_pos hone]
    have hia : ids = [a] := by
      rw [hids'] at hone ⊢
      simp at hone
      rw [hone]
    have box1 : ∀ (p : List Int) (q : List Int), InBox (p.map fun x => (x, x + 1)) q ↔ q = p := by
      intro p
      induction p with
      | nil =>
        intro q
        constructor
        · intro h; cases h; rfl
        · rintro rfl; exact .nil
      | cons x p ih =>
        intro q
        constructor
        · intro h
          cases h with
          | cons h hs =>
            rw [(ih _).mp hs]
            simp only at h
            congr 1; omega
        · rintro rfl
          exact .cons (by simp only; omega) ((ih p).mpr rfl)
    refine ⟨_, rfl, ?_, ?_, ?_⟩
    · generalize fp ++ [fz] = p at hfg ⊢
      generalize s ++ [n] = st at hfg ⊢
      clear * - hfg
      induction hfg with
      | nil => exact .nil
      | cons h hs ih => exact .cons (by simp only; omega) ih
    · intro r hr
      obtain ⟨x, _, rfl⟩ := List.mem_map.mp hr
      simp only; omega
    · rw [hia]
      refine ⟨by simp [StrictSorted], fun x => ?_⟩
      simp only [List.mem_singleton, box1, exists_eq_left, f4]
      exact eq_comm
  rw [if_neg hone, g1, ok_bind]
  have hl0 : ∀ l ∈ lp ++ [lz], 0 ≤ l := by
    intro l hl
    rcases List.mem_append.mp hl with hl | hl
    · obtain ⟨i, hi, rfl⟩ := List.mem_iff_getElem.mp hl
      have := (List.forall₂_iff_get.mp g2).2 i hi (by rw [← g2.length_eq]; exact hi)
      simp at this
      omega
    · simp only [List.mem_singleton] at hl
      omega
  have hll : (lp ++ [lz]).length = (s ++ [n]).length := by simp [g2.length_eq]
  rcases partSizesLoop_spec (fp ++ [fz]) (lp ++ [lz]) (s ++ [n]) hfg hll hl0 with ⟨k1, k2, k3, k4⟩ | ⟨k1, k3⟩ | ⟨k1, k3⟩
  · rw [k3, ok_bind]
    simp only
    have hne := spanPart_nonempty k4 k2
    have hpn : 0 ≤ (boxDims (spanPart (fp ++ [fz]) (lp ++ [lz]))).prod := prod_nonneg_int k4.dims_nonneg
    have only : ∀ part, BoxIn (s ++ [n]) part → (∀ r ∈ part, r.1 < r.2) → IsBoxList (s ++ [n]) part ids →
        part = spanPart (fp ++ [fz]) (lp ++ [lz]) := by
      intro part hb hn hl
      obtain ⟨c1, c2, _, _⟩ := forced part hb hn hl
      rw [c1, c2, spanPart_corners]
    by_cases hp : (boxDims (spanPart (fp ++ [fz]) (lp ++ [lz]))).prod = ids.length
    · rw [if_neg (by simp [hp])]
      have hlb : (boxPos (boxDims (spanPart (fp ++ [fz]) (lp ++ [lz])))).length = ids.length := by
        rw [length_boxPos k4.dims_nonneg]; omega
      rcases cmpLoop_spec (partOffset (s ++ [n]) (spanPart (fp ++ [fz]) (lp ++ [lz]))) _ ids hlb with ⟨e1, e2⟩ | ⟨e1, e2⟩
      · left
        refine ⟨_, ?_, k4, hne, ?_⟩
        · show (cmpLoop _ _ _ >>= _) = _
          rw [show List.zipWith (fun f l => (f, l + 1)) (fp ++ [fz]) (lp ++ [lz]) = spanPart (fp ++ [fz]) (lp ++ [lz]) from rfl, e2, ok_bind]
          rfl
        · rw [← e1]
          exact boxIds_isBoxList k4
      · right
        refine ⟨fun part hb hn hl => ?_, Or.inl ?_⟩
        · have := only part hb hn hl
          subst this
          exact e1 (IsBoxList.unique (boxIds_isBoxList hb) hl)
        · show (cmpLoop _ _ _ >>= _) = _
          rw [show List.zipWith (fun f l => (f, l + 1)) (fp ++ [fz]) (lp ++ [lz]) = spanPart (fp ++ [fz]) (lp ++ [lz]) from rfl, e2, ok_bind]
          rfl
    · rw [if_pos hp]
      right
      refine ⟨fun part hb hn hl => ?_, Or.inl rfl⟩
      have := only part hb hn hl
      subst this
      have e := IsBoxList.unique (boxIds_isBoxList hb) hl
      have := length_boxIds hb
      rw [e] at this
      omega
  · rw [k3, ok_bind]
    right
    refine ⟨fun part hb hn hl => ?_, Or.inl rfl⟩
    obtain ⟨c1, c2, c3, c4⟩ := forced part hb hn hl
    refine k1 ⟨c4, ?_⟩
    rw [c1, c2]
    clear * - hn
    induction part with
    | nil => exact .nil
    | cons r part ih => exact .cons (by have := hn r (by simp); show r.1 ≤ r.2 - 1; omega) (ih fun x hx => hn x (by simp [hx]))
  · rw [k3]
    right
    refine ⟨fun part hb hn hl => k1 (forced part hb hn hl).2.2.2, Or.inr ⟨rfl, Or.inr ⟨z, List.mem_of_getLast? hz, ?_⟩⟩⟩
    by_contra hc
    exact k1 (List.rel_append g2 (.cons ⟨g3, g5.mpr (by omega)⟩ .nil))

/-- **C41** `IsPartStructured` answers true exactly for the increasing lists of ids of a (non empty) part of the grid, and gives that part. -/
theorem C41_isPartStructured {st ids : List Int} (hst : ∀ n ∈ st, 0 < n) (h1 : 1 ≤ st.length) (h3 : st.length ≤ 3) (hids : ∀ x ∈ ids, 0 ≤ x)
    (part : List (Int × Int)) :
    isPartStructured ids st = .ok (some part) ↔ BoxIn st part ∧ (∀ r ∈ part, r.1 < r.2) ∧ IsBoxList st part ids := by
  constructor
  · intro h
    rcases isPartStructured_run hst h1 h3 hids with ⟨p, e, c⟩ | ⟨_, e | ⟨e, _⟩⟩
    · rw [e] at h
      injection h with h
      injection h with h
      exact h ▸ c
    · rw [e] at h
      injection h with h
      exact absurd h (by simp)
    · rw [e] at h
      exact absurd h (by simp)
  · rintro ⟨c1, c2, c3⟩
    rcases isPartStructured_run hst h1 h3 hids with ⟨p, e, d1, d2, d3⟩ | ⟨hno, _⟩
    · have : p = part := by
        obtain ⟨x1, x2⟩ := box_head c1 c2 c3
        obtain ⟨y1, y2⟩ := box_head d1 d2 d3
        rw [x1] at y1
        rw [x2] at y2
        injection y1 with y1
        injection y2 with y2
        have k1 := lin_inj (c1.grid (inBox_first c2)) (d1.grid (inBox_first d2)) y1
        have k2 := lin_inj (c1.grid (inBox_last c2)) (d1.grid (inBox_last d2)) y2
        rw [← spanPart_corners (part := p), ← spanPart_corners (part := part), k1, k2]
      rw [e, this]
    · exact absurd c3 (hno part c1 c2)

/-- **C41** `IsPartStructured` on non negative ids is safe; it throws only if there is no id or some id is out of the grid. -/
theorem C41_isPartStructured_throws {st ids : List Int} (hst : ∀ n ∈ st, 0 < n) (h1 : 1 ≤ st.length) (h3 : st.length ≤ 3)
    (hids : ∀ x ∈ ids, 0 ≤ x) :
    isPartStructured ids st ≠ .error .ub ∧ (isPartStructured ids st = .error .exn → ids = [] ∨ ∃ x ∈ ids, st.prod ≤ x) := by
  rcases isPartStructured_run hst h1 h3 hids with ⟨p, e, _⟩ | ⟨_, e | ⟨e, c⟩⟩
  · rw [e]; simp
  · rw [e]; simp
  · rw [e]
    exact ⟨by simp, fun _ => c⟩

example : buildExplicitIdsFrom [4, 3] [(1, 3), (0, 2)] = .ok [some 1, some 2, some 5, some 6] ∧
    isPartStructured [1, 2, 5, 6] [4, 3] = .ok (some [(1, 3), (0, 2)]) ∧ isPartStructured [1, 2, 5, 7] [4, 3] = .ok none ∧
    isPartStructured [0, 12] [4, 3] = .error .exn ∧
    switchOnIdsFrom [4, 3] [(1, 3), (1, 2)] (List.replicate 12 false) =
      .ok [false, false, false, false, false, true, true, false, false, false, false, false] := ⟨rfl, rfl, rfl, rfl, rfl⟩

example : extractFieldFrom [2, 2] 4 2 [10, 11, 20, 21, 30, 31, 40, 41] [(1, 2), (0, 2)] = .ok [some 20, some 21, some 40, some 41] ∧
    mapPartOf (· * 2) [2, 2] [(1, 2), (0, 1)] 4 2 [10, 11, 20, 21, 30, 31, 40, 41] = .ok [10, 11, 40, 42, 30, 31, 40, 41] ∧
    mapPartOf (· * 2) [2, 2] [(1, 3), (0, 1)] 4 2 [10, 11, 20, 21, 30, 31, 40, 41] = .error .exn := ⟨rfl, rfl, rfl⟩

/-- Finding: negative ids are not refused by `IsPartStructured` beyond one axis: the id -1 of a 4 x 3 grid is a "part", with a negative bound. -/
theorem C41_negative_ids : isPartStructured [-1] [4, 3] = .ok (some [(-1, 0), (0, 1)]) ∧
    isPartStructured [-1, 0] [4, 3] = .ok (some [(-1, 1), (0, 1)]) := ⟨rfl, rfl⟩

/-- Finding: `SwitchOnIdsFrom` and `ExtractFieldOfBoolFrom` do not compare the part with the structure: a part which does not fit reads or writes
cells of the next line, or out of the vector. -/
theorem C41_part_not_checked :
    switchOnIdsFrom [2, 2] [(2, 3), (0, 1)] [false, false, false, false] = .ok [false, false, true, false] ∧
    switchOnIdsFrom [2, 2] [(0, 2), (1, 3)] [false, false, false, false] = .error .ub ∧
    extractFieldOfBoolFrom [2, 2] [false, false, false, false] [(0, 2), (1, 3)] = .error .ub := ⟨rfl, rfl, rfl⟩

end MC
