import Verif.StructMin
import Verif.StructConnProps

/-!
# Structured grids: bounding box of the marked cells (C43), signatures (C46) – proofs
-/

namespace MC

/-- The cell at position `q` is marked. -/
def MarkedCell (st : List Int) (crit : List Bool) (q : List Int) : Prop := InGrid st q ∧ crit[(lin st q).toNat]? = some true

theorem inBox_iff {part : List (Int × Int)} {q : List Int} :
    InBox part q ↔ q.length = part.length ∧ ∀ a < part.length, (part.getD a (0, 0)).1 ≤ q.getD a 0 ∧ q.getD a 0 < (part.getD a (0, 0)).2 := by
  unfold InBox
  rw [List.forall₂_iff_get]
  constructor
  · rintro ⟨hl, h⟩
    refine ⟨hl, fun a ha => ?_⟩
    have := h a (by omega) ha
    simpa [List.getD_eq_getElem?_getD, ha, hl] using this
  · rintro ⟨hl, h⟩
    refine ⟨hl, fun a h1 h2 => ?_⟩
    have := h a h2
    simpa [List.getD_eq_getElem?_getD, h2, hl] using this

theorem inGrid_iff {st q : List Int} :
    InGrid st q ↔ q.length = st.length ∧ ∀ a < st.length, 0 ≤ q.getD a 0 ∧ q.getD a 0 < st.getD a 0 := by
  unfold InGrid
  rw [List.forall₂_iff_get]
  constructor
  · rintro ⟨hl, h⟩
    refine ⟨hl, fun a ha => ?_⟩
    have := h a (by omega) ha
    simpa [List.getD_eq_getElem?_getD, ha, hl] using this
  · rintro ⟨hl, h⟩
    refine ⟨hl, fun a h1 h2 => ?_⟩
    have := h a h2
    simpa [List.getD_eq_getElem?_getD, h2, hl] using this

theorem boxIn_iff {st : List Int} {part : List (Int × Int)} :
    BoxIn st part ↔ part.length = st.length ∧ ∀ a < st.length, 0 ≤ (part.getD a (0, 0)).1 ∧ (part.getD a (0, 0)).1 ≤ (part.getD a (0, 0)).2 ∧
      (part.getD a (0, 0)).2 ≤ st.getD a 0 := by
  unfold BoxIn
  rw [List.forall₂_iff_get]
  constructor
  · rintro ⟨hl, h⟩
    refine ⟨hl, fun a ha => ?_⟩
    have := h a (by omega) ha
    simpa [List.getD_eq_getElem?_getD, ha, hl] using this
  · rintro ⟨hl, h⟩
    refine ⟨hl, fun a h1 h2 => ?_⟩
    have := h a h2
    simpa [List.getD_eq_getElem?_getD, h2, hl] using this

/-- What the pairs of extrema are worth after the marked positions `T`. -/
def ExtremaOf (d : Nat) (T : List (List Int)) (mm : List (Int × Int)) : Prop :=
  mm.length = d ∧ ∀ a < d, (∀ p ∈ T, (mm.getD a (0, 0)).1 ≤ p.getD a 0 ∧ p.getD a 0 ≤ (mm.getD a (0, 0)).2) ∧
    (T = [] → mm.getD a (0, 0) = (idMax, -idMax)) ∧
    (T ≠ [] → (∃ p ∈ T, p.getD a 0 = (mm.getD a (0, 0)).1) ∧ (∃ p ∈ T, p.getD a 0 = (mm.getD a (0, 0)).2))

theorem extremaOf_snoc {d : Nat} {T : List (List Int)} {mm : List (Int × Int)} {p : List Int} (h : ExtremaOf d T mm) (hp : p.length = d)
    (hb : ∀ a < d, 0 ≤ p.getD a 0 ∧ p.getD a 0 ≤ idMax) :
    ExtremaOf d (T ++ [p]) (List.zipWith (fun (r : Int × Int) x => (min r.1 x, max r.2 x)) mm p) := by
  obtain ⟨hl, h⟩ := h
  refine ⟨by simp [hl, hp], fun a ha => ?_⟩
  obtain ⟨h1, h2, h3⟩ := h a ha
  have hba := hb a ha
  have e : (List.zipWith (fun (r : Int × Int) x => (min r.1 x, max r.2 x)) mm p).getD a (0, 0) =
      (min (mm.getD a (0, 0)).1 (p.getD a 0), max (mm.getD a (0, 0)).2 (p.getD a 0)) := by
    simp [List.getD_eq_getElem?_getD, List.getElem?_zipWith, hl, hp, ha]
  rw [e]
  generalize mm.getD a (0, 0) = r at *
  generalize hx : p.getD a 0 = x at *
  refine ⟨?_, fun h => absurd h (by simp), fun _ => ?_⟩
  · intro q hq
    rcases List.mem_append.mp hq with hq | hq
    · have := h1 q hq
      simp only
      omega
    · rw [List.mem_singleton] at hq
      subst hq
      rw [hx]
      simp only
      omega
  · by_cases hT : T = []
    · have := h2 hT
      subst this
      refine ⟨⟨p, by simp, ?_⟩, ⟨p, by simp, ?_⟩⟩
      · rw [hx]; show x = min idMax x; omega
      · rw [hx]; show x = max (-idMax) x; unfold idMax; omega
    · obtain ⟨⟨p1, m1, e1⟩, ⟨p2, m2, e2⟩⟩ := h3 hT
      constructor
      · by_cases hc : r.1 ≤ x
        · exact ⟨p1, by simp [m1], by rw [e1]; simp only; omega⟩
        · exact ⟨p, by simp, by rw [hx]; simp only; omega⟩
      · by_cases hc : x ≤ r.2
        · exact ⟨p2, by simp [m2], by rw [e2]; simp only; omega⟩
        · exact ⟨p, by simp, by rw [hx]; simp only; omega⟩

/-- Rank of the positions in the loops. -/
theorem lin_of_split {st : List Int} (h : ∀ d ∈ st, 0 ≤ d) {pre suf : List (List Int)} {p : List Int} (e : boxPos st = pre ++ p :: suf) :
    lin st p = pre.length := by
  have hs := congrArg (fun l : List Int => l[pre.length]?) (boxPos_sorted h)
  have hlen := length_boxPos h
  rw [e] at hlen
  simp only [e, List.map_append, List.map_cons, List.length_append, List.length_cons] at hs hlen
  rw [List.getElem?_append_right (by simp)] at hs
  simp only [List.length_map, Nat.sub_self, List.getElem?_cons_zero, List.getElem?_map] at hs
  rw [List.getElem?_range (by omega)] at hs
  simpa using hs

theorem minPartLoop_spec {st : List Int} {crit : List Bool} (hst : ∀ n ∈ st, 0 ≤ n ∧ n ≤ idMax) (hlen : (crit.length : Int) = st.prod) :
    ∃ T mm, (∀ q, q ∈ T ↔ MarkedCell st crit q) ∧ ExtremaOf st.length T mm ∧ T.length = crit.count true ∧
      minPartLoop st crit = .ok ((T.length : Int), if (T.length : Int) = 0 then st.map (fun n => (n.tdiv 2, n.tdiv 2)) else mm.map fun r => (r.1, r.2 + 1)) := by
  have h0 : ∀ d ∈ st, 0 ≤ d := fun d hd => (hst d hd).1
  have hl := length_boxPos h0
  have key : wp ((boxPos st).foldlM (m := Except Err) (minPartBody crit) ⟨0, st.map fun _ => (idMax, -idMax), 0⟩)
      (fun s => s.it = (boxPos st).length ∧ ∃ T : List (List Int), (∀ q, q ∈ T ↔ q ∈ boxPos st ∧ crit[(lin st q).toNat]? = some true) ∧
        ExtremaOf st.length T s.mm ∧ s.ret = T.length ∧ T.length = (crit.take (boxPos st).length).count true) False := by
    refine wp_foldlM (fun pre (s : MinSt) => s.it = pre.length ∧ ∃ T : List (List Int),
      (∀ q, q ∈ T ↔ q ∈ pre ∧ crit[(lin st q).toNat]? = some true) ∧
        ExtremaOf st.length T s.mm ∧ s.ret = T.length ∧ T.length = (crit.take pre.length).count true) ?_ ?_
    · refine ⟨rfl, [], by simp, ⟨by simp, fun a ha => ⟨by simp, fun _ => ?_, by simp⟩⟩, rfl, by simp⟩
      simp [List.getD_eq_getElem?_getD, ha]
    · rintro pre p suf hp s ⟨hit, T, hT, hE, hret, hcnt⟩
      have hpl := lin_of_split h0 hp
      have hlt : pre.length < crit.length := by
        have : pre.length < (boxPos st).length := by rw [hp]; simp
        omega
      have hmem : InGrid st p := mem_boxPos.mp (by rw [hp]; simp)
      obtain ⟨pl, pb⟩ := inGrid_iff.mp hmem
      unfold minPartBody
      rw [hit, rd_natCast hlt, ok_bind, wp_ok]
      refine ⟨by simp, ?_⟩
      have hget : crit[(lin st p).toNat]? = some crit[pre.length] := by rw [hpl]; simp [hlt]
      cases hb : crit[pre.length] with
      | true =>
        refine ⟨T ++ [p], fun q => ?_, ?_, ?_, ?_⟩
        · simp only [List.mem_append, List.mem_singleton, hT]
          constructor
          · rintro (h | rfl)
            · exact ⟨Or.inl h.1, h.2⟩
            · exact ⟨Or.inr rfl, by rw [hget, hb]⟩
          · rintro ⟨h | rfl, h'⟩
            · exact Or.inl ⟨h, h'⟩
            · exact Or.inr rfl
        · simp only [if_true]
          refine extremaOf_snoc hE pl fun a ha => ?_
          have := pb a ha
          have := hst (st.getD a 0) (by simp [List.getD_eq_getElem?_getD, ha])
          omega
        · simp [hret]
        · rw [List.length_append, List.length_singleton, List.length_append, List.length_singleton, List.take_succ, List.count_append, ← hcnt]
          simp [hlt, hb]
      | false =>
        refine ⟨T, fun q => ?_, by simpa using hE, by simp [hret], ?_⟩
        · simp only [List.mem_append, List.mem_singleton, hT]
          constructor
          · rintro ⟨h, h'⟩
            exact ⟨Or.inl h, h'⟩
          · rintro ⟨h | rfl, h'⟩
            · exact ⟨h, h'⟩
            · rw [hget, hb] at h'
              simp at h'
        · rw [List.length_append, List.length_singleton, List.take_succ, List.count_append, ← hcnt]
          simp [hlt, hb]
  obtain ⟨s, hs, -, T, hT, hE, hret, hcnt⟩ := wp_exists key
  refine ⟨T, s.mm, fun q => by rw [hT, mem_boxPos]; rfl, hE, ?_, ?_⟩
  · rw [hcnt, List.take_of_length_le]
    omega
  · unfold minPartLoop
    rw [hs, ok_bind, hret]

/-- What the enlargement of a range gives: it holds the range, has the right length, inside the axis. -/
theorem enlargeRange_spec {minLen n : Int} {r : Int × Int} (h0 : 0 ≤ minLen) (hn : minLen ≤ n) (hr : 0 ≤ r.1 ∧ r.1 ≤ r.2 ∧ r.2 ≤ n) :
    ∃ r', enlargeRange minLen n r = .ok r' ∧ 0 ≤ r'.1 ∧ r'.1 ≤ r.1 ∧ r.2 ≤ r'.2 ∧ r'.2 ≤ n ∧ r'.2 - r'.1 = max minLen (r.2 - r.1) := by
  unfold enlargeRange
  rw [if_neg (by omega)]
  by_cases h : r.2 - r.1 < minLen
  · rw [if_pos h]
    refine ⟨_, rfl, ?_⟩
    obtain ⟨a, b⟩ := r
    simp only at h hr ⊢
    have e1 : (a + b).tdiv 2 = (a + b) / 2 := Int.tdiv_eq_ediv_of_nonneg (by omega)
    have e2 : minLen.tdiv 2 = minLen / 2 := Int.tdiv_eq_ediv_of_nonneg h0
    rw [e1, e2]
    split_ifs <;> simp only at * <;> omega
  · rw [if_neg h]
    exact ⟨r, rfl, by omega⟩

theorem mapM_spec {α β : Type} {f : α → M β} {P : α → β → Prop} : ∀ {l : List α}, (∀ x ∈ l, ∃ y, f x = .ok y ∧ P x y) → ∃ r, l.mapM f = .ok r ∧ List.Forall₂ P l r
  | [], _ => ⟨[], rfl, .nil⟩
  | x :: l, h => by
    obtain ⟨y, hy, hP⟩ := h x (by simp)
    obtain ⟨r, hr, hR⟩ := mapM_spec (l := l) fun z hz => h z (by simp [hz])
    refine ⟨y :: r, ?_, .cons hP hR⟩
    rw [List.mapM_cons, hy, ok_bind, hr, ok_bind]
    rfl

/-- **C43** `FindMinimalPartOf` gives the number of marked cells and a box of the grid, at least `minLen` long on each axis, which holds all
marked cells, no longer on any axis than any box with these properties; and the marks of the cells of this box. -/
theorem C43_findMinimalPart {minLen : Int} {st : List Int} {crit : List Bool} (h0 : 0 ≤ minLen) (h1 : 1 ≤ st.length) (h3 : st.length ≤ 3)
    (hst : ∀ n ∈ st, minLen ≤ n ∧ n ≤ idMax) (hlen : (crit.length : Int) = st.prod) :
    ∃ part ids red, findMinimalPartOf minLen st crit = .ok ((crit.count true : Int), red.map some, part) ∧
      BoxIn st part ∧ (∀ r ∈ part, minLen ≤ r.2 - r.1) ∧ (∀ q, MarkedCell st crit q → InBox part q) ∧
      (∀ B : List (Int × Int), B.length = st.length → (∀ r ∈ B, minLen ≤ r.2 - r.1) → (∀ q, MarkedCell st crit q → InBox B q) →
        List.Forall₂ (fun r s => r.2 - r.1 ≤ s.2 - s.1) part B) ∧
      IsBoxList st part ids ∧ List.Forall₂ (fun id x => crit[id.toNat]? = some x) ids red := by
  have hst0 : ∀ n ∈ st, 0 ≤ n := fun n hn => by have := hst n hn; omega
  have hne : st ≠ [] := by rintro rfl; simp at h1
  obtain ⟨T, mm, hT, ⟨hml, hE⟩, hcnt, hr⟩ := minPartLoop_spec (crit := crit) (fun n hn => ⟨hst0 n hn, (hst n hn).2⟩) hlen
  generalize hP : (if (T.length : Int) = 0 then st.map (fun n => (n.tdiv 2, n.tdiv 2)) else mm.map fun r => (r.1, r.2 + 1)) = P at hr
  -- the tight box
  have hPl : P.length = st.length := by rw [← hP]; split_ifs <;> simp [hml]
  have hPin : BoxIn st P := by
    rw [boxIn_iff]
    refine ⟨hPl, fun a ha => ?_⟩
    have hsa := hst0 (st.getD a 0) (by simp [List.getD_eq_getElem?_getD, ha])
    rw [← hP]
    split_ifs with hc
    · have : (st.map (fun n : Int => (n.tdiv 2, n.tdiv 2))).getD a (0, 0) = ((st.getD a 0).tdiv 2, (st.getD a 0).tdiv 2) := by
        simp [List.getD_eq_getElem?_getD, ha]
      rw [this]
      simp only
      rw [Int.tdiv_eq_ediv_of_nonneg hsa]
      omega
    · have : (mm.map (fun r : Int × Int => (r.1, r.2 + 1))).getD a (0, 0) = ((mm.getD a (0, 0)).1, (mm.getD a (0, 0)).2 + 1) := by
        simp [List.getD_eq_getElem?_getD, ha, hml]
      rw [this]
      have hTne : T ≠ [] := by rintro rfl; simp at hc
      obtain ⟨-, -, h⟩ := hE a ha
      obtain ⟨⟨p1, m1, e1⟩, ⟨p2, m2, e2⟩⟩ := h hTne
      have b1 := (inGrid_iff.mp ((hT p1).mp m1).1).2 a ha
      have b2 := (inGrid_iff.mp ((hT p2).mp m2).1).2 a ha
      have := (hE a ha).1 p1 m1
      simp only
      omega
  have hPall : ∀ q, MarkedCell st crit q → InBox P q := by
    intro q hq
    have hqT := (hT q).mpr hq
    have hTne : T ≠ [] := by rintro rfl; simp at hqT
    have hc : ¬ (T.length : Int) = 0 := by
      have := List.length_pos_iff.mpr hTne
      omega
    rw [if_neg hc] at hP
    rw [inBox_iff, hPl]
    refine ⟨(inGrid_iff.mp hq.1).1, fun a ha => ?_⟩
    have : P.getD a (0, 0) = ((mm.getD a (0, 0)).1, (mm.getD a (0, 0)).2 + 1) := by
      rw [← hP]
      simp [List.getD_eq_getElem?_getD, ha, hml]
    rw [this]
    have := (hE a ha).1 q hqT
    simp only
    omega
  have hPmin : ∀ B : List (Int × Int), B.length = st.length → (∀ r ∈ B, minLen ≤ r.2 - r.1) → (∀ q, MarkedCell st crit q → InBox B q) →
      ∀ a < st.length, (P.getD a (0, 0)).2 - (P.getD a (0, 0)).1 ≤ (B.getD a (0, 0)).2 - (B.getD a (0, 0)).1 := by
    intro B hBl hBm hB a ha
    have hBa := hBm (B.getD a (0, 0)) (by simp [List.getD_eq_getElem?_getD, ha, hBl])
    rw [← hP]
    split_ifs with hc
    · have : (st.map (fun n : Int => (n.tdiv 2, n.tdiv 2))).getD a (0, 0) = ((st.getD a 0).tdiv 2, (st.getD a 0).tdiv 2) := by
        simp [List.getD_eq_getElem?_getD, ha]
      rw [this]
      simp only
      omega
    · have : (mm.map (fun r : Int × Int => (r.1, r.2 + 1))).getD a (0, 0) = ((mm.getD a (0, 0)).1, (mm.getD a (0, 0)).2 + 1) := by
        simp [List.getD_eq_getElem?_getD, ha, hml]
      rw [this]
      have hTne : T ≠ [] := by rintro rfl; simp at hc
      obtain ⟨⟨p1, m1, e1⟩, ⟨p2, m2, e2⟩⟩ := (hE a ha).2.2 hTne
      have b1 := (inBox_iff.mp (hB p1 ((hT p1).mp m1))).2 a (by omega)
      have b2 := (inBox_iff.mp (hB p2 ((hT p2).mp m2))).2 a (by omega)
      simp only
      omega
  -- the enlargement
  obtain ⟨part, hpart, hF⟩ := mapM_spec (f := fun nr : Int × (Int × Int) => enlargeRange minLen nr.1 nr.2) (l := List.zip st P)
    (P := fun nr r' => 0 ≤ r'.1 ∧ r'.1 ≤ nr.2.1 ∧ nr.2.2 ≤ r'.2 ∧ r'.2 ≤ nr.1 ∧ r'.2 - r'.1 = max minLen (nr.2.2 - nr.2.1)) (by
      rintro ⟨n, r⟩ hnr
      obtain ⟨i, hi, e⟩ := List.mem_iff_getElem.mp hnr
      simp only [List.length_zip, hPl, Nat.min_self] at hi
      simp only [List.getElem_zip, Prod.mk.injEq] at e
      have := (List.forall₂_iff_get.mp hPin).2 i (by omega) hi
      simp only [List.get_eq_getElem, e.1, e.2] at this
      exact enlargeRange_spec h0 (hst n (e.1 ▸ List.getElem_mem _)).1 this)
  have hpl : part.length = st.length := by
    have := hF.length_eq
    simp only [List.length_zip, hPl, Nat.min_self] at this
    exact this.symm
  have hpa : ∀ a < st.length, 0 ≤ (part.getD a (0, 0)).1 ∧ (part.getD a (0, 0)).1 ≤ (P.getD a (0, 0)).1 ∧ (P.getD a (0, 0)).2 ≤ (part.getD a (0, 0)).2 ∧
      (part.getD a (0, 0)).2 ≤ st.getD a 0 ∧ (part.getD a (0, 0)).2 - (part.getD a (0, 0)).1 = max minLen ((P.getD a (0, 0)).2 - (P.getD a (0, 0)).1) := by
    intro a ha
    have := (List.forall₂_iff_get.mp hF).2 a (by simp [hPl, ha]) (by omega)
    simpa [List.getD_eq_getElem?_getD, ha, hpl, hPl] using this
  have hin : BoxIn st part := by
    rw [boxIn_iff]
    refine ⟨hpl, fun a ha => ?_⟩
    have := hpa a ha
    have := (boxIn_iff.mp hPin).2 a ha
    omega
  obtain ⟨ids, red, hred, hids, hF2⟩ := C41_extractBool hin h1 h3 hlen
  refine ⟨part, ids, red, ?_, hin, ?_, ?_, ?_, hids, hF2⟩
  · unfold findMinimalPartOf
    rw [if_neg (by omega), deduceStructure_ok hst0 hne, ok_bind, if_neg (by simp [hlen]), if_pos ⟨h1, h3⟩, hr, ok_bind]
    simp only
    rw [dimensions_ok hPin, ok_bind, hpart, ok_bind, hred, ok_bind, hcnt]
  · intro r hr
    obtain ⟨a, ha, rfl⟩ := List.mem_iff_getElem.mp hr
    have := (hpa a (by omega)).2.2.2.2
    simp only [List.getD_eq_getElem?_getD, List.getElem?_eq_getElem ha, Option.getD_some] at this
    omega
  · intro q hq
    obtain ⟨hl, h⟩ := inBox_iff.mp (hPall q hq)
    rw [inBox_iff]
    refine ⟨by omega, fun a ha => ?_⟩
    have := h a (by omega)
    have := hpa a (by omega)
    omega
  · intro B hBl hBm hB
    rw [List.forall₂_iff_get]
    refine ⟨by omega, fun a g1 g2 => ?_⟩
    have e1 := (hpa a (by omega)).2.2.2.2
    have e2 := hPmin B hBl hBm hB a (by omega)
    have e3 := hBm (B[a]) (List.getElem_mem _)
    simp only [List.getD_eq_getElem?_getD, List.getElem?_eq_getElem g1, List.getElem?_eq_getElem g2, Option.getD_some] at e1 e2
    simp only [List.get_eq_getElem]
    omega

/-- **C43** All other calls are refused. -/
theorem C43_throws {minLen : Int} {st : List Int} {crit : List Bool} (hmax : ∀ n ∈ st, n ≤ idMax)
    (h : minLen < 0 ∨ st.length < 1 ∨ 3 < st.length ∨ (∃ n ∈ st, n < minLen) ∨ (∃ n ∈ st, n < 0) ∨ (crit.length : Int) ≠ st.prod) :
    findMinimalPartOf minLen st crit = throwX := by
  unfold findMinimalPartOf
  by_cases hm : minLen < 0
  · rw [if_pos hm]
  rw [if_neg hm]
  by_cases hneg : ∃ n ∈ st, n < 0
  · have : deduceNumberOfGivenStructure st = throwX := by
      unfold deduceNumberOfGivenStructure
      rw [if_pos (by simpa using hneg)]
    rw [this]
    rfl
  have hst0 : ∀ n ∈ st, 0 ≤ n := fun n hn => by
    by_contra hc
    exact hneg ⟨n, hn, by omega⟩
  by_cases hd : 1 ≤ st.length ∧ st.length ≤ 3
  · have hne : st ≠ [] := by rintro rfl; simp at hd
    rw [deduceStructure_ok hst0 hne, ok_bind]
    by_cases hl : (crit.length : Int) = st.prod
    · rw [if_neg (by simp [hl]), if_pos hd]
      have hex : ∃ n ∈ st, n < minLen := by
        rcases h with h | h | h | h | h | h
        · omega
        · omega
        · omega
        · exact h
        · exact absurd h hneg
        · exact absurd hl h
      obtain ⟨T, mm, hT, ⟨hml, hE⟩, hcnt, hr⟩ := minPartLoop_spec (crit := crit) (fun n hn => ⟨hst0 n hn, hmax n hn⟩) hl
      rw [hr, ok_bind]
      simp only
      generalize hP : (if (T.length : Int) = 0 then st.map (fun n => (n.tdiv 2, n.tdiv 2)) else mm.map fun r => (r.1, r.2 + 1)) = P
      have hPl : P.length = st.length := by rw [← hP]; split_ifs <;> simp [hml]
      have hdim : dimensionsFromCompactFrmt P = throwX ∨ ∃ d, dimensionsFromCompactFrmt P = .ok d := by
        unfold dimensionsFromCompactFrmt
        clear * -
        induction P with
        | nil => exact Or.inr ⟨[], rfl⟩
        | cons r P ih =>
          rw [List.mapM_cons]
          split_ifs
          · exact Or.inl rfl
          · rcases ih with e | ⟨d, e⟩
            · left; rw [ok_bind, e]; rfl
            · right; rw [ok_bind, e]; exact ⟨_, rfl⟩
      rcases hdim with e | ⟨d, e⟩
      · rw [e]; rfl
      · rw [e, ok_bind]
        have : (List.zip st P).mapM (fun nr => enlargeRange minLen nr.1 nr.2) = throwX := by
          clear * - hex hPl
          induction st generalizing P with
          | nil => simp at hex
          | cons n st ih =>
            match P, hPl with
            | r :: P, hPl =>
              rw [List.zip_cons_cons, List.mapM_cons]
              simp only
              by_cases hn : n < minLen
              · unfold enlargeRange
                rw [if_pos hn]; rfl
              · have : ∃ r', enlargeRange minLen n r = .ok r' := by
                  unfold enlargeRange
                  rw [if_neg hn]
                  split_ifs <;> exact ⟨_, rfl⟩
                obtain ⟨r', e⟩ := this
                rw [e, ok_bind, ih]
                · rfl
                · obtain ⟨m, hm, hm'⟩ := hex
                  rcases List.mem_cons.mp hm with rfl | hm
                  · exact absurd hm' hn
                  · exact ⟨m, hm, hm'⟩
                · simpa using hPl
        rw [this]; rfl
    · rw [if_pos (by simpa using hl)]
  · obtain ⟨n, hn⟩ | hn : (∃ n, deduceNumberOfGivenStructure st = .ok n) ∨ deduceNumberOfGivenStructure st = throwX := by
      unfold deduceNumberOfGivenStructure
      split_ifs
      · right; rfl
      all_goals left; exact ⟨_, rfl⟩
    · rw [hn, ok_bind, if_neg hd]
      split_ifs <;> rfl
    · rw [hn]; rfl

example : findMinimalPartOf 2 [4, 3] [false, false, true, false, false, false, false, false, false, false, false, false] =
    .ok (1, [some false, some true, some false, some false], [(1, 3), (0, 2)]) ∧ findMinimalPartOf 5 [4] [true, true, true, true] = throwX := ⟨rfl, rfl⟩

/-! ## C46 -/

theorem sigCount_spec {crit : List Bool} {off : List Int → Int} {dims : List Int} (h : ∀ p ∈ boxPos dims, 0 ≤ off p ∧ off p < crit.length) :
    sigCount crit off dims = .ok ((((boxPos dims).filter fun p => crit[(off p).toNat]? == some true).length : Nat) : Int) := by
  have key : wp (sigCount crit off dims) (fun r => r = (((boxPos dims).filter fun p => crit[(off p).toNat]? == some true).length : Int)) False := by
    refine wp_foldlM (fun pre (s : Int) => s = ((pre.filter fun p => crit[(off p).toNat]? == some true).length : Int)) (by simp) ?_
    rintro pre p suf hl s rfl
    obtain ⟨h0, h1⟩ := h p (by rw [hl]; simp)
    obtain ⟨o, ho⟩ := Int.eq_ofNat_of_zero_le h0
    rw [ho] at h1 ⊢
    have h1' : o < crit.length := by omega
    rw [rd_natCast h1', ok_bind, wp_ok]
    cases hb : crit[o] <;> simp [List.filter_append, ho, h1', hb]
  obtain ⟨r, hr, e⟩ := wp_exists key
  rw [hr, e]

/-- One axis of the signatures, for any way `ins` of putting the fixed index among the others. -/
theorem sigAxis_spec {st : List Int} {crit : List Bool} {a : Nat} {n : Int} {off : Int → List Int → Int} {dims : List Int} {ins : Int → List Int → List Int}
    (hlen : (crit.length : Int) = st.prod) (hn : 0 ≤ n) (hdims : ∀ d ∈ dims, 0 ≤ d)
    (hoff : ∀ i p, InGrid dims p → off i p = lin st (ins i p))
    (hinj : ∀ i p p', InGrid dims p → InGrid dims p' → ins i p = ins i p' → p = p')
    (hins : ∀ i q, 0 ≤ i → i < n → ((InGrid st q ∧ q[a]? = some i) ↔ ∃ p, InGrid dims p ∧ ins i p = q)) :
    ∃ r, sigAxis crit n off dims = .ok r ∧ (r.length : Int) = n ∧ ∀ (i : Nat) x, r[i]? = some x →
      ∃ l : List (List Int), l.Nodup ∧ (∀ q, q ∈ l ↔ MarkedCell st crit q ∧ q[a]? = some (i : Int)) ∧ x = l.length := by
  have nd : (boxPos dims).Nodup := by
    have := (congrArg List.Nodup (boxPos_sorted hdims)).mpr (List.Nodup.map (fun i j h => by omega) List.nodup_range)
    exact List.Nodup.of_map _ this
  have hcell : ∀ i ∈ List.range n.toNat, ∃ y, sigCount crit (off i) dims = .ok y ∧
      (y = (((boxPos dims).filter fun p => crit[(off i p).toNat]? == some true).length : Int)) := by
    intro i hi
    rw [List.mem_range] at hi
    refine ⟨_, sigCount_spec (fun p hp => ?_), rfl⟩
    rw [hoff _ _ (mem_boxPos.mp hp), hlen]
    exact lin_bounds ((hins i (ins i p) (by omega) (by omega)).mpr ⟨p, mem_boxPos.mp hp, rfl⟩).1
  obtain ⟨r, hr, hF⟩ := mapM_spec hcell
  refine ⟨r, ?_, ?_, ?_⟩
  · unfold sigAxis
    rw [if_neg (by omega)]
    exact hr
  · have := hF.length_eq
    simp only [List.length_range] at this
    omega
  · intro i x hx
    obtain ⟨hi, e⟩ := List.getElem?_eq_some_iff.mp hx
    have hl := hF.length_eq
    rw [List.length_range] at hl
    have h2 := (List.forall₂_iff_get.mp hF).2 i (by rw [List.length_range]; omega) hi
    simp only [List.get_eq_getElem, List.getElem_range, e] at h2
    refine ⟨((boxPos dims).filter fun p => crit[(off i p).toNat]? == some true).map (ins i), ?_, ?_, ?_⟩
    · rw [List.nodup_map_iff_inj_on (nd.filter _)]
      intro p hp p' hp' e
      exact hinj i p p' (mem_boxPos.mp (List.mem_filter.mp hp).1) (mem_boxPos.mp (List.mem_filter.mp hp').1) e
    · intro q
      simp only [List.mem_map, List.mem_filter, mem_boxPos, beq_iff_eq, MarkedCell]
      constructor
      · rintro ⟨p, ⟨hp, hc⟩, rfl⟩
        obtain ⟨g1, g2⟩ := (hins i (ins i p) (by omega) (by omega)).mpr ⟨p, hp, rfl⟩
        rw [hoff _ _ hp] at hc
        exact ⟨⟨g1, hc⟩, g2⟩
      · rintro ⟨⟨g1, hc⟩, g2⟩
        obtain ⟨p, hp, rfl⟩ := (hins i q (by omega) (by omega)).mp ⟨g1, g2⟩
        refine ⟨p, ⟨hp, ?_⟩, rfl⟩
        rw [hoff _ _ hp]
        exact hc
    · rw [List.length_map]
      exact h2

theorem inGrid1 {a : Int} {q : List Int} : InGrid [a] q ↔ ∃ x, q = [x] ∧ 0 ≤ x ∧ x < a := by
  constructor
  · intro h
    match q, h with
    | [x], .cons h .nil => exact ⟨x, rfl, h⟩
  · rintro ⟨x, rfl, h⟩
    exact .cons h .nil

theorem inGrid2 {a b : Int} {q : List Int} : InGrid [a, b] q ↔ ∃ x y, q = [x, y] ∧ (0 ≤ x ∧ x < a) ∧ (0 ≤ y ∧ y < b) := by
  constructor
  · intro h
    match q, h with
    | [x, y], .cons h (.cons h' .nil) => exact ⟨x, y, rfl, h, h'⟩
  · rintro ⟨x, y, rfl, h, h'⟩
    exact .cons h (.cons h' .nil)

theorem inGrid3 {a b c : Int} {q : List Int} : InGrid [a, b, c] q ↔ ∃ x y z, q = [x, y, z] ∧ (0 ≤ x ∧ x < a) ∧ (0 ≤ y ∧ y < b) ∧ (0 ≤ z ∧ z < c) := by
  constructor
  · intro h
    match q, h with
    | [x, y, z], .cons h (.cons h' (.cons h'' .nil)) => exact ⟨x, y, z, rfl, h, h', h''⟩
  · rintro ⟨x, y, z, rfl, h, h', h''⟩
    exact .cons h (.cons h' (.cons h'' .nil))

/-- **C46** `ComputeSignaturePerAxisOf`: the value number `i` on an axis is the number of marked cells with index `i` on this axis. -/
theorem C46_signature {st : List Int} {crit : List Bool} (h1 : 1 ≤ st.length) (h3 : st.length ≤ 3) (hst : ∀ n ∈ st, 0 ≤ n)
    (hlen : (crit.length : Int) = st.prod) :
    ∃ r, signaturePerAxis st crit = .ok r ∧ r.length = st.length ∧ ∀ (a : Nat) s n, r[a]? = some s → st[a]? = some n →
      (s.length : Int) = n ∧ ∀ (i : Nat) x, s[i]? = some x →
        ∃ l : List (List Int), l.Nodup ∧ (∀ q, q ∈ l ↔ MarkedCell st crit q ∧ q[a]? = some (i : Int)) ∧ x = l.length := by
  match st, h1, h3 with
  | [nx], _, _ =>
    have hx := hst nx (by simp)
    obtain ⟨r, hr, hl, h⟩ := sigAxis_spec (st := [nx]) (crit := crit) (a := 0) (n := nx) (off := fun i _ => i) (dims := []) (ins := fun i _ => [i]) hlen hx
      (by simp) (by intro i p _; simp [lin]) (by intro i p p' hp hp' _; cases hp; cases hp'; rfl) (by
        intro i q h0 h1
        constructor
        · rintro ⟨hq, e⟩
          obtain ⟨x, rfl, hq⟩ := inGrid1.mp hq
          simp at e
          exact ⟨[], .nil, by simp [e]⟩
        · rintro ⟨p, hp, rfl⟩
          exact ⟨.cons ⟨h0, h1⟩ .nil, rfl⟩)
    refine ⟨[r], ?_, rfl, ?_⟩
    · simp only [signaturePerAxis]
      rw [hr, ok_bind]
    · intro a s n e1 e2
      match a with
      | 0 =>
        simp at e1 e2
        subst e1; subst e2
        exact ⟨hl, h⟩
      | a + 1 => simp at e1
  | [nx, ny], _, _ =>
    have hx := hst nx (by simp)
    have hy := hst ny (by simp)
    obtain ⟨rx, hrx, hlx, hx'⟩ := sigAxis_spec (st := [nx, ny]) (crit := crit) (a := 0) (n := nx) (off := fun i p => p.headD 0 * nx + i) (dims := [ny])
      (ins := fun i p => i :: p) hlen hx (by simpa using hy)
      (by intro i p hq; obtain ⟨x, rfl, hq⟩ := inGrid1.mp hq; simp [lin]; ring) (by intro i p p' _ _ e; simpa using e) (by
        intro i q h0 h1
        constructor
        · rintro ⟨hq, e⟩
          cases hq with
          | cons hq hq' =>
            simp at e
            exact ⟨_, hq', by rw [e]⟩
        · rintro ⟨p, hp, rfl⟩
          exact ⟨.cons ⟨h0, h1⟩ hp, rfl⟩)
    obtain ⟨ry, hry, hly, hy'⟩ := sigAxis_spec (st := [nx, ny]) (crit := crit) (a := 1) (n := ny) (off := fun j p => j * nx + p.headD 0) (dims := [nx])
      (ins := fun j p => p ++ [j]) hlen hy (by simpa using hx)
      (by intro i p hq; obtain ⟨x, rfl, hq⟩ := inGrid1.mp hq; simp [lin]; ring) (by intro i p p' _ _ e; simpa using e) (by
        intro i q h0 h1
        constructor
        · rintro ⟨hq, e⟩
          obtain ⟨x, y, rfl, hq, hq'⟩ := inGrid2.mp hq
          simp at e
          exact ⟨[_], .cons hq .nil, by rw [← e]; rfl⟩
        · rintro ⟨p, hp, rfl⟩
          obtain ⟨x, rfl, hp2⟩ := inGrid1.mp hp
          exact ⟨.cons hp2 (.cons ⟨h0, h1⟩ .nil), rfl⟩)
    refine ⟨[rx, ry], ?_, rfl, ?_⟩
    · simp only [signaturePerAxis]
      rw [hrx, ok_bind, hry, ok_bind]
    · intro a s n e1 e2
      match a with
      | 0 =>
        simp at e1 e2
        subst e1; subst e2
        exact ⟨hlx, hx'⟩
      | 1 =>
        simp at e1 e2
        subst e1; subst e2
        exact ⟨hly, hy'⟩
      | a + 2 => simp at e1
  | [nx, ny, nz], _, _ =>
    have hx := hst nx (by simp)
    have hy := hst ny (by simp)
    have hz := hst nz (by simp)
    obtain ⟨rx, hrx, hlx, hx'⟩ := sigAxis_spec (st := [nx, ny, nz]) (crit := crit) (a := 0) (n := nx)
      (off := sigOffX nx ny) (dims := [ny, nz])
      (ins := fun i p => i :: p) hlen hx (by simp [hy, hz])
      (by intro i p hq; obtain ⟨x, y, rfl, hq⟩ := inGrid2.mp hq; simp [lin, sigOffX, sigOffY, sigOffZ]; ring) (by intro i p p' _ _ e; simpa using e) (by
        intro i q h0 h1
        constructor
        · rintro ⟨hq, e⟩
          cases hq with
          | cons hq hq' =>
            simp at e
            exact ⟨_, hq', by rw [e]⟩
        · rintro ⟨p, hp, rfl⟩
          exact ⟨.cons ⟨h0, h1⟩ hp, rfl⟩)
    obtain ⟨ry, hry, hly, hy'⟩ := sigAxis_spec (st := [nx, ny, nz]) (crit := crit) (a := 1) (n := ny)
      (off := sigOffY nx ny) (dims := [nx, nz])
      (ins := fun j p => match p with | [i, k] => [i, j, k] | _ => []) hlen hy (by simp [hx, hz])
      (by intro i p hq; obtain ⟨x, y, rfl, hq⟩ := inGrid2.mp hq; simp [lin, sigOffX, sigOffY, sigOffZ]; ring)
      (by intro i p p' hp hp' e; obtain ⟨x, y, rfl, hp⟩ := inGrid2.mp hp; obtain ⟨x', y', rfl, hp'⟩ := inGrid2.mp hp'; simpa using e) (by
        intro i q h0 h1
        constructor
        · rintro ⟨hq, e⟩
          obtain ⟨x, y, z, rfl, hq, hq', hq''⟩ := inGrid3.mp hq
          simp at e
          exact ⟨[_, _], .cons hq (.cons hq'' .nil), by rw [← e]⟩
        · rintro ⟨p, hp, rfl⟩
          obtain ⟨x, y, rfl, hp2, hp'⟩ := inGrid2.mp hp
          exact ⟨.cons hp2 (.cons ⟨h0, h1⟩ (.cons hp' .nil)), rfl⟩)
    obtain ⟨rz, hrz, hlz, hz'⟩ := sigAxis_spec (st := [nx, ny, nz]) (crit := crit) (a := 2) (n := nz)
      (off := sigOffZ nx ny) (dims := [nx, ny])
      (ins := fun k p => p ++ [k]) hlen hz (by simp [hx, hy])
      (by intro i p hq; obtain ⟨x, y, rfl, hq⟩ := inGrid2.mp hq; simp [lin, sigOffX, sigOffY, sigOffZ]; ring)
      (by intro i p p' _ _ e; simpa using e) (by
        intro i q h0 h1
        constructor
        · rintro ⟨hq, e⟩
          obtain ⟨x, y, z, rfl, hq, hq', hq''⟩ := inGrid3.mp hq
          simp at e
          exact ⟨[_, _], .cons hq (.cons hq' .nil), by rw [← e]; rfl⟩
        · rintro ⟨p, hp, rfl⟩
          obtain ⟨x, y, rfl, hp2, hp'⟩ := inGrid2.mp hp
          exact ⟨.cons hp2 (.cons hp' (.cons ⟨h0, h1⟩ .nil)), rfl⟩)
    refine ⟨[rx, ry, rz], ?_, rfl, ?_⟩
    · simp only [signaturePerAxis]
      rw [hrx, ok_bind, hry, ok_bind, hrz, ok_bind]
    · intro a s n e1 e2
      match a with
      | 0 =>
        simp at e1 e2
        subst e1; subst e2
        exact ⟨hlx, hx'⟩
      | 1 =>
        simp at e1 e2
        subst e1; subst e2
        exact ⟨hly, hy'⟩
      | 2 =>
        simp at e1 e2
        subst e1; subst e2
        exact ⟨hlz, hz'⟩
      | a + 3 => simp at e1
  | [], h1, _ => simp at h1
  | _ :: _ :: _ :: _ :: _, _, h3 => simp at h3

example : signaturePerAxis [2, 3] [true, false, true, true, false, true] = .ok [[2, 2], [1, 2, 1]] := rfl

end MC
