import Verif.CellSort
import Verif.PartDefProps
import Verif.IndexProps
import Verif.ScanProps

/-!
# C73: profiles of cells, type by type
-/

namespace MC
section

/-! ## Specification -/

/-- the cells of type `t` of the profile -/
def partOf (ts pfl : List Int) (t : Int) : List Int := pfl.filter fun v => decide (ts[v.toNat]? = some t)

/-- the same ones, numbered from the first cell of this type -/
def localOf (ts pfl : List Int) (t : Int) : List Int := (partOf ts pfl t).map fun v => v - (ts.idxOf t : Int)

/-- all the cells of type `t`, in order -/
def isWhole (ts pfl : List Int) (t : Int) : Bool := decide (localOf ts pfl t = (List.range (ts.count t)).map fun k : Nat => (k : Int))

/-- the layout of `code`: three numbers per type -/
def codeOf (E : List (Int × Int × Int)) : List Int := E.flatMap fun e => [e.1, e.2.1, e.2.2]

/-! ## Blocks -/

theorem SortedByType.block {ts T1 T2 : List Int} {t : Int} (h : SortedByType ts (T1 ++ t :: T2)) :
    ∃ A B, ts = A ++ (List.replicate (ts.count t) t ++ B) ∧ A.length = ts.idxOf t ∧ t ∉ A ∧ t ∉ B ∧ (∀ u ∈ A, u ∈ T1) ∧ (∀ u ∈ B, u ∈ T2) ∧
      (T2 = [] → B = []) := by
  obtain ⟨h1, h2, h3⟩ := h
  have hc : 0 < ts.count t := List.count_pos_iff.mpr (h2 t (by simp))
  rw [List.nodup_append, List.nodup_cons] at h1
  refine ⟨T1.flatMap fun u => List.replicate (ts.count u) u, T2.flatMap fun u => List.replicate (ts.count u) u, ?_, ?_, ?_, ?_, ?_, ?_, ?_⟩
  · conv_lhs => rw [h3]
    rw [List.flatMap_append, List.flatMap_cons]
  · have hA : t ∉ T1.flatMap fun u => List.replicate (ts.count u) u := by
      intro hm
      obtain ⟨u, hu, hm⟩ := List.mem_flatMap.mp hm
      exact h1.2.2 u hu t List.mem_cons_self (List.mem_replicate.mp hm).2.symm
    conv_rhs => rw [h3, List.flatMap_append, List.flatMap_cons]
    obtain ⟨n, hn⟩ : ∃ n, ts.count t = n + 1 := ⟨ts.count t - 1, by omega⟩
    rw [List.idxOf_append_of_notMem hA, hn, List.replicate_succ, List.cons_append, List.idxOf_cons_self]
    rfl
  · intro hm
    obtain ⟨u, hu, hm⟩ := List.mem_flatMap.mp hm
    exact h1.2.2 u hu t List.mem_cons_self (List.mem_replicate.mp hm).2.symm
  · intro hm
    obtain ⟨u, hu, hm⟩ := List.mem_flatMap.mp hm
    exact h1.2.1.1 ((List.mem_replicate.mp hm).2 ▸ hu)
  · intro u hu
    obtain ⟨v, hv, hm⟩ := List.mem_flatMap.mp hu
    rw [(List.mem_replicate.mp hm).2]; exact hv
  · intro u hu
    obtain ⟨v, hv, hm⟩ := List.mem_flatMap.mp hu
    rw [(List.mem_replicate.mp hm).2]; exact hv
  · rintro rfl; rfl

/-- the cells of a type are the ones of its block -/
theorem SortedByType.get_iff {ts T : List Int} (h : SortedByType ts T) {t : Int} (ht : t ∈ T) (i : Nat) :
    ts[i]? = some t ↔ ts.idxOf t ≤ i ∧ i < ts.idxOf t + ts.count t := by
  obtain ⟨T1, T2, rfl⟩ := List.append_of_mem ht
  obtain ⟨A, B, e, hl, hA, hB, -, -, -⟩ := h.block
  rw [← hl]
  rcases Nat.lt_or_ge i A.length with h1 | h1
  · rw [e, List.getElem?_append_left h1, List.getElem?_eq_getElem h1]
    constructor
    · intro he
      exact absurd (by rw [← Option.some.inj he]; exact List.getElem_mem _) hA
    · omega
  · have e2 : ts[i]? = (List.replicate (ts.count t) t ++ B)[i - A.length]? := by
      conv_lhs => rw [e]
      rw [List.getElem?_append_right h1]
    rw [e2]
    rcases Nat.lt_or_ge (i - A.length) (ts.count t) with h2 | h2
    · rw [List.getElem?_append_left (by simpa using h2)]
      simp [h2]; omega
    · rw [List.getElem?_append_right (by simpa using h2)]
      constructor
      · intro he
        exact absurd (List.mem_of_getElem? he) hB
      · omega

theorem SortedByType.next_block {ts T1 T2 : List Int} {t u : Int} (h : SortedByType ts (T1 ++ t :: T2)) (hu : u ∈ T2) :
    ts.idxOf t + ts.count t ≤ ts.idxOf u := by
  have hn := h.1
  rw [List.nodup_append, List.nodup_cons] at hn
  have hmu : u ∈ ts := h.2.1 u (by simp [hu])
  have hut : u ≠ t := fun e => hn.2.1.1 (e ▸ hu)
  obtain ⟨A, B, e, hl, hA, hB, hA', hB', -⟩ := h.block
  have huA : u ∉ A := fun hm => hn.2.2 u (hA' u hm) u (List.mem_cons_of_mem _ hu) rfl
  have : ts.idxOf u = A.length + (ts.count t + B.idxOf u) := by
    conv_lhs => rw [e]
    rw [List.idxOf_append_of_notMem huA, List.idxOf_append_of_notMem (fun hm => hut (List.mem_replicate.mp hm).2), List.length_replicate]
  omega

theorem SortedByType.block_le {ts T : List Int} (h : SortedByType ts T) {t : Int} (ht : t ∈ T) : ts.idxOf t + ts.count t ≤ ts.length := by
  obtain ⟨T1, T2, rfl⟩ := List.append_of_mem ht
  obtain ⟨A, B, e, hl, -⟩ := h.block
  have := congrArg List.length e
  simp at this
  omega

/-- the bounds of the blocks -/
def boundsOf (ts T : List Int) : List Int := T.map (fun t => (ts.idxOf t : Int)) ++ [(ts.length : Int)]

theorem typeRanges_ok {conn connI ts : List Int} (hts : HasTypes conn connI ts) :
    (∀ T, SortedByType ts T → typeRanges conn connI = .ok (T, boundsOf ts T)) ∧
    (¬ Contiguous ts → typeRanges conn connI = .error .exn) := by
  have main : ∀ (G : List (Int × Nat)) (pos : Nat) (done vals : List Int), done.Nodup →
      wp (foldRuns (fun (s : List Int × List Int) t _ b =>
        if t ∈ s.1 then throwX else .ok ((s.1 ++ [t], s.2 ++ [(b : Int)]), false)) G pos (done, vals))
      (fun s => (done ++ G.map Prod.fst).Nodup ∧ s.1 = done ++ G.map Prod.fst ∧
        s.2 = vals ++ (List.range G.length).map fun k => ((pos + ((G.take (k + 1)).map Prod.snd).sum : Nat) : Int))
      (¬ (done ++ G.map Prod.fst).Nodup) := by
    intro G
    induction G with
    | nil => intro pos done vals hd; rw [foldRuns]; exact ⟨by simpa using hd, by simp, by simp⟩
    | cons g G ih =>
      intro pos done vals hd
      obtain ⟨t, n⟩ := g
      rw [foldRuns]
      simp only
      by_cases ht : t ∈ done
      · rw [if_pos ht]
        change ¬ _
        intro hn
        rw [List.map_cons, List.nodup_append] at hn
        exact hn.2.2 t ht t List.mem_cons_self rfl
      · rw [if_neg ht, ok_bind, if_neg (by simp)]
        have hd' : (done ++ [t]).Nodup := by
          rw [List.nodup_append]
          exact ⟨hd, by simp, fun x hx y hy e => ht (by rw [← List.mem_singleton.mp hy, ← e]; exact hx)⟩
        have := ih (pos + n) (done ++ [t]) (vals ++ [((pos + n : Nat) : Int)]) hd'
        rw [List.append_assoc, List.singleton_append] at this
        refine wp_mono this ?_ id
        rintro s ⟨h1, h2, h3⟩
        refine ⟨h1, h2, ?_⟩
        rw [h3, List.length_cons, List.range_succ_eq_map, List.map_cons, List.map_map, List.append_assoc, List.singleton_append]
        congr 2
        apply List.map_congr_left
        intro k _
        simp [Nat.add_assoc]
  unfold typeRanges
  rw [forRuns_eq hts]
  have main := main (runs ts) 0 [] [0] (by simp)
  rw [List.nil_append] at main
  constructor
  · intro T hT
    obtain ⟨s, e1, -, e2, e3⟩ := wp_exists (wp_mono main (fun _ h => h) fun hf => hf ((sortedByType_iff ts).mp ⟨T, hT⟩))
    rw [e1]
    congr 1
    have : s = (s.1, s.2) := rfl
    rw [this, e2, e3, hT.types_eq]
    congr 1
    unfold boundsOf
    have hR := hT.runs_eq
    have hsum : ∀ k, k ≤ T.length → (((runs ts).take k).map Prod.snd).sum = if hk : k < T.length then ts.idxOf T[k] else ts.length := by
      intro k hk
      rw [hR, ← List.map_take, List.map_map]
      have hlen : ∀ T1 : List Int, (T1.map (Prod.snd ∘ fun t => (t, ts.count t))).sum = (T1.flatMap fun t => List.replicate (ts.count t) t).length := by
        intro T1; rw [List.length_flatMap]; simp [Function.comp_def]
      rw [hlen]
      split
      · rename_i hk'
        have hT' := hT
        rw [← List.take_append_drop k T, List.drop_eq_getElem_cons hk'] at hT'
        have h3 := hT'.2.2
        rw [List.flatMap_append] at h3
        have hc : 0 < ts.count T[k] := List.count_pos_iff.mpr (hT.2.1 _ (List.getElem_mem _))
        have hA : T[k] ∉ (T.take k).flatMap fun u => List.replicate (ts.count u) u := by
          intro hm
          obtain ⟨u, hu, hm⟩ := List.mem_flatMap.mp hm
          have hn := hT'.1
          rw [List.nodup_append] at hn
          exact hn.2.2 u hu _ List.mem_cons_self (List.mem_replicate.mp hm).2.symm
        obtain ⟨n, hn⟩ : ∃ n, ts.count T[k] = n + 1 := ⟨ts.count T[k] - 1, by omega⟩
        conv_rhs => rw [h3, List.idxOf_append_of_notMem hA, List.flatMap_cons, hn, List.replicate_succ, List.cons_append, List.idxOf_cons_self]
        rfl
      · have : T.take k = T := List.take_of_length_le (by omega)
        rw [this, ← hT.2.2]
    have hRl : (runs ts).length = T.length := by rw [hR, List.length_map]
    rw [hRl]
    cases hTl : T.length with
    | zero =>
      have : T = [] := List.length_eq_zero_iff.mp hTl
      subst this
      have := hT.2.2
      simp at this
      subst this
      rfl
    | succ n =>
      have h0 : ts.idxOf (T[0]'(by omega)) = 0 := by
        have := hsum 0 (by omega)
        rw [dif_pos (by omega)] at this
        simpa using this.symm
      apply List.ext_getElem?
      intro k
      rcases k with _ | k
      · rw [List.singleton_append, List.getElem?_cons_zero, List.getElem?_append_left (by simp; omega), List.getElem?_map,
          List.getElem?_eq_getElem (by omega)]
        simp [h0]
      · rw [List.singleton_append, List.getElem?_cons_succ, List.getElem?_map]
        by_cases hk : k < n + 1
        · rw [List.getElem?_eq_getElem (by simpa using hk)]
          simp only [List.getElem_range, Option.map_some, Nat.zero_add]
          rw [hsum (k + 1) (by omega)]
          split
          · rename_i hk'
            rw [List.getElem?_append_left (by simpa using hk'), List.getElem?_map, List.getElem?_eq_getElem hk']
            rfl
          · rw [List.getElem?_append_right (by simp; omega)]
            have : k + 1 - (T.map fun t => (ts.idxOf t : Int)).length = 0 := by simp; omega
            rw [this]; rfl
        · rw [List.getElem?_eq_none (by simp; omega), List.getElem?_eq_none (by simp; omega)]; rfl
  · intro hc
    have := wp_throws (wp_mono main (fun s hs => hc ((sortedByType_iff_contiguous ts).mp ((sortedByType_iff ts).mpr hs.1))) fun _ => trivial)
    rw [this]

theorem bounds_get {ts T : List Int} {j : Nat} (hj : j < T.length) : (boundsOf ts T)[j]? = some (ts.idxOf T[j] : Int) := by
  unfold boundsOf
  rw [List.getElem?_append_left (by simpa using hj), List.getElem?_map, List.getElem?_eq_getElem hj]; rfl

theorem bounds_last (ts T : List Int) : (boundsOf ts T)[T.length]? = some (ts.length : Int) := by
  unfold boundsOf
  rw [List.getElem?_append_right (by simp)]; simp

theorem bounds_next {ts T : List Int} (h : SortedByType ts T) {j : Nat} (hj : j < T.length) :
    (boundsOf ts T)[j + 1]? = some ((ts.idxOf T[j] + ts.count T[j] : Nat) : Int) := by
  have hT' := h
  rw [← List.take_append_drop j T, List.drop_eq_getElem_cons hj] at hT'
  obtain ⟨A, B, e, hl, hA, hB, -, hB', hB''⟩ := hT'.block
  by_cases hj' : j + 1 < T.length
  · rw [bounds_get hj']
    congr 1
    have h1 := hT'.next_block (u := T[j + 1]) (by rw [List.drop_eq_getElem_cons hj']; exact List.mem_cons_self)
    -- no cell between the two blocks
    have hmem := h.2.1 T[j + 1] (List.getElem_mem _)
    obtain ⟨A2, B2, e2, hl2, -, -, hA2, -, -⟩ := (show SortedByType ts ((T.take (j + 1)) ++ T[j + 1] :: T.drop (j + 2)) by
      rw [← List.drop_eq_getElem_cons hj', List.take_append_drop]; exact h).block
    by_contra hne
    have hlt : ts.idxOf T[j] + ts.count T[j] < ts.idxOf T[j + 1] := by omega
    have hin : ts.idxOf T[j] + ts.count T[j] < ts.length := by have := List.idxOf_lt_length_iff.mpr hmem; omega
    -- the cell after the block of T[j] has a type of a later block than T[j] and of an earlier one than T[j+1]
    have hx1 : ts[ts.idxOf T[j] + ts.count T[j]] ∈ A2 := by
      have hgen : ∀ K, K < A2.length → ts[K]? = A2[K]? := by
        intro K hK
        conv_lhs => rw [e2]
        rw [List.getElem?_append_left hK]
      have := hgen (ts.idxOf T[j] + ts.count T[j]) (by omega)
      rw [List.getElem?_eq_getElem hin] at this
      exact List.mem_of_getElem? this.symm
    have hx2 : ts[ts.idxOf T[j] + ts.count T[j]] ∈ B := by
      have hgen : ∀ K, K = A.length + ts.count T[j] → ts[K]? = B[0]? := by
        intro K hK
        conv_lhs => rw [e]
        rw [List.getElem?_append_right (by omega), List.getElem?_append_right (by simp; omega)]
        congr 1
        simp; omega
      have := hgen (ts.idxOf T[j] + ts.count T[j]) (by omega)
      rw [List.getElem?_eq_getElem hin] at this
      exact List.mem_of_getElem? this.symm
    have hn := h.1
    rw [← List.take_append_drop (j + 1) T, List.nodup_append] at hn
    exact hn.2.2 _ (hA2 _ hx1) _ (hB' _ hx2) rfl
  · have : j + 1 = T.length := by omega
    rw [this, bounds_last]
    have hB0 := hB'' (List.drop_eq_nil_of_le (by omega))
    have := congrArg List.length e
    rw [hB0] at this
    simp at this
    congr 2
    omega

/-- the cast of a cell is the block of its type -/
theorem isCast_iff {ts T : List Int} (h : SortedByType ts T) (v : Int) (j : Nat) :
    IsCast (boundsOf ts T) v j ↔ 0 ≤ v ∧ ∃ hj : j < T.length, ts[v.toNat]? = some T[j] := by
  have hbl : (boundsOf ts T).length = T.length + 1 := by simp [boundsOf]
  constructor
  · rintro ⟨h1, h2, h3⟩
    have hj : j < T.length := by omega
    have a := h2 _ (bounds_get hj)
    have b := h3 _ _ (Nat.lt_succ_self j) (bounds_next h hj)
    refine ⟨by omega, hj, ?_⟩
    rw [h.get_iff (List.getElem_mem _)]
    omega
  · rintro ⟨h0, hj, hg⟩
    rw [h.get_iff (List.getElem_mem _)] at hg
    refine ⟨by omega, fun a ha => ?_, fun k a hk ha => ?_⟩
    · rw [bounds_get hj, Option.some.injEq] at ha; omega
    · by_cases hk' : k < T.length
      · rw [bounds_get hk', Option.some.injEq] at ha
        have hT' := h
        rw [← List.take_append_drop j T, List.drop_eq_getElem_cons hj] at hT'
        have := hT'.next_block (u := T[k]) (by
          rw [List.mem_iff_getElem?]
          exact ⟨k - (j + 1), by rw [List.getElem?_drop, List.getElem?_eq_getElem (by omega)]; congr 2; omega⟩)
        omega
      · have hkl : k = T.length := by have := (List.getElem?_eq_some_iff.mp ha).1; omega
        rw [hkl, bounds_last, Option.some.injEq] at ha
        have := h.block_le (List.getElem_mem hj)
        omega


/-! ## Splitting a profile -/

theorem places_eq {l : List Int} {p : Int → Bool} {P : List Int} (h1 : P.Pairwise (· < ·))
    (h2 : ∀ x : Int, x ∈ P ↔ ∃ i : Nat, x = (i : Int) ∧ ∃ v, l[i]? = some v ∧ p v = true) :
    P.map (fun x => l.getD x.toNat 0) = l.filter p := by
  have hP : P = ((List.range l.length).filter fun i => p (l.getD i 0)).map fun i : Nat => (i : Int) := by
    refine StrictSorted.ext h1 ?_ fun x => ?_
    · have h3 : ((List.range l.length).filter fun i => p (l.getD i 0)).Pairwise (· < ·) := List.pairwise_lt_range.filter _
      rw [StrictSorted, List.pairwise_map]
      exact h3.imp fun h => by exact_mod_cast h
    · rw [h2, List.mem_map]
      constructor
      · rintro ⟨i, rfl, v, hv, hp⟩
        refine ⟨i, List.mem_filter.mpr ⟨List.mem_range.mpr (List.getElem?_eq_some_iff.mp hv).1, ?_⟩, rfl⟩
        rw [List.getD_eq_getElem?_getD, hv]; exact hp
      · rintro ⟨i, hi, rfl⟩
        obtain ⟨h3, h4⟩ := List.mem_filter.mp hi
        rw [List.mem_range] at h3
        refine ⟨i, rfl, l[i], List.getElem?_eq_getElem h3, ?_⟩
        rw [List.getD_eq_getElem?_getD, List.getElem?_eq_getElem h3] at h4
        exact h4
  rw [hP, List.map_map]
  have key : ∀ l : List Int, ((List.range l.length).filter fun i => p (l.getD i 0)).map (fun i => l.getD i 0) = l.filter p := by
    intro l
    induction l using List.reverseRecOn with
    | nil => rfl
    | append_singleton l a ih =>
      rw [List.length_append, List.length_singleton, List.range_succ, List.filter_append, List.map_append, List.filter_append, ← ih]
      have hlt : ∀ i ∈ List.range l.length, (l ++ [a]).getD i 0 = l.getD i 0 := by
        intro i hi
        rw [List.getD_eq_getElem?_getD, List.getElem?_append_left (List.mem_range.mp hi), ← List.getD_eq_getElem?_getD]
      have hla : (l ++ [a]).getD l.length 0 = a := by
        rw [List.getD_eq_getElem?_getD, List.getElem?_append_right (Nat.le_refl _)]; simp
      congr 1
      · rw [List.filter_congr fun i hi => by rw [hlt i hi]]
        exact List.map_congr_left fun i hi => hlt i (List.mem_of_mem_filter hi)
      · by_cases hp : p a = true
        · simp [hp]
        · simp [hp]
  exact key l

/-- The types of a profile and, for each of them, the three numbers of `code`. -/
def CodeRel (ts pfl : List Int) (smart : Bool) (idsPerType : List (List Int)) (t : Int) (e : Int × Int × Int) : Prop :=
  e.1 = t ∧ e.2.1 = ((partOf ts pfl t).length : Int) ∧
  if smart = true ∧ isWhole ts pfl t = true then e.2.2 = -1 else ∃ p : Nat, e.2.2 = (p : Int) ∧ idsPerType[p]? = some (localOf ts pfl t)

/-- the cells of type `t` of the profile are at these places -/
def PlacesRel (ts pfl : List Int) (t : Int) (l : List Int) : Prop :=
  l.Pairwise (· < ·) ∧ ∀ x : Int, x ∈ l ↔ ∃ i : Nat, x = (i : Int) ∧ ∃ v, pfl[i]? = some v ∧ ts[v.toNat]? = some t

theorem splitProfileStep_ok {ts T pfl cast rank : List Int} (h : SortedByType ts T) (hcl : cast.length = pfl.length)
    (hrl : rank.length = pfl.length)
    (hc : ∀ (i : Nat) (v : Int), pfl[i]? = some v → ∃ (j : Nat) (p : Int), cast[i]? = some (j : Int) ∧ rank[i]? = some p ∧
      IsCast (boundsOf ts T) v j ∧ (boundsOf ts T)[j]? = some (v - p)) (smart : Bool) (s : ProfileSplit) {j : Nat} (hj : j < T.length) :
    ∃ places, PlacesRel ts pfl T[j] places ∧ splitProfileStep T (boundsOf ts T) cast rank smart s j = .ok
      (if smart = true ∧ isWhole ts pfl T[j] = true then
        ⟨s.code ++ [T[j], ((partOf ts pfl T[j]).length : Int), -1], s.idsInPflPerType ++ [places], s.idsPerType⟩
      else ⟨s.code ++ [T[j], ((partOf ts pfl T[j]).length : Int), (s.idsPerType.length : Int)], s.idsInPflPerType ++ [places],
        s.idsPerType ++ [localOf ts pfl T[j]]⟩) := by
  obtain ⟨p1, p2⟩ := C36_ids_equal cast (j : Int)
  have hcast : ∀ (i : Nat) (v : Int), pfl[i]? = some v → (cast[i]? = some (j : Int) ↔ ts[v.toNat]? = some T[j]) := by
    intro i v hv
    obtain ⟨j', p, a1, -, a3, -⟩ := hc i v hv
    rw [a1]
    obtain ⟨b1, b2, b3⟩ := (isCast_iff h v j').mp a3
    rw [b3]
    constructor
    · intro e
      have : j' = j := by simpa using e
      subst this; rfl
    · intro e
      have : j' = j := (List.Nodup.getElem_inj_iff h.1).mp (by simpa using e)
      rw [this]
  have hplaces : PlacesRel ts pfl T[j] (findIdsEqual cast j) := by
    refine ⟨p1, fun x => (p2 x).trans ?_⟩
    constructor
    · rintro ⟨i, rfl, hi⟩
      have hi' : i < pfl.length := by have := (List.getElem?_eq_some_iff.mp hi).1; omega
      exact ⟨i, rfl, pfl[i], List.getElem?_eq_getElem hi', (hcast i _ (List.getElem?_eq_getElem hi')).mp hi⟩
    · rintro ⟨i, rfl, v, hv, ht⟩
      exact ⟨i, rfl, (hcast i v hv).mpr ht⟩
  set P := findIdsEqual cast (j : Int) with hP
  have hmapP : P.map (fun x => pfl.getD x.toNat 0) = partOf ts pfl T[j] :=
    places_eq hplaces.1 fun x => by rw [hplaces.2]; simp
  have hPlen : P.length = (partOf ts pfl T[j]).length := by rw [← hmapP, List.length_map]
  have hPin : AllIn rank.length P := by
    intro x hx
    obtain ⟨i, rfl, v, hv, -⟩ := (hplaces.2 x).mp hx
    have := (List.getElem?_eq_some_iff.mp hv).1
    omega
  obtain ⟨r, s1, s2⟩ := C08_select ⟨rank.length, 1, rank, by simp⟩ P hPin
  obtain ⟨c, s3, s4⟩ := gather1 hPin s2
  have hcv : c = localOf ts pfl T[j] := by
    unfold localOf
    rw [← hmapP, List.map_map]
    rw [← List.forall₂_eq_eq_eq, List.forall₂_map_right_iff]
    have s5 := List.Forall₂.flip s4
    refine List.forall₂_iff_get.mpr ⟨by have := s4.length_eq; omega, fun k hk1 hk2 => ?_⟩
    have s6 := (List.forall₂_iff_get.mp s4).2 k hk2 hk1
    simp only [List.get_eq_getElem] at s6 ⊢
    obtain ⟨i, hi, v, hv, ht⟩ := (hplaces.2 _).mp (List.getElem_mem hk2)
    obtain ⟨j', p, a1, a2, a3, a4⟩ := hc i v hv
    have hj' : j' = j := by
      have := (hcast i v hv).mpr ht
      rw [a1] at this
      simpa using this
    subst hj'
    rw [bounds_get hj, Option.some.injEq] at a4
    have hiN : (P[k] : Int).toNat = i := by omega
    rw [hiN] at s6
    have hck : p = c[k] := by rw [a2] at s6; simpa using s6.2
    simp only [Function.comp]
    rw [hiN, List.getD_eq_getElem?_getD, hv, Option.getD_some]
    omega
  refine ⟨P, hplaces, ?_⟩
  unfold splitProfileStep
  rw [rd_natCast hj, ok_bind, ← hP, s1, ok_bind, s3, ok_bind,
    rd_of_getElem? (by omega) (by rw [show ((j : Int) + 1).toNat = j + 1 by omega]; exact bounds_next h hj), ok_bind,
    rd_of_getElem? (by omega) (by rw [Int.toNat_natCast]; exact bounds_get hj), ok_bind, hcv, hPlen]
  have hsz : ((ts.idxOf T[j] + ts.count T[j] : Nat) : Int) - (ts.idxOf T[j] : Int) = ((ts.count T[j] : Nat) : Int) := by push_cast; omega
  rw [hsz]
  have hiota : isIota (localOf ts pfl T[j]) (ts.count T[j] : Nat) = isWhole ts pfl T[j] := by
    rw [Bool.eq_iff_iff, C30_is_iota]
    simp [isWhole]
  rw [hiota]
  by_cases hw : smart = true ∧ isWhole ts pfl T[j] = true
  · rw [if_pos hw, if_neg (by simp [hw])]
  · rw [if_neg hw, if_pos]
    cases smart <;> simp_all

/-- **C73.** `splitProfilePerType(profile)` of a mesh sorted by type: `code` has three numbers per type of the profile, in the order of
the types in the mesh: the type, its number of cells in the profile and the place in `idsPerType` of the list of these cells, numbered
from the first cell of the type, or -1 when the list is all the cells of the type in order (and `smartPflKiller` is set);
`idsInPflPerType` gives the places in the profile of the cells of each type. -/
theorem C73_split {conn connI : List Int} {cells : List Cell} (hm : IsMesh conn connI cells) {T : List Int}
    (hT : SortedByType (cells.map Cell.type) T) (hne : cells ≠ []) {pfl : List Int} (hin : AllIn cells.length pfl) (smart : Bool) :
    ∃ (E : List (Int × Int × Int)) (places idsPerType : List (List Int)),
      splitProfilePerType conn connI pfl smart = .ok ⟨codeOf E, places, idsPerType⟩ ∧
      List.Forall₂ (CodeRel (cells.map Cell.type) pfl smart idsPerType) (T.filter fun t => decide (partOf (cells.map Cell.type) pfl t ≠ [])) E ∧
      List.Forall₂ (PlacesRel (cells.map Cell.type) pfl) (T.filter fun t => decide (partOf (cells.map Cell.type) pfl t ≠ [])) places ∧
      idsPerType = ((T.filter fun t => decide (partOf (cells.map Cell.type) pfl t ≠ [])).filter fun t =>
        !(smart && isWhole (cells.map Cell.type) pfl t)).map (localOf (cells.map Cell.type) pfl) := by
  have hts := hm.hasTypes
  set ts := cells.map Cell.type with htsd
  have hlen : ts.length = cells.length := by simp [htsd]
  have hin' : AllIn ts.length pfl := by rw [hlen]; exact hin
  have hTne : T ≠ [] := by
    rintro rfl
    have := hT.2.2
    rw [htsd] at this
    simp at this
    exact hne this
  have hbl : (boundsOf ts T).length = T.length + 1 := by simp [boundsOf]
  have htype : ∀ v ∈ pfl, ∃ j : Nat, ∃ hj : j < T.length, ts[v.toNat]? = some T[j] := by
    intro v hv
    have h1 := hin' v hv
    have h2 : v.toNat < ts.length := by omega
    have h3 : ts[v.toNat] ∈ T := hT.mem_iff.mpr (List.getElem_mem h2)
    obtain ⟨j, hj, e⟩ := List.getElem_of_mem h3
    exact ⟨j, hj, by rw [List.getElem?_eq_getElem h2, e]⟩
  obtain ⟨cast, rank, present, c1, c2, c3, c4, c5, c6⟩ := (C31_split pfl (boundsOf ts T)).1
    (by have := List.length_pos_of_ne_nil hTne; omega) (fun v hv => by
      obtain ⟨j, hj, e⟩ := htype v hv
      exact ⟨j, (isCast_iff hT v j).mpr ⟨(hin' v hv).1, hj, e⟩⟩)
  -- the casts which are present
  set js := (List.range T.length).filter fun j => decide (partOf ts pfl (T.getD j 0) ≠ []) with hjs
  have hpres : present = js.map fun j : Nat => (j : Int) := by
    refine StrictSorted.ext c5 ?_ fun x => ?_
    · have h3 : js.Pairwise (· < ·) := List.pairwise_lt_range.filter _
      rw [StrictSorted, List.pairwise_map]
      exact h3.imp fun h => by exact_mod_cast h
    · rw [c6, List.mem_map]
      constructor
      · intro hx
        obtain ⟨i, hi⟩ := List.mem_iff_getElem?.mp hx
        have hi' : i < pfl.length := by have := (List.getElem?_eq_some_iff.mp hi).1; omega
        obtain ⟨j, p, a1, a2, a3, a4⟩ := c4 i _ (List.getElem?_eq_getElem hi')
        obtain ⟨b1, b2, b3⟩ := (isCast_iff hT _ j).mp a3
        rw [hi] at a1
        refine ⟨j, List.mem_filter.mpr ⟨List.mem_range.mpr b2, ?_⟩, by simpa using a1.symm⟩
        rw [List.getD_eq_getElem?_getD, List.getElem?_eq_getElem b2, Option.getD_some, decide_eq_true_eq]
        intro he
        have : pfl[i] ∈ partOf ts pfl T[j] := List.mem_filter.mpr ⟨List.getElem_mem _, by simpa using b3⟩
        rw [he] at this
        simp at this
      · rintro ⟨j, hj, rfl⟩
        obtain ⟨h1, h2⟩ := List.mem_filter.mp hj
        rw [List.mem_range] at h1
        rw [List.getD_eq_getElem?_getD, List.getElem?_eq_getElem h1, Option.getD_some, decide_eq_true_eq] at h2
        obtain ⟨v, hv⟩ := List.exists_mem_of_ne_nil _ h2
        obtain ⟨hv1, hv2⟩ := List.mem_filter.mp hv
        obtain ⟨i, hi⟩ := List.mem_iff_getElem?.mp hv1
        obtain ⟨j', p, a1, a2, a3, a4⟩ := c4 i v hi
        have hcj := (isCast_iff hT v j).mpr ⟨(hin' v hv1).1, h1, by simpa using hv2⟩
        have := a3.unique hcj
        subst this
        exact List.mem_of_getElem? a1
  have hU : (T.filter fun t => decide (partOf ts pfl t ≠ [])) = js.map fun j => T.getD j 0 := by
    have hTr : T = (List.range T.length).map fun j => T.getD j 0 := by
      apply List.ext_getElem?
      intro k
      rw [List.getElem?_map]
      by_cases hk : k < T.length
      · simp [hk]
      · rw [List.getElem?_eq_none (by omega), List.getElem?_eq_none (by simpa using hk)]; rfl
    conv_lhs => rw [hTr]
    rw [List.filter_map]; rfl
  rw [hU]
  -- the fold
  have key : ∀ (js2 : List Nat) (U1 : List Int) (s : ProfileSplit) (E1 : List (Int × Int × Int)),
      (∀ j ∈ js2, j < T.length) → s.code = codeOf E1 →
      List.Forall₂ (CodeRel ts pfl smart s.idsPerType) U1 E1 → List.Forall₂ (PlacesRel ts pfl) U1 s.idsInPflPerType →
      s.idsPerType = (U1.filter fun t => !(smart && isWhole ts pfl t)).map (localOf ts pfl) →
      ∃ (E : List (Int × Int × Int)) (places idsPerType : List (List Int)),
        (js2.map fun j : Nat => (j : Int)).foldlM (splitProfileStep T (boundsOf ts T) cast rank smart) s = .ok ⟨codeOf E, places, idsPerType⟩ ∧
        List.Forall₂ (CodeRel ts pfl smart idsPerType) (U1 ++ js2.map fun j => T.getD j 0) E ∧
        List.Forall₂ (PlacesRel ts pfl) (U1 ++ js2.map fun j => T.getD j 0) places ∧
        idsPerType = ((U1 ++ js2.map fun j => T.getD j 0).filter fun t => !(smart && isWhole ts pfl t)).map (localOf ts pfl) := by
    intro js2
    induction js2 with
    | nil =>
      intro U1 s E1 _ h1 h2 h3 h4
      refine ⟨E1, s.idsInPflPerType, s.idsPerType, ?_, by simpa using h2, by simpa using h3, by simpa using h4⟩
      rw [List.map_nil, List.foldlM_nil, ← h1]; rfl
    | cons j js2 ih =>
      intro U1 s E1 hall h1 h2 h3 h4
      have hj := hall j List.mem_cons_self
      obtain ⟨places, q1, q2⟩ := splitProfileStep_ok hT c2 c3 c4 smart s hj
      rw [List.map_cons, List.foldlM_cons, q2, ok_bind]
      have hget : T.getD j 0 = T[j] := by rw [List.getD_eq_getElem?_getD, List.getElem?_eq_getElem hj]; rfl
      rw [List.map_cons, hget]
      have happ : ∀ l : List Int, U1 ++ T[j] :: l = (U1 ++ [T[j]]) ++ l := by simp
      rw [happ]
      by_cases hw : smart = true ∧ isWhole ts pfl T[j] = true
      · rw [if_pos hw]
        refine ih (U1 ++ [T[j]]) _ (E1 ++ [(T[j], ((partOf ts pfl T[j]).length : Int), -1)]) (fun k hk => hall k (List.mem_cons_of_mem _ hk)) ?_ ?_ ?_ ?_
        · rw [h1]; simp [codeOf]
        · refine List.rel_append h2 (List.Forall₂.cons ⟨rfl, rfl, ?_⟩ List.Forall₂.nil)
          rw [if_pos hw]
        · exact List.rel_append h3 (List.Forall₂.cons q1 List.Forall₂.nil)
        · rw [List.filter_append, List.map_append, ← h4]
          simp [hw]
      · rw [if_neg hw]
        refine ih (U1 ++ [T[j]]) _ (E1 ++ [(T[j], ((partOf ts pfl T[j]).length : Int), (s.idsPerType.length : Int))])
          (fun k hk => hall k (List.mem_cons_of_mem _ hk)) ?_ ?_ ?_ ?_
        · rw [h1]; simp [codeOf]
        · refine List.rel_append (h2.imp ?_) (List.Forall₂.cons ⟨rfl, rfl, ?_⟩ List.Forall₂.nil)
          · rintro t e ⟨r1, r2, r3⟩
            refine ⟨r1, r2, ?_⟩
            split
            · rename_i hh; rw [if_pos hh] at r3; exact r3
            · rename_i hh
              rw [if_neg hh] at r3
              obtain ⟨p, r4, r5⟩ := r3
              exact ⟨p, r4, by rw [List.getElem?_append_left (List.getElem?_eq_some_iff.mp r5).1]; exact r5⟩
          · rw [if_neg hw]
            exact ⟨s.idsPerType.length, rfl, by simp⟩
        · exact List.rel_append h3 (List.Forall₂.cons q1 List.Forall₂.nil)
        · rw [List.filter_append, List.map_append, ← h4]
          have : (!(smart && isWhole ts pfl T[j])) = true := by
            cases smart <;> simp_all
          rw [List.filter_cons, if_pos this]; rfl
  obtain ⟨E, places, idsPerType, k1, k2, k3, k4⟩ := key js [] ⟨[], [], []⟩ []
    (fun j hj => List.mem_range.mp (List.mem_of_mem_filter hj)) rfl List.Forall₂.nil List.Forall₂.nil rfl
  rw [List.nil_append] at k2 k3 k4
  refine ⟨E, places, idsPerType, ?_, k2, k3, k4⟩
  unfold splitProfilePerType
  rw [(typeRanges_ok hts).1 T hT, ok_bind]
  simp only
  rw [c1, ok_bind]
  simp only
  rw [hpres, k1]

/-- **C73.** `splitProfilePerType` throws when the mesh is not sorted by type, and when the profile has a value which is not a cell. -/
theorem C73_split_throws {conn connI : List Int} {cells : List Cell} (hm : IsMesh conn connI cells) (pfl : List Int) (smart : Bool)
    (h : ¬ Contiguous (cells.map Cell.type) ∨ ¬ AllIn cells.length pfl) : splitProfilePerType conn connI pfl smart = .error .exn := by
  have hts := hm.hasTypes
  set ts := cells.map Cell.type with htsd
  have hlen : ts.length = cells.length := by simp [htsd]
  unfold splitProfilePerType
  by_cases hc : Contiguous ts
  · have hin : ¬ AllIn cells.length pfl := h.resolve_left (fun h' => h' hc)
    obtain ⟨T, hT⟩ := (sortedByType_iff_contiguous ts).mpr hc
    rw [(typeRanges_ok hts).1 T hT, ok_bind]
    simp only
    unfold AllIn at hin
    push Not at hin
    obtain ⟨v, hv, hv'⟩ := hin
    rw [(C31_split pfl (boundsOf ts T)).2 (Or.inr ⟨v, hv, fun j hj => ?_⟩)]
    · rfl
    · obtain ⟨h0, hj', hg⟩ := (isCast_iff hT v j).mp hj
      have := (List.getElem?_eq_some_iff.mp hg).1
      have := hv' h0
      omega
  · rw [(typeRanges_ok hts).2 hc]; rfl

set_option maxRecDepth 20000 in
example : IsMesh [3, 0, 1, 2, 3, 1, 2, 3, 4, 0, 1, 2, 3, 5, 0, 1, 2, 3, 4] [0, 4, 8, 13, 19]
      [⟨3, [0, 1, 2]⟩, ⟨3, [1, 2, 3]⟩, ⟨4, [0, 1, 2, 3]⟩, ⟨5, [0, 1, 2, 3, 4]⟩] ∧ SortedByType [3, 3, 4, 5] [3, 4, 5] ∧ AllIn 4 [3, 1, 0] ∧
    splitProfilePerType [3, 0, 1, 2, 3, 1, 2, 3, 4, 0, 1, 2, 3, 5, 0, 1, 2, 3, 4] [0, 4, 8, 13, 19] [3, 1, 0] true =
      .ok ⟨[3, 2, 0, 5, 1, -1], [[1, 2], [0]], [[1, 0]]⟩ :=
  ⟨by decide, ⟨by decide, by decide, by decide⟩, by unfold AllIn; decide, by decide⟩

end
end MC
