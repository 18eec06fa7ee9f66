import Verif.MergeNodes
import Verif.PartitionProps
import Verif.BBTreeProps

/-! # Which tuples are grouped, and how they are renumbered -/

namespace MC

/-- `k` is in a group, behind the first element -/
def InTail (gs : List (List Int)) (k : Nat) : Prop := ∃ h t, (h :: t) ∈ gs ∧ (k : Int) ∈ t

/-- Groups which may overlap: each one is given by an element which is behind no other one -/
structure OvGroups (n : Nat) (gs : List (List Int)) : Prop where
  ne : ∀ g ∈ gs, g ≠ []
  range : ∀ g ∈ gs, ∀ x ∈ g, 0 ≤ x ∧ x < n
  headsInj : ∀ (a b : Nat) (h : Int) (t t' : List Int), gs[a]? = some (h :: t) → gs[b]? = some (h :: t') → a = b
  headFree : ∀ (k : Nat) (t : List Int), ((k : Int) :: t) ∈ gs → ¬ InTail gs k
  early : ∀ k : Nat, InTail gs k → ∃ (h : Nat) (t : List Int), ((h : Int) :: t) ∈ gs ∧ (k : Int) ∈ t ∧ h < k

open Classical in
/-- the number of elements below `x` which are behind no other one -/
noncomputable def freeRank (gs : List (List Int)) (x : Nat) : Nat := ((List.range x).filter fun k => decide (¬ InTail gs k)).length

open Classical in
theorem freeRank_succ (gs : List (List Int)) (x : Nat) : freeRank gs (x + 1) = freeRank gs x + if InTail gs x then 0 else 1 := by
  unfold freeRank
  rw [List.range_succ, List.filter_append, List.length_append]
  congr 1
  by_cases h : InTail gs x <;> simp [h]

theorem ovMark_wp {n : Nat} {gs : List (List Int)} {arr arrI : List Int} (h : IsSky arr arrI gs) (hg : OvGroups n gs) :
    wp (loop (arrI.length - 1) (List.replicate n (-1)) (o2nMark arr arrI))
      (fun pt => pt.length = n ∧ ∀ k < n, ∃ p, pt[k]? = some p ∧ Marked gs gs.length k p) False := by
  have hl := h.idx_length
  rw [show arrI.length - 1 = gs.length by omega]
  refine wp_loop (E := False) (fun i (pt : List Int) => pt.length = n ∧ ∀ k < n, ∃ p, pt[k]? = some p ∧ Marked gs i k p) ?_ ?_
  · refine ⟨by simp, fun k hk => ⟨-1, by simp [hk], Or.inr ⟨by simp, rfl⟩⟩⟩
  · rintro i hi pt ⟨h1, h2⟩
    obtain ⟨a1, a2, a3, a4⟩ := h.get hi
    cases hgi : gs[i] with
    | nil => exact absurd hgi (hg.ne _ (List.getElem_mem hi))
    | cons hd tl =>
      have hgi? : gs[i]? = some (hd :: tl) := by rw [List.getElem?_eq_getElem hi, hgi]
      have hhd := hg.range _ (List.mem_of_getElem? hgi?) hd (by simp)
      unfold o2nMark
      rw [rd_of_getElem? (by omega) (by rw [Int.toNat_natCast]; exact a1)]
      show wp (rd arr _ >>= _) _ _
      have hrd : rd arr ((gs.take i).flatten.length : Int) = .ok hd := by
        apply rd_of_getElem? (by omega)
        have := congrArg (fun l => l[0]?) a4
        simp only [slice, hgi] at this
        rw [List.getElem?_take_of_lt (by simp), List.getElem?_drop] at this
        simpa using this
      rw [hrd]
      show wp (wr pt hd _) _ _
      rw [wr_ok hhd.1 (by omega)]
      refine ⟨by simp [h1], fun k hk => ?_⟩
      by_cases hke : k = hd.toNat
      · subst hke
        refine ⟨_, List.getElem?_set_self (by omega), Or.inl ⟨i, tl, by omega, ?_, rfl⟩⟩
        rw [hgi?, show ((hd.toNat : Nat) : Int) = hd by omega]
      · obtain ⟨p, hp, hm⟩ := h2 k hk
        refine ⟨p, by rw [List.getElem?_set_ne (by omega)]; exact hp, ?_⟩
        rcases hm with ⟨j, t, hj, e1, e2⟩ | ⟨e1, e2⟩
        · exact Or.inl ⟨j, t, by omega, e1, e2⟩
        · refine Or.inr ⟨fun j t hj he => ?_, e2⟩
          by_cases hji : j = i
          · subst hji
            rw [hgi?] at he
            simp at he
            omega
          · exact e1 j t (by omega) he

/-- `k` has got the number of the last group before `t` which holds it -/
def LastHead (gs : List (List Int)) (t k : Nat) (p : Int) : Prop :=
  ∃ (h : Nat) (tl : List Int), h < t ∧ ((h : Int) :: tl) ∈ gs ∧ (k : Int) ∈ tl ∧ p = (freeRank gs h : Int) ∧
    ∀ (h' : Nat) (tl' : List Int), h' < t → ((h' : Int) :: tl') ∈ gs → (k : Int) ∈ tl' → h' ≤ h

/-- no group before `t` holds `k` -/
def NoHead (gs : List (List Int)) (t k : Nat) : Prop := ∀ (h : Nat) (tl : List Int), h < t → ((h : Int) :: tl) ∈ gs → (k : Int) ∉ tl

/-- state of the renumbering of `k` before turn `t` -/
def O2NState (gs : List (List Int)) (t k : Nat) (p : Int) : Prop :=
  (¬ InTail gs k → (k < t → p = (freeRank gs k : Int)) ∧ (t ≤ k → Marked gs gs.length k p)) ∧
  (InTail gs k → LastHead gs t k p ∨ (NoHead gs t k ∧ Marked gs gs.length k p))

theorem marked_notHead {gs : List (List Int)} {k : Nat} {p : Int} (hm : Marked gs gs.length k p) (hn : ∀ t, ((k : Int) :: t) ∉ gs) : p = -1 := by
  rcases hm with ⟨j, t, hj, e1, e2⟩ | ⟨e1, e2⟩
  · exact absurd (List.mem_of_getElem? e1) (hn t)
  · exact e2

/-- going past a turn which is not the one of a group -/
theorem O2NState.pass {gs : List (List Int)} {t k : Nat} {p : Int} (h : O2NState gs t k p) (hn : ∀ tl, ((t : Int) :: tl) ∉ gs)
    (hk : k ≠ t ∨ InTail gs k) : O2NState gs (t + 1) k p := by
  refine ⟨fun h1 => ⟨fun h2 => (h.1 h1).1 ?_, fun h2 => (h.1 h1).2 (by omega)⟩, fun h1 => ?_⟩
  · rcases hk with hk | hk
    · omega
    · exact absurd hk h1
  · rcases h.2 h1 with ⟨hd, tl, a1, a2, a3, a4, a5⟩ | ⟨a1, a2⟩
    · refine Or.inl ⟨hd, tl, by omega, a2, a3, a4, fun h' tl' b1 b2 b3 => ?_⟩
      by_cases hh : h' = t
      · subst hh; exact absurd b2 (hn _)
      · exact a5 h' tl' (by omega) b2 b3
    · refine Or.inr ⟨fun h' tl' b1 b2 => ?_, a2⟩
      by_cases hh : h' = t
      · subst hh; exact absurd b2 (hn _)
      · exact a1 h' tl' (by omega) b2

theorem ovO2N (n : Nat) (arr arrI : List Int) (gs : List (List Int)) (h : IsSky arr arrI gs) (hg : OvGroups n gs) :
    ∃ r, convertIndexArrayToO2N n arr arrI = .ok (r, (freeRank gs n : Int)) ∧ r.length = n ∧
      ∀ k < n, ∃ p, r[k]? = some p ∧ (¬ InTail gs k → p = (freeRank gs k : Int)) ∧ (InTail gs k → LastHead gs n k p) := by
  have main : wp (convertIndexArrayToO2N n arr arrI) (fun s => s.1.length = n ∧ s.2 = (freeRank gs n : Int) ∧
      ∀ k < n, ∃ p, s.1[k]? = some p ∧ O2NState gs n k p) False := by
    unfold convertIndexArrayToO2N
    rw [wp_bind]
    refine wp_mono (ovMark_wp h hg) ?_ id
    rintro pt0 ⟨hl0, hm0⟩
    refine wp_loop (E := False) (fun t (s : List Int × Int) => s.1.length = n ∧ s.2 = (freeRank gs t : Int) ∧
      ∀ k < n, ∃ p, s.1[k]? = some p ∧ O2NState gs t k p) ?_ ?_
    · refine ⟨hl0, by simp [freeRank], fun k hk => ?_⟩
      obtain ⟨p, hp, hm⟩ := hm0 k hk
      exact ⟨p, hp, fun _ => ⟨by omega, fun _ => hm⟩, fun _ => Or.inr ⟨fun h' tl h1 => by omega, hm⟩⟩
    · rintro t ht ⟨pt, nb⟩ ⟨h1, h2, h3⟩
      simp only at h1 h2 h3
      obtain ⟨p, hp, hst⟩ := h3 t ht
      unfold o2nStep
      simp only
      rw [rd_of_getElem? (by omega) (by rw [Int.toNat_natCast]; exact hp)]
      simp only [ok_bind]
      by_cases hT : InTail gs t
      · -- already numbered
        have hnh : ∀ tl, ((t : Int) :: tl) ∉ gs := fun tl hm => hg.headFree t tl hm hT
        have hp0 : 0 ≤ p := by
          rcases hst.2 hT with ⟨hd, tl, a1, a2, a3, a4, a5⟩ | ⟨a1, a2⟩
          · omega
          · obtain ⟨h', t', b1, b2, b3⟩ := hg.early t hT
            exact absurd b2 (a1 h' t' b3 b1)
        rw [if_neg (by omega)]
        refine ⟨h1, ?_, fun k hk => ?_⟩
        · rw [freeRank_succ, if_pos hT]; simpa using h2
        · obtain ⟨q, hq, hs⟩ := h3 k hk
          refine ⟨q, hq, hs.pass hnh ?_⟩
          by_cases hkt : k = t
          · right; rw [hkt]; exact hT
          · left; exact hkt
      · have hmk := (hst.1 hT).2 (le_refl _)
        rcases hmk with ⟨j, tl, hj, e1, e2⟩ | ⟨e1, e2⟩
        · rw [if_pos (by omega), if_neg (by omega)]
          obtain ⟨a1, a2, a3, a4⟩ := h.get hj
          have hgj : gs[j] = (t : Int) :: tl := by
            rw [List.getElem?_eq_getElem hj] at e1; simpa using e1
          rw [show -(p + 2) = (j : Int) by omega, rd_of_getElem? (by omega) (by rw [Int.toNat_natCast]; exact a1),
            rd_of_getElem? (by omega) (by rw [show ((j : Int) + 1).toNat = j + 1 by omega]; exact a2)]
          simp only [ok_bind]
          rw [show (((gs.take j).flatten.length : Int) + (gs[j].length : Int) - ((gs.take j).flatten.length : Int)).toNat = gs[j].length by omega,
            wp_bind]
          have hin := hg.range _ (List.getElem_mem hj)
          refine wp_mono (wp_loop (E := False) (fun m (pt' : List Int) => pt'.length = n ∧
            ∀ k < n, pt'[k]? = if (k : Int) ∈ gs[j].take m then some nb else pt[k]?) ?_ ?_) ?_ id
          · exact ⟨h1, by simp⟩
          · rintro m hm pt' ⟨g1, g2⟩
            have hrd : rd arr (((gs.take j).flatten.length : Int) + (m : Int)) = .ok gs[j][m] := by
              apply rd_of_getElem? (by omega)
              have := congrArg (fun l => l[m]?) a4
              simp only [slice] at this
              rw [List.getElem?_take_of_lt (by omega), List.getElem?_drop] at this
              rw [show (((gs.take j).flatten.length : Int) + (m : Int)).toNat = ((gs.take j).flatten.length : Int).toNat + m by omega, this]
              simp
            have hmr := hin gs[j][m] (List.getElem_mem hm)
            unfold o2nGroup
            rw [hrd]
            show wp (if _ then _ else _) _ _
            rw [if_pos ⟨hmr.1, by omega⟩, wr_ok hmr.1 (by omega)]
            refine ⟨by simp [g1], fun k hk => ?_⟩
            have hmt : ∀ y, y ∈ gs[j].take (m + 1) ↔ y ∈ gs[j].take m ∨ y = gs[j][m] := by
              intro y
              rw [List.take_succ_eq_append_getElem hm, List.mem_append, List.mem_singleton]
            by_cases hke : k = gs[j][m].toNat
            · subst hke
              rw [List.getElem?_set_self (by omega), if_pos]
              rw [hmt]; right; omega
            · rw [List.getElem?_set_ne (by omega), g2 k hk]
              have : (k : Int) ≠ gs[j][m] := by omega
              have hiff : (k : Int) ∈ gs[j].take (m + 1) ↔ (k : Int) ∈ gs[j].take m := by rw [hmt]; simp [this]
              simp only [hiff]
          · rintro pt' ⟨g1, g2⟩
            rw [List.take_length] at g2
            have hmem : ((t : Int) :: tl) ∈ gs := List.mem_of_getElem? e1
            refine ⟨g1, ?_, fun k hk => ?_⟩
            · rw [freeRank_succ, if_neg hT, h2]; push_cast; rfl
            · simp only
              rw [g2 k hk]
              have huniq : ∀ tl', ((t : Int) :: tl') ∈ gs → tl' = tl := by
                intro tl' hm'
                obtain ⟨b, hb⟩ := List.getElem?_of_mem hm'
                have := hg.headsInj _ _ _ _ _ e1 hb
                subst this
                rw [e1] at hb
                simpa using hb.symm
              by_cases hkt : k = t
              · subst hkt
                rw [if_pos (by rw [hgj]; simp)]
                exact ⟨nb, rfl, fun _ => ⟨fun _ => h2, by omega⟩, fun hh => absurd hh hT⟩
              · by_cases hkg : (k : Int) ∈ gs[j]
                · rw [if_pos hkg]
                  have hktl : (k : Int) ∈ tl := by
                    rw [hgj] at hkg
                    rcases List.mem_cons.mp hkg with hh | hh
                    · omega
                    · exact hh
                  have hkT : InTail gs k := ⟨_, _, hmem, hktl⟩
                  exact ⟨nb, rfl, fun hh => absurd hkT hh, fun _ => Or.inl ⟨t, tl, by omega, hmem, hktl, h2, fun h' tl' b1 _ _ => by omega⟩⟩
                · rw [if_neg hkg]
                  have hktl : (k : Int) ∉ tl := fun hh => hkg (by rw [hgj]; exact List.mem_cons_of_mem _ hh)
                  obtain ⟨q, hq, hs⟩ := h3 k hk
                  refine ⟨q, hq, fun c1 => ⟨fun c2 => (hs.1 c1).1 (by omega), fun c2 => (hs.1 c1).2 (by omega)⟩, fun c1 => ?_⟩
                  rcases hs.2 c1 with ⟨hd, tl', b1, b2, b3, b4, b5⟩ | ⟨b1, b2⟩
                  · refine Or.inl ⟨hd, tl', by omega, b2, b3, b4, fun h' tl'' d1 d2 d3 => ?_⟩
                    by_cases hh : h' = t
                    · subst hh; exact absurd (huniq _ d2 ▸ d3) hktl
                    · exact b5 h' tl'' (by omega) d2 d3
                  · refine Or.inr ⟨fun h' tl'' d1 d2 d3 => ?_, b2⟩
                    by_cases hh : h' = t
                    · subst hh; exact absurd (huniq _ d2 ▸ d3) hktl
                    · exact b1 h' tl'' (by omega) d2 d3
        · rw [if_pos (by omega), if_pos e2, wr_natCast (by omega : t < pt.length)]
          have hnh : ∀ tl, ((t : Int) :: tl) ∉ gs := by
            intro tl hm
            obtain ⟨b, hb⟩ := List.getElem?_of_mem hm
            exact e1 b tl (List.getElem?_eq_some_iff.mp hb).1 hb
          refine ⟨by simp [h1], ?_, fun k hk => ?_⟩
          · rw [freeRank_succ, if_neg hT]
            show nb + 1 = _
            rw [h2]; push_cast; rfl
          · simp only
            by_cases hkt : k = t
            · subst hkt
              rw [List.getElem?_set_self (by omega)]
              exact ⟨nb, rfl, fun _ => ⟨fun _ => h2, by omega⟩, fun hh => absurd hh hT⟩
            · rw [List.getElem?_set_ne (by omega)]
              obtain ⟨q, hq, hs⟩ := h3 k hk
              exact ⟨q, hq, hs.pass hnh (Or.inl hkt)⟩
  obtain ⟨⟨r, nb⟩, e, h1, h2, h3⟩ := wp_exists main
  simp only at h1 h2 h3
  refine ⟨r, by rw [e, h2], h1, fun k hk => ?_⟩
  obtain ⟨p, hp, hs⟩ := h3 k hk
  refine ⟨p, hp, fun hh => (hs.1 hh).1 hk, fun hh => ?_⟩
  rcases hs.2 hh with c | ⟨c, _⟩
  · exact c
  · obtain ⟨h', t', b1, b2, b3⟩ := hg.early k hh
    exact absurd b2 (c h' t' (by omega) b1)

/-- Groups found in `n` tuples for the closeness `near` and the given limit: `kept` holds the tuples which are the first of their group
or alone, and a group is one of them with all the close tuples from `limit` on. -/
structure FoundGroups (near : Nat → Nat → Prop) (n t : Nat) (limit : Int) (gs : List (List Int)) : Prop where
  group : ∀ g ∈ gs, ∃ (h : Nat) (l : List Nat), g = (h : Int) :: l.map (fun e : Nat => (e : Int)) ∧ h < t ∧ l ≠ [] ∧ l.Nodup ∧
    ∀ k, k ∈ l ↔ k < n ∧ near h k ∧ k ≠ h ∧ limit ≤ k
  heads : (gs.map fun g => g.headD 0).Pairwise (· < ·)
  free : ∀ (k : Nat) (tl : List Int), ((k : Int) :: tl) ∈ gs → ¬ InTail gs k
  all : ∀ i < t, ¬ InTail gs i → ∀ k < n, near i k → k ≠ i → limit ≤ k → ∃ tl, ((i : Int) :: tl) ∈ gs ∧ (k : Int) ∈ tl
  early : ∀ k : Nat, InTail gs k → ∃ (h : Nat) (tl : List Int), ((h : Int) :: tl) ∈ gs ∧ (k : Int) ∈ tl ∧ h < k

theorem commonPick_ok {i n : Nat} {limit : Int} : ∀ (found : List Nat) (done : List Bool) (acc : List Int), done.length = n → (∀ e ∈ found, e < n) →
    ∃ d', found.foldlM (fun (s : List Bool × List Int) e =>
      if e ≠ i then
        if (e : Int) ≥ limit then do
          let d ← wr s.1 (e : Int) true
          .ok (d, s.2 ++ [(e : Int)])
        else .ok s
      else .ok s) (done, acc) = (.ok (d', acc ++ (found.filter fun e => decide (e ≠ i ∧ limit ≤ (e : Int))).map fun e : Nat => (e : Int)) : M _) ∧ d'.length = n ∧
      ∀ k < n, d'[k]? = some true ↔ (done[k]? = some true ∨ k ∈ found.filter fun e => decide (e ≠ i ∧ limit ≤ (e : Int))) := by
  intro found
  induction found with
  | nil => intro done acc hl _; exact ⟨done, by simp; rfl, hl, by simp⟩
  | cons e es ih =>
    intro done acc hl hr
    have he := hr e (by simp)
    rw [List.foldlM_cons]
    by_cases hc : e ≠ i ∧ limit ≤ (e : Int)
    · rw [if_pos hc.1, if_pos hc.2, wr_natCast (by omega : e < done.length), ok_bind, ok_bind]
      obtain ⟨d', e1, e2, e3⟩ := ih (done.set e true) (acc ++ [(e : Int)]) (by simp [hl]) (fun x hx => hr x (by simp [hx]))
      refine ⟨d', ?_, e2, fun k hk => ?_⟩
      · rw [e1, List.filter_cons_of_pos (by simpa using hc)]
        simp
      · rw [e3 k hk, List.filter_cons_of_pos (by simpa using hc), List.mem_cons]
        by_cases hke : k = e
        · subst hke; simp [List.getElem?_set_self (show k < done.length by omega)]
        · rw [List.getElem?_set_ne (by omega)]; simp [hke]
    · have hs : (if e ≠ i then
        if (e : Int) ≥ limit then do
          let d ← wr done (e : Int) true
          .ok (d, acc ++ [(e : Int)])
        else .ok (done, acc)
      else .ok (done, acc) : M (List Bool × List Int)) = .ok (done, acc) := by
        by_cases h1 : e ≠ i
        · rw [if_pos h1, if_neg (fun h2 => hc ⟨h1, h2⟩)]
        · rw [if_neg h1]
      obtain ⟨d', e1, e2, e3⟩ := ih done acc hl (fun x hx => hr x (by simp [hx]))
      refine ⟨d', ?_, e2, fun k hk => ?_⟩
      · simp only [hs, ok_bind]
        rw [e1, List.filter_cons_of_neg (by simpa using hc)]
      · rw [e3 k hk, List.filter_cons_of_neg (by simpa using hc)]

/-- The loop finds the groups. -/
theorem findCommonAlg_ok {search : Nat → M (List Nat)} {near : Nat → Nat → Prop} {n : Nat} (limit : Int)
    (hs : ∀ i < n, ∃ found : List Nat, search i = .ok found ∧ found.Nodup ∧ ∀ k, k ∈ found ↔ k < n ∧ near i k)
    (hrefl : ∀ i < n, near i i) (hsym : ∀ i j, i < n → j < n → near i j → near j i) :
    ∃ arr arrI gs, findCommonAlg search n limit = .ok (arr, arrI) ∧ IsSky arr arrI gs ∧ FoundGroups near n n limit gs := by
  have main : wp (findCommonAlg search n limit) (fun s => ∃ gs, IsSky s.1 s.2 gs ∧ FoundGroups near n n limit gs) False := by
    unfold findCommonAlg
    rw [wp_bind]
    refine wp_mono (wp_loop (E := False) (fun t (s : CommonSt) => ∃ gs, IsSky s.comm s.commI gs ∧ FoundGroups near n t limit gs ∧
      s.done.length = n ∧ ∀ k < n, s.done[k]? = some true ↔ InTail gs k) ?_ ?_) ?_ id
    · refine ⟨[], ⟨by simp, by simp [skyIdx]⟩, ⟨by simp, by simp, by simp, by omega, ?_⟩, by simp, fun k hk => ?_⟩
      · rintro k ⟨h, t, hm, _⟩; simp at hm
      · simp [hk, InTail]
    · rintro i hi s ⟨gs, hsky, hF, hdl, hd⟩
      obtain ⟨b, hb⟩ : ∃ b, s.done[i]? = some b := ⟨_, List.getElem?_eq_getElem (by omega)⟩
      unfold commonTupStep
      rw [rd_of_getElem? (by omega) (by rw [Int.toNat_natCast]; exact hb), ok_bind]
      cases b with
      | true =>
        have hT : InTail gs i := (hd i hi).mp hb
        simp only [if_true]
        refine ⟨gs, hsky, ⟨fun g hg => ?_, hF.heads, hF.free, fun j hj hnj => ?_, hF.early⟩, hdl, hd⟩
        · obtain ⟨h, l, a1, a2, a3⟩ := hF.group g hg
          exact ⟨h, l, a1, by omega, a3⟩
        · by_cases hji : j = i
          · subst hji; exact absurd hT hnj
          · exact hF.all j (by omega) hnj
      | false =>
        have hnT : ¬ InTail gs i := fun h => by rw [(hd i hi).mpr h] at hb; simp at hb
        obtain ⟨found, f1, f2, f3⟩ := hs i hi
        simp only [Bool.false_eq_true, if_false, f1, ok_bind]
        have hnone : (found.filter fun e => decide (e ≠ i ∧ limit ≤ (e : Int))) = [] → FoundGroups near n (i + 1) limit gs := by
          intro hnil
          refine ⟨fun g hg => ?_, hF.heads, hF.free, fun j hj hnj k hk hnear hne hlim => ?_, hF.early⟩
          · obtain ⟨h, l, a1, a2, a3⟩ := hF.group g hg
            exact ⟨h, l, a1, by omega, a3⟩
          · by_cases hji : j = i
            · subst hji
              have : k ∈ found.filter fun e => decide (e ≠ j ∧ limit ≤ (e : Int)) := by
                rw [List.mem_filter]
                exact ⟨(f3 k).mpr ⟨hk, hnear⟩, by simpa using ⟨hne, hlim⟩⟩
              rw [hnil] at this
              simp at this
            · exact hF.all j (by omega) hnj k hk hnear hne hlim
        by_cases hlen : found.length > 1
        · rw [if_pos hlen]
          obtain ⟨d', e1, e2, e3⟩ := commonPick_ok (i := i) (limit := limit) found s.done [] hdl (fun e he => ((f3 e).mp he).1)
          have e1' : commonPick i limit found s.done = .ok (d', (found.filter fun e => decide (e ≠ i ∧ limit ≤ (e : Int))).map fun e : Nat => (e : Int)) := by
            unfold commonPick; rw [e1, List.nil_append]
          rw [e1', ok_bind]
          simp only
          by_cases hnil : (found.filter fun e => decide (e ≠ i ∧ limit ≤ (e : Int))) = []
          · rw [hnil] at e3 ⊢
            rw [if_neg (by simp)]
            exact ⟨gs, hsky, hnone hnil, e2, fun k hk => by rw [e3 k hk]; simp [hd k hk]⟩
          · rw [if_pos (by simpa using hnil)]
            obtain ⟨hs1, hs2⟩ := hsky
            have hlI : s.commI.length = gs.length + 1 := (show IsSky s.comm s.commI gs from ⟨hs1, hs2⟩).idx_length
            have hrd : rd s.commI ((s.commI.length : Int) - 1) = .ok ((gs.flatten.length : Nat) : Int) := by
              apply rd_of_getElem? (by omega)
              rw [hs2, show ((((skyIdx gs).length : Int)) - 1).toNat = gs.length by rw [← hs2]; omega, skyIdx_getElem? _ (le_refl _)]
              simp
            rw [hrd, ok_bind]
            generalize hl : (found.filter fun e => decide (e ≠ i ∧ limit ≤ (e : Int))) = l at *
            have hlm : ∀ k, k ∈ l ↔ k < n ∧ near i k ∧ k ≠ i ∧ limit ≤ k := by
              intro k
              rw [← hl, List.mem_filter, f3 k]
              simp [and_assoc]
            have hlI2 : ∀ k : Nat, (k : Int) ∈ l.map (fun e : Nat => (e : Int)) ↔ k ∈ l := by
              intro k; simp
            -- a tuple which is behind none before and is close to this one is not before it
            have hbefore : ∀ k, k < i → limit ≤ k → near i k → InTail gs k := by
              intro k hk hlim hnear
              by_contra hc
              obtain ⟨tl, b1, b2⟩ := hF.all k hk hc i hi (hsym i k hi (by omega) hnear) (by omega) (by omega)
              exact hnT ⟨_, _, b1, b2⟩
            have hT' : ∀ k : Nat, InTail (gs ++ [(i : Int) :: l.map (fun e : Nat => (e : Int))]) k ↔ InTail gs k ∨ k ∈ l := by
              intro k
              constructor
              · rintro ⟨h, t, hm, hk⟩
                rcases List.mem_append.mp hm with hm | hm
                · exact Or.inl ⟨h, t, hm, hk⟩
                · simp only [List.mem_singleton, List.cons.injEq] at hm
                  rw [hm.2, hlI2] at hk
                  exact Or.inr hk
              · rintro (⟨h, t, hm, hk⟩ | hk)
                · exact ⟨h, t, by simp [hm], hk⟩
                · exact ⟨(i : Int), _, List.mem_append_right _ (List.mem_singleton.mpr rfl), (hlI2 k).mpr hk⟩
            refine ⟨gs ++ [(i : Int) :: l.map (fun e : Nat => (e : Int))], ⟨by rw [hs1]; simp, ?_⟩, ⟨fun g hg => ?_, ?_, fun k tl hm hT => ?_, fun j hj hnj k hk hnear hne hlim => ?_, fun k hk => ?_⟩, e2, fun k hk => ?_⟩
            · rw [hs2, skyIdx_snoc]
              simp only [List.length_map, List.length_cons]
              push_cast
              rw [add_assoc]
            · rcases List.mem_append.mp hg with hg | hg
              · obtain ⟨h, l, a1, a2, a3⟩ := hF.group g hg
                exact ⟨h, l, a1, by omega, a3⟩
              · rw [List.mem_singleton] at hg
                exact ⟨i, l, hg, by omega, hnil, by rw [← hl]; exact f2.filter _, hlm⟩
            · rw [List.map_append, List.pairwise_append]
              refine ⟨hF.heads, by simp, ?_⟩
              intro x hx y hy
              simp only [List.map_cons, List.map_nil, List.mem_singleton, List.headD_cons] at hy
              rw [List.mem_map] at hx
              obtain ⟨g, hg, rfl⟩ := hx
              obtain ⟨h, l, a1, a2, a3⟩ := hF.group g hg
              rw [hy, a1, List.headD_cons]
              omega
            · rw [hT'] at hT
              rcases List.mem_append.mp hm with hm | hm
              · rcases hT with hT | hT
                · exact hF.free k tl hm hT
                · obtain ⟨h, l', a1, a2, a3⟩ := hF.group _ hm
                  simp only [List.cons.injEq] at a1
                  have hkl := (hlm k).mp hT
                  exact hF.free k tl hm (hbefore k (by omega) hkl.2.2.2 hkl.2.1)
              · simp only [List.mem_singleton, List.cons.injEq] at hm
                have hki : k = i := by omega
                rcases hT with hT | hT
                · exact hnT (hki ▸ hT)
                · exact ((hlm k).mp hT).2.2.1 hki
            · rw [hT'] at hnj
              push Not at hnj
              by_cases hji : j = i
              · subst hji
                exact ⟨_, List.mem_append_right _ (by simp), (hlI2 k).mpr ((hlm k).mpr ⟨hk, hnear, hne, hlim⟩)⟩
              · obtain ⟨tl, b1, b2⟩ := hF.all j (by omega) hnj.1 k hk hnear hne hlim
                exact ⟨tl, List.mem_append_left _ b1, b2⟩
            · rw [hT'] at hk
              have hold : InTail gs k → ∃ (h : Nat) (tl : List Int), ((h : Int) :: tl) ∈ gs ++ [(i : Int) :: l.map (fun e : Nat => (e : Int))] ∧ (k : Int) ∈ tl ∧ h < k := by
                intro hk
                obtain ⟨h, tl, b1, b2, b3⟩ := hF.early k hk
                exact ⟨h, tl, List.mem_append_left _ b1, b2, b3⟩
              rcases hk with hk | hk
              · exact hold hk
              · have hkl := (hlm k).mp hk
                by_cases hki : i < k
                · exact ⟨i, _, List.mem_append_right _ (by simp), (hlI2 k).mpr hk, hki⟩
                · exact hold (hbefore k (by omega) hkl.2.2.2 hkl.2.1)
            · rw [e3 k hk, hd k hk, hT']
        · rw [if_neg hlen]
          refine ⟨gs, hsky, hnone ?_, hdl, hd⟩
          rw [List.filter_eq_nil_iff]
          intro e he
          have hself : i ∈ found := (f3 i).mpr ⟨hi, hrefl i hi⟩
          simp only [decide_eq_true_eq, not_and]
          intro hne
          exfalso
          match found, hlen, he, hself with
          | [], _, he, _ => simp at he
          | [x], _, he, hself => simp at he hself; omega
          | x :: y :: z, hlen, _, _ => simp at hlen
    · rintro s ⟨gs, h1, h2, -⟩
      exact ⟨gs, h1, h2⟩
  obtain ⟨⟨arr, arrI⟩, e, gs, h1, h2⟩ := wp_exists main
  exact ⟨arr, arrI, gs, e, h1, h2⟩

theorem FoundGroups.ov {near : Nat → Nat → Prop} {n : Nat} {limit : Int} {gs : List (List Int)} (h : FoundGroups near n n limit gs) : OvGroups n gs where
  ne := by
    intro g hg
    obtain ⟨h, l, a1, -⟩ := h.group g hg
    rw [a1]; simp
  range := by
    intro g hg x hx
    obtain ⟨h, l, a1, a2, a3, a4, a5⟩ := h.group g hg
    rw [a1] at hx
    rcases List.mem_cons.mp hx with hx | hx
    · omega
    · obtain ⟨k, hk, rfl⟩ := List.mem_map.mp hx
      have := ((a5 k).mp hk).1
      omega
  headsInj := by
    intro a b hd t t' ha hb
    have hp := h.heads
    have h1 : (gs.map fun g => g.headD 0)[a]? = some hd := by rw [List.getElem?_map, ha]; rfl
    have h2 : (gs.map fun g => g.headD 0)[b]? = some hd := by rw [List.getElem?_map, hb]; rfl
    have hnd : (gs.map fun g => g.headD 0).Nodup := hp.imp (fun hlt => ne_of_lt hlt)
    exact (List.getElem?_inj (List.getElem?_eq_some_iff.mp h1).1 hnd).mp (h1.trans h2.symm)
  headFree := h.free
  early := h.early

/-- A numbering of `n` tuples which merges the close ones: `kept` are the tuples which keep their identity, numbered in their order; the
tuples before `limit` are all kept; the others are kept exactly when no kept tuple before them is close to them, and those which are not kept
get the number of the last of the kept tuples close to them. -/
structure IsMerge (near : Nat → Nat → Prop) (n : Nat) (limit : Int) (kept : List Nat) (r : List Int) : Prop where
  len : r.length = n
  sorted : kept.Pairwise (· < ·)
  range : ∀ k ∈ kept, k < n
  self : ∀ (v k : Nat), kept[v]? = some k → r[k]? = some (v : Int)
  below : ∀ k < n, (k : Int) < limit → k ∈ kept
  apart : ∀ i ∈ kept, ∀ j ∈ kept, i < j → limit ≤ j → ¬ near i j
  early : ∀ k < n, k ∉ kept → ∃ j ∈ kept, j < k ∧ near j k
  close : ∀ k < n, k ∉ kept → ∃ v j : Nat, r[k]? = some (v : Int) ∧ kept[v]? = some j ∧ near j k ∧ ∀ j' ∈ kept, near j' k → j' ≤ j

theorem filterRange_idx (p : Nat → Bool) : ∀ (n k : Nat), k < n → p k = true → ((List.range n).filter p)[((List.range k).filter p).length]? = some k := by
  intro n
  induction n with
  | zero => intro k hk; omega
  | succ n ih =>
    intro k hk hp
    rw [List.range_succ, List.filter_append]
    by_cases hkn : k = n
    · subst hkn
      rw [List.getElem?_append_right (le_refl _)]
      simp [hp]
    · have := ih k (by omega) hp
      rw [List.getElem?_append_left (List.getElem?_eq_some_iff.mp this).1]
      exact this

theorem merge_of_found {near : Nat → Nat → Prop} {n : Nat} {limit : Int} {gs : List (List Int)} {arr arrI : List Int}
    (hsky : IsSky arr arrI gs) (h : FoundGroups near n n limit gs) (hsym : ∀ i j, i < n → j < n → near i j → near j i) :
    ∃ r kept, convertIndexArrayToO2N n arr arrI = .ok (r, (kept.length : Int)) ∧ IsMerge near n limit kept r := by
  classical
  obtain ⟨r, h1, h2, h3⟩ := ovO2N n arr arrI gs hsky h.ov
  refine ⟨r, (List.range n).filter fun k => decide (¬ InTail gs k), by rw [h1]; unfold freeRank; congr, ?_⟩
  have hmem : ∀ k, k ∈ ((List.range n).filter fun k => decide (¬ InTail gs k)) ↔ k < n ∧ ¬ InTail gs k := by
    intro k; simp
  have hidx : ∀ k, k < n → ¬ InTail gs k → ((List.range n).filter fun k => decide (¬ InTail gs k))[freeRank gs k]? = some k := by
    intro k hk hT
    have := filterRange_idx (fun k => decide (¬ InTail gs k)) n k hk (by simpa using hT)
    unfold freeRank
    convert this
  have hpw : ((List.range n).filter fun k => decide (¬ InTail gs k)).Pairwise (· < ·) := List.pairwise_lt_range.filter _
  refine ⟨h2, hpw, fun k hk => ((hmem k).mp hk).1, fun v k hv => ?_, fun k hk hlim => ?_, fun i hi j hj hij hlim hnear => ?_, fun k hk hnk => ?_, fun k hk hnk => ?_⟩
  · have hk := (hmem k).mp (List.mem_of_getElem? hv)
    obtain ⟨p, b1, b2, -⟩ := h3 k hk.1
    have := hidx k hk.1 hk.2
    have hnd : ((List.range n).filter fun k => decide (¬ InTail gs k)).Nodup := hpw.imp (fun h => ne_of_lt h)
    have he := (List.getElem?_inj (List.getElem?_eq_some_iff.mp hv).1 hnd).mp (hv.trans this.symm)
    rw [b1, b2 hk.2, he]
  · rw [hmem]
    refine ⟨hk, ?_⟩
    rintro ⟨hd, t, a1, a2⟩
    obtain ⟨h', l, b1, b2, b3, b4, b5⟩ := h.group _ a1
    simp only [List.cons.injEq] at b1
    rw [b1.2] at a2
    have := (b5 k).mp (by simpa using a2)
    omega
  · rw [hmem] at hi hj
    obtain ⟨tl, b1, b2⟩ := h.all i hi.1 hi.2 j hj.1 hnear (by omega) hlim
    exact hj.2 ⟨_, _, b1, b2⟩
  · have hT : InTail gs k := by
      by_contra hc
      exact hnk ((hmem k).mpr ⟨hk, hc⟩)
    obtain ⟨hd, tl, b1, b2, b3⟩ := h.early k hT
    obtain ⟨h', l, c1, c2, c3, c4, c5⟩ := h.group _ b1
    simp only [List.cons.injEq] at c1
    rw [c1.2] at b2
    have := (c5 k).mp (by simpa using b2)
    have hh : hd = h' := by omega
    exact ⟨hd, (hmem hd).mpr ⟨by omega, h.free hd tl b1⟩, b3, hh ▸ this.2.1⟩
  · have hT : InTail gs k := by
      by_contra hc
      exact hnk ((hmem k).mpr ⟨hk, hc⟩)
    obtain ⟨p, b1, -, b2⟩ := h3 k hk
    obtain ⟨hd, tl, a1, a2, a3, a4, a5⟩ := b2 hT
    obtain ⟨h', l, c1, c2, c3, c4, c5⟩ := h.group _ a2
    simp only [List.cons.injEq] at c1
    have a3' := a3
    rw [c1.2] at a3
    have := (c5 k).mp (by simpa using a3)
    have hh : hd = h' := by omega
    refine ⟨freeRank gs hd, hd, by rw [b1, a4], hidx hd (by omega) (h.free hd tl a2), hh ▸ this.2.1, fun j' hj' hnear => ?_⟩
    rw [hmem] at hj'
    have hne : k ≠ j' := by
      intro he; subst he; exact hj'.2 hT
    obtain ⟨tl', d1, d2⟩ := h.all j' hj'.1 hj'.2 k hk hnear hne this.2.2.2
    exact a5 j' tl' hj'.1 d1 d2

end MC
