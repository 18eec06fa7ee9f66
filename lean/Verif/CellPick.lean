import Verif.CellConsist
import Verif.SkinProps

/-!
# C74: cells by type
-/

namespace MC
section

/-! ## Specification -/

/-- `css` are the maximal blocks of consecutive cells of the same type of `cells`. -/
def IsTypeSplit (cells : List Cell) (css : List (List Cell)) : Prop :=
  css.flatten = cells ∧ (∀ g ∈ css, g ≠ [] ∧ ∀ c ∈ g, ∀ d ∈ g, c.type = d.type) ∧
  List.IsChain (fun g h => ∀ c ∈ g, ∀ d ∈ h, c.type ≠ d.type) css

/-! ## Blocks -/

theorem runs_chain : ∀ (ts : List Int), List.IsChain (fun (g h : Int × Nat) => g.1 ≠ h.1) (runs ts)
  | [] => by rw [runs]; exact List.isChain_nil
  | t :: ts => by
    have ih := runs_chain ts
    rw [runs]
    split
    · exact List.isChain_singleton _
    · rename_i u n rs h
      rw [h] at ih
      split
      · rename_i e
        subst e
        cases rs with
        | nil => exact List.isChain_singleton _
        | cons r rs =>
          rw [List.isChain_cons_cons] at ih ⊢
          exact ih
      · rename_i e
        exact List.isChain_cons_cons.mpr ⟨e, ih⟩

/-- the blocks of a mesh -/
def typeBlocks : List (Int × Nat) → List Cell → List (List Cell)
  | [], _ => []
  | g :: G, cells => cells.take g.2 :: typeBlocks G (cells.drop g.2)

theorem typeBlocks_spec : ∀ (G : List (Int × Nat)) (cells : List Cell), cells.map Cell.type = unruns G → (∀ g ∈ G, 0 < g.2) →
    (typeBlocks G cells).flatten = cells ∧ List.Forall₂ (fun (g : Int × Nat) (cs : List Cell) => cs.length = g.2 ∧ ∀ c ∈ cs, c.type = g.1) G (typeBlocks G cells)
  | [], cells, h, _ => by
    have : cells = [] := by simpa [unruns] using h
    subst this
    exact ⟨rfl, List.Forall₂.nil⟩
  | g :: G, cells, h, hp => by
    have h1 : cells.map Cell.type = List.replicate g.2 g.1 ++ unruns G := h
    have ht : (cells.take g.2).map Cell.type = List.replicate g.2 g.1 := by rw [List.map_take, h1]; simp
    have hd : (cells.drop g.2).map Cell.type = unruns G := by rw [List.map_drop, h1]; simp
    obtain ⟨i1, i2⟩ := typeBlocks_spec G (cells.drop g.2) hd fun g hg => hp g (List.mem_cons_of_mem _ hg)
    refine ⟨by rw [typeBlocks, List.flatten_cons, i1, List.take_append_drop], List.Forall₂.cons ⟨?_, fun c hc => ?_⟩ i2⟩
    · have := congrArg List.length ht
      simpa using this
    · have : c.type ∈ (cells.take g.2).map Cell.type := List.mem_map_of_mem hc
      rw [ht] at this
      exact (List.mem_replicate.mp this).2

theorem isTypeSplit_blocks (cells : List Cell) : IsTypeSplit cells (typeBlocks (runs (cells.map Cell.type)) cells) := by
  obtain ⟨h1, h2⟩ := typeBlocks_spec (runs (cells.map Cell.type)) cells (unruns_runs _).symm fun g hg => runs_pos hg
  refine ⟨h1, fun g hg => ?_, ?_⟩
  · obtain ⟨r, hr, h3, h4⟩ := forall₂_mem_right h2 hg
    have := runs_pos hr
    refine ⟨fun e => ?_, fun c hc d hd => by rw [h4 c hc, h4 d hd]⟩
    rw [e] at h3
    simp at h3
    omega
  · have hc := runs_chain (cells.map Cell.type)
    clear h1
    generalize runs (cells.map Cell.type) = G at *
    generalize typeBlocks G cells = css at *
    induction h2 with
    | nil => exact List.isChain_nil
    | cons h3 h4 ih =>
      cases h4 with
      | nil => exact List.isChain_singleton _
      | cons h5 h6 =>
        rw [List.isChain_cons_cons] at hc ⊢
        exact ⟨fun c hc' d hd => by rw [h3.2 c hc', h5.2 d hd]; exact hc.1, ih hc.2⟩

theorem range_picks {cells : List Cell} {a n : Nat} (h : a + n ≤ cells.length) :
    List.Forall₂ (fun (s : Cell) (v : Int) => ∃ f : Nat, v = f ∧ cells[f]? = some s) ((cells.drop a).take n)
      ((List.range n).map fun j : Nat => ((a + j : Nat) : Int)) := by
  rw [List.forall₂_iff_get]
  refine ⟨by simp; omega, fun i h1 h2 => ?_⟩
  simp only [List.length_take, List.length_drop] at h1
  refine ⟨a + i, by simp, ?_⟩
  simp only [List.get_eq_getElem, List.getElem_take, List.getElem_drop]
  exact List.getElem?_eq_getElem _

theorem split_fold {dim : Int} (hd : dim ≠ -1) {conn connI : List Int} {cells : List Cell} (hm : IsMesh conn connI cells) :
    ∀ (G : List (Int × Nat)) (pos : Nat) (ret : List (List Int × List Int)), (cells.drop pos).map Cell.type = unruns G → pos ≤ cells.length →
    ∃ ms, foldRuns (fun (ret : List (List Int × List Int)) _ a b => do
      let m ← buildPartOfMySelfKeep dim conn connI ((List.range (b - a)).map fun j : Nat => ((a + j : Nat) : Int))
      .ok (ret ++ [m], false)) G pos ret = .ok (ret ++ ms) ∧
      List.Forall₂ (fun (m : List Int × List Int) (cs : List Cell) => IsMesh m.1 m.2 cs) ms (typeBlocks G (cells.drop pos)) := by
  intro G
  induction G with
  | nil => intro pos ret _ _; exact ⟨[], by rw [List.append_nil]; rfl, List.Forall₂.nil⟩
  | cons g G ih =>
    intro pos ret hu hp
    obtain ⟨t, n⟩ := g
    have hlen := congrArg List.length hu
    simp [unruns] at hlen
    have hn : pos + n ≤ cells.length := by omega
    obtain ⟨c', i', e1, e2⟩ := buildPartKeep_spec hd hm (range_picks hn)
    rw [foldRuns, Nat.add_sub_cancel_left, e1, ok_bind, ok_bind, if_neg (by simp)]
    have hu2 : (cells.drop pos).map Cell.type = List.replicate n t ++ unruns G := hu
    obtain ⟨ms, f1, f2⟩ := ih (pos + n) (ret ++ [(c', i')]) (by
      rw [← List.drop_drop, List.map_drop, hu2]; simp) hn
    refine ⟨(c', i') :: ms, by rw [f1]; simp, ?_⟩
    rw [typeBlocks]
    refine List.Forall₂.cons e2 ?_
    rw [List.drop_drop]
    exact f2

/-- **C74.** `splitByType()`: one mesh per block of consecutive cells of the same type, in order. -/
theorem C74_splitByType {dim : Int} (hd : dim ≠ -1) {conn connI : List Int} {cells : List Cell} (hm : IsMesh conn connI cells) :
    ∃ (ms : List (List Int × List Int)) (css : List (List Cell)), splitByType dim conn connI = .ok ms ∧ IsTypeSplit cells css ∧
      List.Forall₂ (fun (m : List Int × List Int) (cs : List Cell) => IsMesh m.1 m.2 cs) ms css := by
  obtain ⟨ms, e1, e2⟩ := split_fold hd hm (runs (cells.map Cell.type)) 0 [] (by rw [List.drop_zero, unruns_runs]) (by omega)
  rw [List.nil_append] at e1
  refine ⟨ms, _, ?_, isTypeSplit_blocks cells, by simpa using e2⟩
  unfold splitByType
  rw [forRuns_eq hm.hasTypes, e1]

/-- the blocks are determined by the cells -/
theorem IsTypeSplit.unique {cells : List Cell} {css css' : List (List Cell)} (h : IsTypeSplit cells css) (h' : IsTypeSplit cells css') : css = css' := by
  obtain ⟨a1, a2, a3⟩ := h
  obtain ⟨b1, b2, b3⟩ := h'
  induction css generalizing cells css' with
  | nil =>
    cases css' with
    | nil => rfl
    | cons g css' =>
      have hg := (b2 g List.mem_cons_self).1
      rw [← a1] at b1
      simp at b1
      exact absurd b1.1 hg
  | cons g css ih =>
    cases css' with
    | nil =>
      have hg := (a2 g List.mem_cons_self).1
      rw [← b1] at a1
      simp at a1
      exact absurd a1.1 hg
    | cons g' css' =>
      rw [List.flatten_cons] at a1 b1
      have key : ∀ (g g' : List Cell) (css css' : List (List Cell)), (∀ x ∈ g :: css, x ≠ [] ∧ ∀ c ∈ x, ∀ d ∈ x, c.type = d.type) →
          (∀ x ∈ g' :: css', x ≠ [] ∧ ∀ c ∈ x, ∀ d ∈ x, c.type = d.type) →
          List.IsChain (fun g h => ∀ c ∈ g, ∀ d ∈ h, c.type ≠ d.type) (g :: css) → g ++ css.flatten = g' ++ css'.flatten → g'.length ≤ g.length := by
        intro g g' css css' a2 b2 a3 e
        by_contra hlt
        push Not at hlt
        -- the cell after g is in g'
        obtain ⟨c0, hc0⟩ := List.exists_mem_of_ne_nil _ (a2 g List.mem_cons_self).1
        have hlen := congrArg List.length e
        simp only [List.length_append] at hlen
        cases css with
        | nil => simp at hlen; omega
        | cons h css =>
          obtain ⟨d, hd⟩ : ∃ d, h.head? = some d := by
            cases h with
            | nil => exact absurd rfl (a2 [] (by simp)).1
            | cons d h => exact ⟨d, rfl⟩
          have h1 : (g ++ (h :: css).flatten)[g.length]? = some d := by
            rw [List.getElem?_append_right (Nat.le_refl _), Nat.sub_self, List.flatten_cons]
            cases h with
            | nil => simp at hd
            | cons x h => simpa using hd
          have hdh : d ∈ h := List.mem_of_head? hd
          rw [e, List.getElem?_append_left hlt] at h1
          have hd' : d ∈ g' := List.mem_of_getElem? h1
          have hc0' : (g ++ (h :: css).flatten)[0]? = g[0]? := by
            rw [List.getElem?_append_left (List.length_pos_of_mem hc0)]
          rw [e, List.getElem?_append_left (by omega)] at hc0'
          have hg0 : g[0]'(List.length_pos_of_mem hc0) ∈ g' := by
            rw [List.getElem?_eq_getElem (List.length_pos_of_mem hc0)] at hc0'
            exact List.mem_of_getElem? hc0'
          exact (List.isChain_cons_cons.mp a3).1 _ (List.getElem_mem _) d hdh ((b2 g' List.mem_cons_self).2 _ hg0 d hd')
      have e : g ++ css.flatten = g' ++ css'.flatten := a1.trans b1.symm
      have l1 := key g g' css css' a2 b2 a3 e
      have l2 := key g' g css' css b2 a2 b3 e.symm
      obtain ⟨rfl, e2⟩ := List.append_inj e (by omega)
      congr 1
      refine ih (cells := css.flatten) rfl (fun x hx => a2 x (List.mem_cons_of_mem _ hx)) ?_ e2.symm (fun x hx => b2 x (List.mem_cons_of_mem _ hx)) ?_
      · exact a3.tail
      · exact b3.tail

set_option maxRecDepth 20000 in
example : splitByType 2 [3, 0, 1, 2, 3, 1, 2, 3, 4, 0, 1, 2, 3, 3, 7, 8, 9] [0, 4, 8, 13, 17] =
      .ok [([3, 0, 1, 2, 3, 1, 2, 3], [0, 4, 8]), ([4, 0, 1, 2, 3], [0, 5]), ([3, 7, 8, 9], [0, 4])] ∧
    IsMesh [3, 0, 1, 2, 3, 1, 2, 3, 4, 0, 1, 2, 3, 3, 7, 8, 9] [0, 4, 8, 13, 17]
      [⟨3, [0, 1, 2]⟩, ⟨3, [1, 2, 3]⟩, ⟨4, [0, 1, 2, 3]⟩, ⟨3, [7, 8, 9]⟩] := ⟨by decide, by decide⟩

/-! ## Ids of cells of a type -/

/-- **C74.** `keepCellIdsByType(type, ids)`: the ids of the cells of this type, in order. -/
theorem C74_keepIds {conn connI : List Int} {cells : List Cell} (hm : IsMesh conn connI cells) (type : Int) {ids : List Int}
    (hin : AllIn cells.length ids) :
    keepCellIdsByType conn connI type ids = .ok (ids.filter fun v => decide ((cells.map Cell.type)[v.toNat]? = some type)) := by
  have key : ∀ (ids ret : List Int), AllIn cells.length ids → ids.foldlM (fun (ret : List Int) (w : Int) => do
      let a ← rd connI w
      let t ← rd conn a
      .ok (if t = type then ret ++ [w] else ret)) ret =
      .ok (ret ++ ids.filter fun v => decide ((cells.map Cell.type)[v.toNat]? = some type)) := by
    intro ids
    induction ids with
    | nil => intro ret _; rw [List.filter_nil, List.append_nil]; rfl
    | cons w ids ih =>
      intro ret h
      have hw := h w List.mem_cons_self
      obtain ⟨i, rfl⟩ : ∃ i : Nat, w = i := ⟨w.toNat, by omega⟩
      have hi : i < cells.length := by omega
      obtain ⟨a, b, h0, h1, h2, h3, h4, h5, h6, -⟩ := hm.get hi
      rw [List.foldlM_cons, h3, ok_bind, h5, ok_bind, ok_bind, ih _ fun x hx => h x (List.mem_cons_of_mem _ hx), List.filter_cons]
      have hg : (cells.map Cell.type)[((i : Int)).toNat]? = some cells[i].type := by
        rw [Int.toNat_natCast, List.getElem?_map, List.getElem?_eq_getElem hi]; rfl
      rw [hg]
      by_cases ht : cells[i].type = type
      · rw [if_pos ht, if_pos (by simpa using ht)]; simp
      · rw [if_neg ht, if_neg (by simpa using ht)]
  exact key ids [] hin

/-- **C74, finding.** `keepCellIdsByType` does not check the ids: one which is not a cell makes it read out of the connectivity. -/
theorem C74_keepIds_unchecked {conn connI : List Int} {cells : List Cell} (hm : IsMesh conn connI cells) (type : Int) {ids : List Int}
    (hin : ¬ AllIn cells.length ids) : keepCellIdsByType conn connI type ids = .error .ub := by
  have hl := hm.length
  have key : ∀ (ids ret : List Int), ¬ AllIn cells.length ids → ids.foldlM (fun (ret : List Int) (w : Int) => do
      let a ← rd connI w
      let t ← rd conn a
      .ok (if t = type then ret ++ [w] else ret)) ret = .error .ub := by
    intro ids
    induction ids with
    | nil => intro ret h; exact absurd (by simp [AllIn]) h
    | cons w ids ih =>
      intro ret h
      rw [List.foldlM_cons]
      by_cases hw : 0 ≤ w ∧ w < (cells.length : Int)
      · obtain ⟨i, rfl⟩ : ∃ i : Nat, w = i := ⟨w.toNat, by omega⟩
        have hi : i < cells.length := by omega
        obtain ⟨a, b, h0, h1, h2, h3, h4, h5, h6, -⟩ := hm.get hi
        rw [h3, ok_bind, h5, ok_bind, ok_bind]
        refine ih _ fun ha => h fun x hx => ?_
        rcases List.mem_cons.mp hx with rfl | hx
        · exact hw
        · exact ha x hx
      · by_cases hwn : w = (cells.length : Int)
        · subst hwn
          -- the last offset is the length of the connectivity
          have hlast : rd connI (cells.length : Int) = .ok (conn.length : Int) := by
            obtain ⟨s1, s2⟩ := hm
            subst s1 s2
            refine rd_of_getElem? (by omega) ?_
            rw [Int.toNat_natCast]
            have := skyIdx_getElem? (cells.map Cell.row) (Nat.le_refl _)
            rw [List.length_map, List.take_of_length_le (by simp)] at this
            exact this
          rw [hlast, ok_bind]
          rw [show rd conn (conn.length : Int) = .error .ub by
            unfold rd; rw [if_pos (by omega), Int.toNat_natCast, List.getElem?_eq_none (Nat.le_refl _)]]
          rfl
        · rw [show rd connI w = .error .ub by
            unfold rd
            by_cases h0 : 0 ≤ w
            · rw [if_pos h0, List.getElem?_eq_none (by omega)]
            · rw [if_neg h0]]
          rfl
  exact key ids [] hin

example : keepCellIdsByType [3, 0, 1, 2, 3, 1, 2, 3, 4, 0, 1, 2, 3, 3, 7, 8, 9] [0, 4, 8, 13, 17] 3 [3, 2, 0] = .ok [3, 0] ∧
    keepCellIdsByType [3, 0, 1, 2, 3, 1, 2, 3, 4, 0, 1, 2, 3, 3, 7, 8, 9] [0, 4, 8, 13, 17] 3 [3, 4, 0] = .error .ub := ⟨by decide, by decide⟩

/-! ## Numbering inside a type -/

/-- **C74.** `convertCellArrayPerGeoType(da)`: each cell of `da` is replaced by the number of cells of its type which come before it. -/
theorem C74_convertArray {conn connI : List Int} {cells : List Cell} (hm : IsMesh conn connI cells) {geoTypes : List Int} (hgn : geoTypes.Nodup)
    (hgeo : ∀ t, t ∈ geoTypes ↔ t ∈ cells.map Cell.type) {da : List Int} (hin : AllIn cells.length da) :
    ∃ r, convertCellArrayPerGeoType geoTypes conn connI da = .ok r ∧
      List.Forall₂ (fun (v x : Int) => ∃ (i : Nat) (hi : i < cells.length), v = i ∧ x = (((cells.take i).countP fun c => decide (c.type = cells[i].type) : Nat) : Int)) da r := by
  have hl := hm.length
  have hts := hm.hasTypes
  set n := cells.length with hn
  have hcn : connI.length - 1 = n := by omega
  -- one type
  have one : ∀ (t : Int) (tmp0 : List (Option Int)), tmp0.length = n → ∀ k, k ≤ n →
      wp (loop k (tmp0, (0 : Int)) fun i s => do
        let u ← typeAt conn connI i
        if u = t then do
          let tmp ← wr s.1 i (some s.2)
          .ok (tmp, s.2 + 1)
        else .ok s)
      (fun s : List (Option Int) × Int => s.1.length = n ∧ s.2 = (((cells.take k).countP fun c => decide (c.type = t) : Nat) : Int) ∧
        (∀ (i : Nat) (hi : i < n), cells[i].type = t → i < k → s.1[i]? = some (some (((cells.take i).countP fun c => decide (c.type = t) : Nat) : Int))) ∧
        (∀ (i : Nat) (hi : i < n), cells[i].type ≠ t ∨ k ≤ i → s.1[i]? = tmp0[i]?)) False := by
    intro t tmp0 h0 k
    induction k with
    | zero => intro _; exact ⟨h0, by simp, fun i _ _ h => by omega, fun i _ _ => rfl⟩
    | succ k ih =>
      intro hk
      rw [loop_succ]
      refine (wp_bind _ _ _ _).mpr (wp_mono (ih (by omega)) ?_ id)
      rintro s ⟨s1, s2, s3, s4⟩
      have hk' : k < n := by omega
      have htk : cells.take (k + 1) = cells.take k ++ [cells[k]] := by rw [List.take_append_getElem (by omega)]
      have hty : typeAt conn connI k = .ok cells[k].type := by
        have := hts.2.2 k (by simpa using hk')
        rw [this]; simp
      rw [hty, ok_bind]
      by_cases ht : cells[k].type = t
      · rw [if_pos ht, wr_natCast (by omega), ok_bind]
        refine ⟨by simpa using s1, ?_, fun i hi hit hik => ?_, fun i hi hor => ?_⟩
        · rw [s2, htk, List.countP_append]; simp [ht]
        · by_cases hik' : i = k
          · subst hik'
            rw [List.getElem?_set_self (by omega), s2]
          · rw [List.getElem?_set_ne (by omega)]
            exact s3 i hi hit (by omega)
        · have hne : i ≠ k := by
            rintro rfl
            rcases hor with h | h
            · exact h ht
            · omega
          rw [List.getElem?_set_ne (by omega)]
          exact s4 i hi (hor.imp_right fun h => by omega)
      · rw [if_neg ht]
        refine ⟨s1, ?_, fun i hi hit hik => ?_, fun i hi hor => ?_⟩
        · rw [s2, htk, List.countP_append]; simp [ht]
        · have hne : i ≠ k := by rintro rfl; exact ht hit
          exact s3 i hi hit (by omega)
        · by_cases hne : i = k
          · subst hne; exact s4 i hi (Or.inl ht)
          · exact s4 i hi (hor.imp_right fun h => by omega)
  -- all the types
  have all : ∀ (G done : List Int) (tmp0 : List (Option Int)), (done ++ G).Nodup → tmp0.length = n →
      (∀ (i : Nat) (hi : i < n), cells[i].type ∈ done → tmp0[i]? = some (some (((cells.take i).countP fun c => decide (c.type = cells[i].type) : Nat) : Int))) →
      wp (G.foldlM (fun (tmp : List (Option Int)) (t : Int) => do
        let s ← loop n (tmp, (0 : Int)) fun i s => do
          let u ← typeAt conn connI i
          if u = t then do
            let tmp ← wr s.1 i (some s.2)
            .ok (tmp, s.2 + 1)
          else .ok s
        .ok s.1) tmp0)
      (fun tmp : List (Option Int) => tmp.length = n ∧ ∀ (i : Nat) (hi : i < n), cells[i].type ∈ done ++ G →
        tmp[i]? = some (some (((cells.take i).countP fun c => decide (c.type = cells[i].type) : Nat) : Int))) False := by
    intro G
    induction G with
    | nil => intro done tmp0 _ h1 h2; exact ⟨h1, by simpa using h2⟩
    | cons t G ih =>
      intro done tmp0 hnd h1 h2
      rw [List.foldlM_cons]
      refine (wp_bind _ _ _ _).mpr ((wp_bind _ _ _ _).mpr (wp_mono (one t tmp0 h1 n (Nat.le_refl _)) ?_ id))
      rintro s ⟨s1, -, s3, s4⟩
      have happ : done ++ t :: G = (done ++ [t]) ++ G := by simp
      rw [happ] at hnd ⊢
      refine ih (done ++ [t]) s.1 hnd s1 fun i hi hm2 => ?_
      by_cases ht : cells[i].type = t
      · rw [s3 i hi ht hi, ht]
      · rw [s4 i hi (Or.inl ht)]
        refine h2 i hi ?_
        rcases List.mem_append.mp hm2 with h | h
        · exact h
        · exact absurd (List.mem_singleton.mp h) ht
  obtain ⟨tmp, e1, t1, t2⟩ := wp_exists (all geoTypes [] (mallocN Int n) (by simpa using hgn) (by simp [mallocN]) (by simp))
  unfold convertCellArrayPerGeoType
  rw [hcn, e1, ok_bind]
  clear e1
  induction da with
  | nil => exact ⟨[], rfl, List.Forall₂.nil⟩
  | cons v da ih =>
    obtain ⟨r, r1, r2⟩ := ih fun x hx => hin x (List.mem_cons_of_mem _ hx)
    have hv := hin v List.mem_cons_self
    obtain ⟨i, rfl⟩ : ∃ i : Nat, v = i := ⟨v.toNat, by omega⟩
    have hi : i < n := by omega
    have hg := t2 i hi (by rw [List.nil_append, hgeo]; exact List.mem_map_of_mem (List.getElem_mem _))
    refine ⟨_ :: r, ?_, List.Forall₂.cons ⟨i, hi, rfl, rfl⟩ r2⟩
    rw [List.mapM_cons, rdI_ok (by omega) (by rw [Int.toNat_natCast]; exact hg)]
    show (do let r ← da.mapM fun v => rdI tmp v; .ok (_ :: r)) = _
    rw [r1]; rfl

set_option maxRecDepth 20000 in
example : convertCellArrayPerGeoType [3, 4] [3, 0, 1, 2, 3, 1, 2, 3, 4, 0, 1, 2, 3, 3, 7, 8, 9] [0, 4, 8, 13, 17] [3, 2, 0] = .ok [2, 0, 0] := by decide

end
end MC
