import Verif.DegenThm

/-!
# The sides of the simplified cells of dimension 2 (C105)
-/

namespace MC

/-- A side reduced to a point: its ends are equal, and its middle node, if it has one, too. -/
def NullSide (e : Int × Int × Option Int) : Prop := e.1 = e.2.1 ∧ (e.2.2 = none ∨ e.2.2 = some e.1)

instance (e : Int × Int × Option Int) : Decidable (NullSide e) := by unfold NullSide; infer_instance

/-- Removing the null sides of a closed line leaves a closed line. -/
theorem chain_filter (E : List (Int × Int × Option Int)) (x y : Int)
    (h : x :: E.map (fun e => e.2.1) = E.map (fun e => e.1) ++ [y]) :
    x :: (E.filter fun e => decide (¬ NullSide e)).map (fun e => e.2.1) = (E.filter fun e => decide (¬ NullSide e)).map (fun e => e.1) ++ [y] := by
  induction E generalizing x with
  | nil => simpa using h
  | cons e E ih =>
    rw [List.map_cons, List.map_cons, List.cons_append, List.cons.injEq] at h
    obtain ⟨h1, h2⟩ := h
    have := ih _ h2
    by_cases hn : NullSide e
    · rw [List.filter_cons_of_neg (by simpa using hn), ← this, h1, hn.1]
    · rw [List.filter_cons_of_pos (by simpa using hn), List.map_cons, List.map_cons, List.cons_append, ← this, h1]

theorem chain_closed (E : List (Int × Int × Option Int)) (h : E.map (fun e => e.2.1) = (E.map fun e => e.1).rotate 1) :
    (E.filter fun e => decide (¬ NullSide e)).map (fun e => e.2.1) = ((E.filter fun e => decide (¬ NullSide e)).map fun e => e.1).rotate 1 := by
  cases E with
  | nil => rfl
  | cons e E =>
    have h' : e.1 :: (e :: E).map (fun e => e.2.1) = (e :: E).map (fun e => e.1) ++ [e.1] := by
      rw [h, List.map_cons, List.rotate_cons_succ, List.rotate_zero]
      simp
    have := chain_filter _ _ _ h'
    rcases hF : (e :: E).filter (fun e => decide (¬ NullSide e)) with _ | ⟨g, F⟩
    · rfl
    · rw [hF] at this
      rw [List.map_cons, List.map_cons, List.cons_append, List.cons.injEq] at this
      rw [List.map_cons, List.map_cons, List.rotate_cons_succ, List.rotate_zero, this.2, this.1]

theorem edgesOf_eq {t : Int} {f : List Int} {k : Nat} (hk : nbCorners t f.length = k) (hl : k ≤ f.length) :
    edgesOf t f = (List.range k).map fun i => (f[i]!, f[(i + 1) % k]!, f[k + i]?) := by
  unfold edgesOf
  rw [hk, List.filterMap_eq_map_iff_forall_eq_some.mpr]
  intro i hi
  have hi := List.mem_range.mp hi
  have hj : (i + 1) % k < f.length := lt_of_lt_of_le (Nat.mod_lt _ (by omega)) hl
  simp [List.getElem?_eq_getElem (show i < f.length by omega), List.getElem?_eq_getElem hj,
    getElem!_pos f i (by omega), getElem!_pos f ((i + 1) % k) hj]

/-- The sides of the cell written from a closed line. -/
theorem edgesOf_line {t : Int} (F : List (Int × Int × Option Int)) (R M : List Int) (hF : F.map (fun e => e.2.1) = (F.map fun e => e.1).rotate 1)
    (hR : R = F.map (fun e => e.1) ++ M) (hk : nbCorners t R.length = F.length) (hM : ∀ i (hi : i < F.length), M[i]? = F[i].2.2) :
    edgesOf t R = F := by
  have hl : F.length ≤ R.length := by rw [hR]; simp
  rw [edgesOf_eq hk hl]
  apply List.ext_getElem (by simp)
  intro i h1 h2
  have hj : (i + 1) % F.length < F.length := Nat.mod_lt _ (by omega)
  simp only [List.getElem_map, List.getElem_range]
  have e1 : R[i]! = F[i].1 := by
    rw [getElem!_pos R i (by omega)]
    simp [hR, List.getElem_append_left, h2]
  have e2 : R[(i + 1) % F.length]! = F[i].2.1 := by
    rw [getElem!_pos R _ (by omega)]
    have : (F.map fun e => e.2.1)[i]'(by simpa using h2) = ((F.map fun e => e.1).rotate 1)[i]'(by simpa using h2) := by
      simp only [hF]
    rw [List.getElem_rotate] at this
    simp only [List.getElem_map, List.length_map] at this
    rw [this]
    simp [hR, List.getElem_append_left, hj]
  have e3 : R[F.length + i]? = F[i].2.2 := by
    rw [hR, List.getElem?_append_right (by simp), ← hM i h2]
    simp
  rw [e1, e2, e3]

theorem filterMap_get {l : List Int} {ks : List Nat} {g : Nat → Nat} (h : ∀ k ∈ ks, g k < l.length) :
    (ks.filterMap fun k : Nat => l[g k]?) = ks.map fun k => l[g k]! := by
  rw [List.filterMap_eq_map_iff_forall_eq_some.mpr]
  intro k hk
  rw [getElem!_pos l _ (h k hk), List.getElem?_eq_getElem (h k hk)]

/-- The numbers of nodes of the types of dimension 2 -/
def RightSize (c : Cell) : Prop :=
  ∃ cm, getCellModel c.type = .ok cm ∧ cm.dim = 2 ∧ (cm.dyn = false → c.nodes.length = cm.nbPts)

/-- A quadratic type -/
def quadType (t : Int) : Bool := decide (t ∈ ([6, 7, 8, 9, 32] : List Int))

theorem rightSize_cases {c : Cell} (h : RightSize c) :
    ∃ cm, getCellModel c.type = .ok cm ∧ cm.dim = 2 ∧ cm.quad = quadType c.type ∧
      nbCorners c.type c.nodes.length = if quadType c.type then c.nodes.length / 2 else c.nodes.length := by
  obtain ⟨cm, h1, h2, h3⟩ := h
  obtain ⟨hm, hc⟩ := getCellModel_mem h1
  have tab : ∀ cm ∈ cellModels, cm.dim = 2 → cm.quad = quadType cm.code ∧
      (cm.dyn = false → nbCorners cm.code cm.nbPts = if quadType cm.code then cm.nbPts / 2 else cm.nbPts) ∧
      (cm.dyn = true → cm.code = 5 ∨ cm.code = 32) := by decide
  obtain ⟨t1, t2, t3⟩ := tab cm hm h2
  rw [hc] at t1 t2 t3
  refine ⟨cm, h1, h2, t1, ?_⟩
  cases hd : cm.dyn with
  | false => rw [h3 hd]; exact t2 hd
  | true =>
    rcases t3 hd with h | h <;> rw [h] <;> simp [nbCorners, quadType]

theorem corners_unPoly (q : Bool) (n : Nat) :
    nbCorners (unPoly2DType q n) n = if q then n / 2 else n := by
  cases q <;> simp only [unPoly2DType, Bool.false_eq_true, if_true, if_false] <;> split_ifs <;> simp_all [nbCorners]

theorem edges_closed {c : Cell} {k : Nat} (hk : nbCorners c.type c.nodes.length = k) (hl : k ≤ c.nodes.length) :
    (edgesOf c.type c.nodes).map (fun e => e.2.1) = ((edgesOf c.type c.nodes).map fun e => e.1).rotate 1 := by
  rw [edgesOf_eq hk hl, List.map_map, List.map_map]
  apply List.ext_getElem (by simp)
  intro i h1 h2
  rw [List.getElem_rotate]
  simp

theorem getElem?_ne_iff {l : List Int} {i j : Nat} (hi : i < l.length) (hj : j < l.length) : l[i]? ≠ l[j]? ↔ l[i]! ≠ l[j]! := by
  rw [List.getElem?_eq_getElem hi, List.getElem?_eq_getElem hj, getElem!_pos l i hi, getElem!_pos l j hj]
  simp

/-- The sides of the cell written by the simplification. -/
theorem sides_zip {c : Cell} {q : Bool} (hk : nbCorners c.type c.nodes.length = if q then c.nodes.length / 2 else c.nodes.length) :
    edgesOf (unPoly2DType q (zipNodes q c.nodes).length) (zipNodes q c.nodes) =
      (edgesOf c.type c.nodes).filter fun e => decide (¬ NullSide e) := by
  set l := c.nodes with hl
  cases q with
  | false =>
    simp only [Bool.false_eq_true, if_false] at hk
    have hcl := chain_closed _ (edges_closed (c := c) hk le_rfl)
    rw [← hl] at hcl
    have hF : (edgesOf c.type l).filter (fun e => decide (¬ NullSide e)) = (keptLin l).map fun i => (l[i]!, l[(i + 1) % l.length]!, l[l.length + i]?) := by
      rw [edgesOf_eq hk le_rfl, List.filter_map]
      congr 1
      unfold keptLin
      apply List.filter_congr
      intro i hi
      have hi := List.mem_range.mp hi
      have hj : (i + 1) % l.length < l.length := Nat.mod_lt _ (by omega)
      simp only [Function.comp_apply, decide_eq_decide]
      rw [getElem?_ne_iff hi hj, NullSide]
      simp
    rw [hF] at hcl ⊢
    have hz : zipNodes false l = (keptLin l).map fun i => l[i]! := by
      unfold zipNodes
      simp only [Bool.false_eq_true, if_false]
      exact filterMap_get (g := fun k => k) fun k hk => List.mem_range.mp (List.mem_filter.mp hk).1
    refine edgesOf_line _ _ [] hcl ?_ ?_ ?_
    · rw [hz, List.map_map, List.append_nil]; rfl
    · rw [corners_unPoly, hz]; simp
    · intro i hi
      simp
  | true =>
    simp only [if_true] at hk
    have hle : l.length / 2 ≤ l.length := by omega
    have hcl := chain_closed _ (edges_closed (c := c) hk hle)
    rw [← hl] at hcl
    have hF : (edgesOf c.type l).filter (fun e => decide (¬ NullSide e)) =
        (keptQuad l).map fun i => (l[i]!, l[(i + 1) % (l.length / 2)]!, l[l.length / 2 + i]?) := by
      rw [edgesOf_eq hk hle, List.filter_map]
      congr 1
      unfold keptQuad
      apply List.filter_congr
      intro i hi
      have hi := List.mem_range.mp hi
      have hj : (i + 1) % (l.length / 2) < l.length := lt_of_lt_of_le (Nat.mod_lt _ (by omega)) hle
      simp only [Function.comp_apply, decide_eq_decide]
      rw [getElem?_ne_iff (by omega) hj, getElem?_ne_iff (show i < l.length by omega) (show i + l.length / 2 < l.length by omega), NullSide]
      rw [Nat.add_comm (l.length / 2) i, List.getElem?_eq_getElem (show i + l.length / 2 < l.length by omega),
        getElem!_pos l (i + l.length / 2) (by omega)]
      simp only [reduceCtorEq, false_or, Option.some.injEq]
      constructor
      · intro h
        by_contra hcon
        rw [not_or, not_not, not_not] at hcon
        exact h ⟨hcon.1, hcon.2.symm⟩
      · rintro (h | h) ⟨a, b⟩
        · exact h a
        · exact h b.symm
    rw [hF] at hcl ⊢
    have hlt : ∀ k ∈ keptQuad l, k < l.length / 2 := fun k hk => List.mem_range.mp (List.mem_filter.mp hk).1
    have hz : zipNodes true l = ((keptQuad l).map fun i => l[i]!) ++ (keptQuad l).map fun i => l[(i + l.length / 2) % l.length]! := by
      unfold zipNodes
      simp only [if_true]
      congr 1
      · exact filterMap_get (g := fun k => k) fun k hk => by have := hlt k hk; omega
      · exact filterMap_get (g := fun k => (k + l.length / 2) % l.length) fun k hk => Nat.mod_lt _ (by have := hlt k hk; omega)
    refine edgesOf_line _ _ ((keptQuad l).map fun i => l[(i + l.length / 2) % l.length]!) hcl ?_ ?_ ?_
    · rw [hz, List.map_map]; rfl
    · rw [corners_unPoly, hz, if_pos rfl, List.length_append, List.length_map, List.length_map, List.length_map]
      omega
    · intro i hi
      have hi' : i < (keptQuad l).length := by simpa using hi
      have := hlt _ (List.getElem_mem hi')
      simp only [List.getElem_map]
      rw [List.getElem?_eq_getElem (by simpa using hi'), List.getElem_map, Nat.mod_eq_of_lt (by omega),
        getElem!_pos l _ (by omega), Nat.add_comm (l.length / 2), List.getElem?_eq_getElem (by omega)]

theorem nodup_of_distinct {l : List Int} (h : nbDistinct l = l.length) : l.Nodup := by
  have h1 : (l.dedup.filter fun x => decide (x ≠ -1)).length ≤ l.dedup.length := List.length_filter_le _ _
  have h2 := (List.dedup_sublist l)
  have h3 := h2.length_le
  unfold nbDistinct at h
  have : l.dedup = l := h2.eq_of_length (by omega)
  rw [← this]
  exact List.nodup_dedup l

/-- **C105.** The simplification of a cell of dimension 2 removes the sides reduced to a point, and keeps the others, with their ends, their middle
nodes and their order.  The new cell is linear or quadratic as the old one, and is not longer. -/
theorem C105_sides (c : Cell) (hc : RightSize c) (h1 : c.nodes.length ≠ 1) :
    ∃ c', simplifyCell c = .ok c' ∧ edgesOf c'.type c'.nodes = (edgesOf c.type c.nodes).filter (fun e => decide (¬ NullSide e)) ∧
      RightSize c' ∧ quadType c'.type = quadType c.type ∧ c'.nodes.length ≤ c.nodes.length ∧
      (c' ≠ c → c' = ⟨if quadType c.type then (if c'.nodes.length = 6 then 6 else if c'.nodes.length = 8 then 8 else 32)
        else (if c'.nodes.length = 3 then 3 else if c'.nodes.length = 4 then 4 else 5), c'.nodes⟩) := by
  obtain ⟨cm, hcm, hd, hq, hk⟩ := rightSize_cases hc
  unfold simplifyCell
  rw [hcm, ok_bind]
  by_cases hn : nbDistinct c.nodes = c.nodes.length
  · rw [if_pos (Or.inr hn)]
    refine ⟨c, rfl, ?_, hc, rfl, le_rfl, fun h => absurd rfl h⟩
    rw [List.filter_eq_self.mpr]
    intro e he
    have hnd := nodup_of_distinct hn
    rw [edgesOf_eq hk (by split <;> omega)] at he
    obtain ⟨i, hi, rfl⟩ := List.mem_map.mp he
    have hi := List.mem_range.mp hi
    simp only [decide_eq_true_eq]
    rintro ⟨a, b⟩
    dsimp only at a b
    have get : ∀ j (hj : j < c.nodes.length), c.nodes[j]! = c.nodes[j] := fun j hj => getElem!_pos c.nodes j hj
    cases hqt : quadType c.type with
    | false =>
      simp only [hqt, Bool.false_eq_true, if_false] at hi a
      have hj : (i + 1) % c.nodes.length < c.nodes.length := Nat.mod_lt _ (by omega)
      rw [get i hi, get _ hj] at a
      have := (List.Nodup.getElem_inj_iff hnd).mp a
      by_cases h : i + 1 < c.nodes.length
      · rw [Nat.mod_eq_of_lt h] at this; omega
      · rw [show i + 1 = c.nodes.length by omega, Nat.mod_self] at this; omega
    | true =>
      simp only [hqt, if_true] at hi b
      rw [List.getElem?_eq_getElem (by omega), get i (by omega)] at b
      simp only [reduceCtorEq, false_or, Option.some.injEq] at b
      have := (List.Nodup.getElem_inj_iff hnd).mp b
      omega
  · rw [if_neg (by rw [hd]; simp [hn]), if_pos hd]
    refine ⟨_, rfl, ?_, ?_, ?_, ?_, ?_⟩
    · rw [hq]
      exact sides_zip (c := c) hk
    · have tab : ∀ q : Bool, ∀ n : Nat, ∃ cm, getCellModel (unPoly2DType q n) = .ok cm ∧ cm.dim = 2 ∧ (cm.dyn = false → n = cm.nbPts) := by
        intro q n
        cases q <;> simp only [unPoly2DType, Bool.false_eq_true, if_true, if_false] <;> split_ifs <;>
          exact ⟨_, rfl, rfl, by intro h; first | assumption | (exfalso; revert h; decide)⟩
      exact tab _ _
    · rw [hq]
      dsimp only
      cases quadType c.type <;> simp only [unPoly2DType, Bool.false_eq_true, if_true, if_false] <;> split_ifs <;> rfl
    · dsimp only
      unfold zipNodes
      have b1 : (keptLin c.nodes).length ≤ c.nodes.length := (List.length_filter_le _ _).trans (by simp)
      have b2 : (keptQuad c.nodes).length ≤ c.nodes.length / 2 := (List.length_filter_le _ _).trans (by simp)
      split
      · rw [List.length_append]
        have g1 : ((keptQuad c.nodes).filterMap fun i : Nat => c.nodes[i]?).length ≤ _ := List.length_filterMap_le _ _
        have g2 : ((keptQuad c.nodes).filterMap fun i : Nat => c.nodes[(i + c.nodes.length / 2) % c.nodes.length]?).length ≤ _ := List.length_filterMap_le _ _
        omega
      · have g1 : ((keptLin c.nodes).filterMap fun i : Nat => c.nodes[i]?).length ≤ _ := List.length_filterMap_le _ _
        omega
    · intro _
      rw [hq]
      rfl

end MC
