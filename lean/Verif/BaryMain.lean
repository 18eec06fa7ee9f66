import Verif.BaryThm

/-!
# C102: centers of mass of the cells of dimension 3
-/

namespace MC

section
variable {K : Type} [Field K]

/-- The volume of a solid from its faces, cut in tetrahedra from the point `o` -/
def solidVol (coords : List (List K)) (fs : List (List Int)) (o : Nat → K) : K :=
  (fs.map fun f => ((cycPairs f).map fun x =>
    tetV o (ptNode coords (f.headD 0)) (ptNode coords x.1) (ptNode coords x.2)).sum).sum

/-- The sum, over these tetrahedra, of the volume times the coordinate `k` of the center -/
def solidMom (coords : List (List K)) (fs : List (List Int)) (o : Nat → K) (k : Nat) : K :=
  (fs.map fun f => ((cycPairs f).map fun x =>
    tetV o (ptNode coords (f.headD 0)) (ptNode coords x.1) (ptNode coords x.2) *
      ((o k + ptNode coords (f.headD 0) k + ptNode coords x.1 k + ptNode coords x.2 k) / 4)).sum).sum

/-- `c` is the center of mass of the solid: wherever the solid is cut from. -/
def HasCenter3 (coords : List (List K)) (fs : List (List Int)) (c : List K) : Prop :=
  c.length = 3 ∧ ∀ (o : Nat → K), ∀ k < 3, solidVol coords fs o * tupPt c k = solidMom coords fs o k

/-- The faces of the cells of dimension 3 -/
inductive SolidOf : Int → List Int → List (List Int) → Prop
  | tetra (a b c d : Int) : SolidOf 14 [a, b, c, d] [[a, b, c], [a, d, b], [b, d, c], [c, d, a]]
  | pyra (a b c d e : Int) : SolidOf 15 [a, b, c, d, e] [[a, b, c, d], [a, e, b], [b, e, c], [c, e, d], [d, e, a]]
  | penta (a b c d e f : Int) :
      SolidOf 16 [a, b, c, d, e, f] [[a, b, c], [d, f, e], [a, c, f, d], [c, b, e, f], [b, a, d, e]]
  | hexa (a b c d e f g h : Int) :
      SolidOf 18 [a, b, c, d, e, f, g, h]
        [[a, b, c, d], [e, h, g, f], [a, d, h, e], [d, c, g, h], [c, b, f, g], [a, e, f, b]]
  | hexgp (a b c d e f g h i j k l : Int) :
      SolidOf 22 [a, b, c, d, e, f, g, h, i, j, k, l]
        [[a, b, c, d, e, f], [g, l, k, j, i, h], [a, g, h, b], [b, h, i, c], [c, i, j, d], [d, j, k, e], [e, k, l, f],
          [f, l, g, a]]
  | polyh (fs : List (List Int)) : fs ≠ [] → (∀ f ∈ fs, f ≠ []) → ClosedFaces fs → SolidOf 31 (joinFaces fs) fs

theorem SolidOf.closed {t : Int} {nodes : List Int} {fs : List (List Int)} (h : SolidOf t nodes fs) : ClosedFaces fs := by
  cases h with
  | tetra a b c d =>
    exact ClosedFaces.map (fun r : Nat => [a, b, c, d].getD r 0)
      (show ClosedFaces [[0, 1, 2], [0, 3, 1], [1, 3, 2], [2, 3, 0]] by unfold ClosedFaces; decide)
  | pyra a b c d e =>
    exact ClosedFaces.map (fun r : Nat => [a, b, c, d, e].getD r 0)
      (show ClosedFaces [[0, 1, 2, 3], [0, 4, 1], [1, 4, 2], [2, 4, 3], [3, 4, 0]] by unfold ClosedFaces; decide)
  | penta a b c d e f =>
    exact ClosedFaces.map (fun r : Nat => [a, b, c, d, e, f].getD r 0)
      (show ClosedFaces [[0, 1, 2], [3, 5, 4], [0, 2, 5, 3], [2, 1, 4, 5], [1, 0, 3, 4]] by unfold ClosedFaces; decide)
  | hexa a b c d e f g h =>
    exact ClosedFaces.map (fun r : Nat => [a, b, c, d, e, f, g, h].getD r 0)
      (show ClosedFaces [[0, 1, 2, 3], [4, 7, 6, 5], [0, 3, 7, 4], [3, 2, 6, 7], [2, 1, 5, 6], [0, 4, 5, 1]] by
        unfold ClosedFaces; decide)
  | hexgp a b c d e f g h i j k l =>
    exact ClosedFaces.map (fun r : Nat => [a, b, c, d, e, f, g, h, i, j, k, l].getD r 0)
      (show ClosedFaces [[0, 1, 2, 3, 4, 5], [6, 11, 10, 9, 8, 7], [0, 6, 7, 1], [1, 7, 8, 2], [2, 8, 9, 3], [3, 9, 10, 4],
        [4, 10, 11, 5], [5, 11, 6, 0]] by unfold ClosedFaces; decide)
  | polyh fs h1 h2 h3 => exact h3

theorem SolidOf.faces {t : Int} {nodes : List Int} {fs : List (List Int)} (h : SolidOf t nodes fs) :
    fs ≠ [] ∧ ∀ f ∈ fs, f ≠ [] := by
  cases h with
  | polyh fs h1 h2 h3 => exact ⟨h1, h2⟩
  | _ => simp

/-- The faces with their points -/
def facePts (coords : List (List K)) (fs : List (List Int)) : List (List (Nat → K)) := fs.map (List.map (ptNode coords))

theorem p0_map (coords : List (List K)) (f : List Int) (h : f ≠ []) : p0 (f.map (ptNode coords)) = ptNode coords (f.headD 0) := by
  obtain ⟨a, l, rfl⟩ := List.exists_cons_of_ne_nil h
  rfl

theorem faceSum_map (coords : List (List K)) (fs : List (List Int)) (hne : ∀ f ∈ fs, f ≠ [])
    (g : (Nat → K) → (Nat → K) → (Nat → K) → K) :
    ((facePts coords fs).map fun ps => edgeSum (fun a b => g (p0 ps) a b) ps).sum =
      (fs.map fun f => ((cycPairs f).map fun x => g (ptNode coords (f.headD 0)) (ptNode coords x.1) (ptNode coords x.2)).sum).sum := by
  unfold facePts
  rw [List.map_map]
  congr 1
  apply List.map_congr_left
  intro f hf
  simp only [Function.comp_apply]
  rw [edgeSum_cyc, cycPairs_map, List.map_map, p0_map coords f (hne f hf)]
  rfl

/-- The volume does not depend on where the solid is cut from: it is the measure of the polyhedron (C98). -/
theorem solidVol_eq [CharZero K] (coords : List (List K)) (fs : List (List Int)) (hne : ∀ f ∈ fs, f ≠ []) (hc : ClosedFaces fs)
    (o : Nat → K) : solidVol coords fs o = polyVol (facePts coords fs) := by
  rw [polyVol_from o (facePts coords fs) (hc.map (ptNode coords)), faceSum_map coords fs hne fun q a b => tetV o q a b]
  rfl

/-- The flux through the faces -/
def solidFlux (coords : List (List K)) (fs : List (List Int)) (k : Nat) : K :=
  ((facePts coords fs).map fun ps => edgeSum (fun a b => flux (p0 ps) a b k) ps).sum

theorem solidMom_eq [CharZero K] (coords : List (List K)) (fs : List (List Int)) (hne : ∀ f ∈ fs, f ≠ []) (hc : ClosedFaces fs)
    (o : Nat → K) (k : Nat) (hk : k < 3) : solidMom coords fs o k = solidFlux coords fs k := by
  unfold solidFlux
  rw [flux_from o (facePts coords fs) (hc.map (ptNode coords)) k hk, faceSum_map coords fs hne fun q a b => tetV o q a b * ((o k + q k + a k + b k) / 4)]
  rfl

/-- From one point to all points -/
theorem hasCenter3_of [CharZero K] (coords : List (List K)) (fs : List (List Int)) (hne : ∀ f ∈ fs, f ≠ [])
    (hc : ClosedFaces fs) (o : Nat → K) (c : List K) (hl : c.length = 3)
    (h : ∀ k < 3, solidVol coords fs o * tupPt c k = solidMom coords fs o k) : HasCenter3 coords fs c := by
  refine ⟨hl, fun o' k hk => ?_⟩
  rw [solidVol_eq coords fs hne hc, solidMom_eq coords fs hne hc o' k hk, ← solidVol_eq coords fs hne hc o,
    ← solidMom_eq coords fs hne hc o k hk]
  exact h k hk

end

section
variable {K : Type} [Field K] [LinearOrder K] [IsStrictOrderedRing K]

/-- A face of a polyhedron: plane, not too small, not nearly horizontal -/
structure RegFace (tiny eps : K) (ps : List (Nat → K)) : Prop where
  plane : PlanePts ps
  big : tiny * tiny < areaSq ps
  tilt : NotNearlyFlat eps ps

theorem norm3_ge {s : K → K} (hs : IsSqrtF s) {tiny : K} {ps : List (Nat → K)} (h : tiny * tiny < areaSq ps) :
    ¬ norm3 s (areaVector ps) < tiny := by
  intro hlt
  obtain ⟨h1, h2⟩ := hs (areaSq ps) (sq3_nonneg _ _ _)
  have h1' : 0 ≤ norm3 s (areaVector ps) := h1
  have : norm3 s (areaVector ps) * norm3 s (areaVector ps) ≤ tiny * tiny := mul_self_le_mul_self h1' hlt.le
  have e : norm3 s (areaVector ps) * norm3 s (areaVector ps) = areaSq ps := h2
  exact absurd h (not_lt.mpr (e ▸ this))

theorem momentLoop_join {s : K → K} (hs : IsSqrtF s) {tiny eps : K} (coords : List (List K)) (fs : List (List Int))
    (h : GoodFaces fs) (hv : ∀ f ∈ fs, ValidNodes coords f) (hb : ∀ f ∈ fs, tiny * tiny < areaSq (f.map (ptNode coords)))
    (res : Nat → K) :
    momentLoop s tiny eps coords fs.length (joinFaces fs) res =
      .ok fun k => res k + ((facePts coords fs).map fun ps => faceMoment s eps ps (norm3 s (areaVector ps)) k).sum := by
  induction fs generalizing res with
  | nil => simp [momentLoop, facePts]
  | cons f fs ih =>
    have hf := h f (by simp)
    have hvf := hv f (by simp)
    have hbf := hb f (by simp)
    have ih' := ih (fun x hx => h x (by simp [hx])) (fun x hx => hv x (by simp [hx])) fun x hx => hb x (by simp [hx])
    obtain ⟨a, f', rfl⟩ := List.exists_cons_of_ne_nil hf.1
    have hf' : ∀ n ∈ f', n ≠ -1 := fun n hn => hf.2 n (by simp [hn])
    have hpts : nodePts coords (a :: f') (a :: f').length = .ok ((a :: f').map (ptNode coords)) := by
      rw [nodePts_all, if_pos hvf]
    have hnf : nextFace (joinFaces ((a :: f') :: fs)) = .ok (a :: f', joinFaces fs) := by
      cases fs with
      | nil =>
        simp only [joinFaces, nextFace]
        rw [(takeWhile_nosep f' hf').1, (takeWhile_nosep f' hf').2]
        rfl
      | cons g fs =>
        have e : joinFaces ((a :: f') :: g :: fs) = a :: (f' ++ -1 :: joinFaces (g :: fs)) := rfl
        rw [e]
        simp only [nextFace]
        rw [(takeWhile_all_app f' _ hf').1, (takeWhile_all_app f' _ hf').2]
        rfl
    show momentLoop s tiny eps coords (fs.length + 1) _ res = _
    rw [momentLoop, hnf, ok_bind, hpts, ok_bind]
    simp only
    rw [if_neg (norm3_ge hs hbf), ih']
    congr 1
    funext k
    simp only [facePts, List.map_cons, List.sum_cons]
    ring

/-- The center of a polyhedron with plane faces -/
theorem baryPolyh_join {s : K → K} (hs : IsSqrtF s) {tiny eps : K} (ht : 0 ≤ tiny) (he : 0 ≤ eps) (coords : List (List K))
    (fs : List (List Int)) (hne : fs ≠ []) (h : GoodFaces fs) (hv : ∀ f ∈ fs, ValidNodes coords f)
    (hr : ∀ f ∈ fs, RegFace tiny eps (f.map (ptNode coords))) (hV : tiny < |polyVol (facePts coords fs)|) :
    ∃ c : Nat → K, baryPolyh s tiny eps coords (joinFaces fs) = .ok c ∧
      ∀ k < 3, polyVol (facePts coords fs) * c k = solidFlux coords fs k := by
  have hV0 : polyVol (facePts coords fs) ≠ 0 := by
    intro h0
    rw [h0, abs_zero] at hV
    exact absurd hV (not_lt.mpr ht)
  have hvol : volPolyh coords (joinFaces fs) = .ok (polyVol (facePts coords fs)) := by
    rw [volPolyh_join coords fs h hne]
    exact if_pos hv
  refine ⟨fun k => (0 + ((facePts coords fs).map fun ps => faceMoment s eps ps (norm3 s (areaVector ps)) k).sum) /
    polyVol (facePts coords fs), ?_, ?_⟩
  · unfold baryPolyh
    simp only
    rw [count_joinFaces1 fs h hne, momentLoop_join hs coords fs h hv (fun f hf => (hr f hf).big), ok_bind, hvol, ok_bind,
      if_pos hV]
  · intro k hk
    simp only
    rw [mul_div_cancel₀ _ hV0, zero_add]
    unfold solidFlux
    congr 1
    apply List.map_congr_left
    intro ps hps
    obtain ⟨f, hf, rfl⟩ := List.mem_map.mp hps
    have hr' := hr f hf
    have : areaSq (f.map (ptNode coords)) ≠ 0 := (lt_of_le_of_lt (mul_nonneg ht ht) hr'.big).ne'
    exact faceMoment_flux hs he _ hr'.plane this hr'.tilt k hk

/-- What is asked of the cell: nothing of a tetrahedron; the base of a pyramid is plane and its triangles are not too small;
the faces of the other cells are plane, not too small, not nearly horizontal, and the volume is not too small. -/
def SolidReg (tiny eps : K) (coords : List (List K)) (t : Int) (fs : List (List Int)) : Prop :=
  if t = 14 then True
  else if t = 15 then
    ∀ f ∈ fs.head?, PlanePts (f.map (ptNode coords)) ∧ tiny * tiny < areaSq (f.map (ptNode coords)) ∧
      NoSmallTriangle eps (f.map (ptNode coords))
  else (∀ f ∈ fs, RegFace tiny eps (f.map (ptNode coords))) ∧ tiny < |solidVol coords fs fun _ => 0|

theorem ranks_hexa (a b c d e f g h : Int) :
    ranksToConn hexa8BaryFaces [a, b, c, d, e, f, g, h] =
      .ok (joinFaces [[a, b, c, d], [e, h, g, f], [a, d, h, e], [d, c, g, h], [c, b, f, g], [a, e, f, b]]) := by
  rfl

theorem ranks_penta (a b c d e f : Int) :
    ranksToConn penta6BaryFaces [a, b, c, d, e, f] =
      .ok (joinFaces [[a, b, c], [d, f, e], [a, c, f, d], [c, b, e, f], [b, a, d, e]]) := by
  rfl

theorem ranks_hexgp (a b c d e f g h i j k l : Int) :
    hexgp12Conn [a, b, c, d, e, f, g, h, i, j, k, l] =
      .ok (joinFaces [[a, b, c, d, e, f], [g, l, k, j, i, h], [a, g, h, b], [b, h, i, c], [c, i, j, d], [d, j, k, e],
        [e, k, l, f], [f, l, g, a]]) := by
  rfl

theorem cellBary_polyh (arcs : BaryArcs K) {s : K → K} (hs : IsSqrtF s) {tiny eps : K} (ht : 0 ≤ tiny) (he : 0 ≤ eps)
    (coords : List (List K)) (t : Int) (nodes : List Int) (fs : List (List Int))
    (hbr : cellBaryF arcs s tiny eps 3 coords t nodes = baryPolyh s tiny eps coords (joinFaces fs)) (hne : fs ≠ [])
    (hfne : ∀ f ∈ fs, f ≠ []) (hc : ClosedFaces fs) (hv : ∀ f ∈ fs, ValidNodes coords f)
    (hr : (∀ f ∈ fs, RegFace tiny eps (f.map (ptNode coords))) ∧ tiny < |solidVol coords fs fun _ => 0|) :
    ∃ c, cellBary arcs s tiny eps 3 coords t nodes = .ok c ∧ HasCenter3 coords fs c := by
  have hg : GoodFaces fs := fun f hf => ⟨hfne f hf, fun n hn h1 => by
    have := (hv f hf n hn).1
    omega⟩
  rw [solidVol_eq coords fs hfne hc] at hr
  obtain ⟨c, h1, h2⟩ := baryPolyh_join hs ht he coords fs hne hg hv hr.1 hr.2
  refine ⟨(List.range 3).map c, by unfold cellBary; rw [hbr, h1]; rfl, by simp, ?_⟩
  intro o k hk
  rw [solidVol_eq coords fs hfne hc, solidMom_eq coords fs hfne hc o k hk]
  rw [← h2 k hk]
  congr 1
  have hk3 : k = 0 ∨ k = 1 ∨ k = 2 := by omega
  rcases hk3 with rfl | rfl | rfl <;> rfl

theorem tetV_same (o a b : Nat → K) : tetV o o a b = 0 ∧ tetV o a o b = 0 ∧ tetV o a b o = 0 := by
  refine ⟨?_, ?_, ?_⟩ <;>
    simp only [tetV, triV, if_true, if_false, one_ne_zero, OfNat.ofNat_ne_zero, OfNat.ofNat_ne_one] <;> ring

theorem tetV_rep (o q a : Nat → K) : tetV o q q a = 0 ∧ tetV o q a q = 0 := by
  refine ⟨?_, ?_⟩ <;>
    simp only [tetV, triV, if_true, if_false, one_ne_zero, OfNat.ofNat_ne_zero, OfNat.ofNat_ne_one] <;> ring

/-- **C102.** The center of a cell of dimension 3 with plane faces is its center of mass. -/
theorem C102_center_of_mass_of_solids (arcs : BaryArcs K) {s : K → K} (hs : IsSqrtF s) {tiny eps : K} (ht : 0 ≤ tiny)
    (he : 0 ≤ eps) (coords : List (List K)) (t : Int) (nodes : List Int) (fs : List (List Int)) (h : SolidOf t nodes fs)
    (hv : ∀ f ∈ fs, ValidNodes coords f) (hr : SolidReg tiny eps coords t fs) :
    ∃ c, cellBary arcs s tiny eps 3 coords t nodes = .ok c ∧ HasCenter3 coords fs c := by
  have hcl := h.closed
  obtain ⟨hne, hfne⟩ := h.faces
  cases h with
  | tetra a b c d =>
    have hva : ValidNodes coords [a, b, c, d] := by
      have h1 := hv [a, b, c] (by simp)
      have h2 := hv [a, d, b] (by simp)
      intro n hn
      simp only [List.mem_cons, List.not_mem_nil, or_false] at hn
      rcases hn with rfl | rfl | rfl | rfl
      · exact h1 _ (by simp)
      · exact h1 _ (by simp)
      · exact h1 _ (by simp)
      · exact h2 _ (by simp)
    have hb : cellBaryF arcs s tiny eps 3 coords 14 [a, b, c, d] = .ok (meanPts ([a, b, c, d].map (ptNode coords))) := by
      have : nodePts coords [a, b, c, d] 4 = .ok ([a, b, c, d].map (ptNode coords)) := by
        have := nodePts_all coords [a, b, c, d]
        rw [if_pos hva] at this
        exact this
      simp [cellBaryF, this, ok_bind]
    refine ⟨(List.range 3).map (meanPts ([a, b, c, d].map (ptNode coords))), by unfold cellBary; rw [hb]; rfl, ?_⟩
    refine hasCenter3_of coords _ hfne hcl (ptNode coords d) _ (by simp) ?_
    intro k hk
    have e : tupPt ((List.range 3).map (meanPts ([a, b, c, d].map (ptNode coords)))) k =
        (ptNode coords a k + (ptNode coords b k + (ptNode coords c k + ptNode coords d k))) / 4 := by
      have hk3 : k = 0 ∨ k = 1 ∨ k = 2 := by omega
      rcases hk3 with rfl | rfl | rfl <;> simp [tupPt, meanPts, List.range_succ]
    rw [e]
    simp only [solidVol, solidMom, List.map_cons, List.map_nil, List.sum_cons, List.sum_nil, List.headD_cons, cycPairs,
      List.tail_cons, List.take_succ_cons, List.take_zero, List.cons_append, List.nil_append, List.zip_cons_cons, List.zip_nil_left,
      tetV_same, tetV_rep, zero_mul, add_zero, zero_add]
    ring
  | pyra a b c d e =>
    have hva : ValidNodes coords [a, b, c, d] := hv _ (by simp)
    have hve : 0 ≤ e ∧ e < coords.length := hv [a, e, b] (by simp) e (by simp)
    have hr' : PlanePts ([a, b, c, d].map (ptNode coords)) ∧ tiny * tiny < areaSq ([a, b, c, d].map (ptNode coords)) ∧
        NoSmallTriangle eps ([a, b, c, d].map (ptNode coords)) := by
      simp only [SolidReg] at hr
      exact hr [a, b, c, d] rfl
    obtain ⟨c0, hc0, hc1⟩ := baryPolyg3_plane hs ht he _ hr'.1 hr'.2.1 hr'.2.2
    have hb : cellBaryF arcs s tiny eps 3 coords 15 [a, b, c, d, e] = .ok fun k => (ptNode coords e k + 3 * c0 k) / 4 := by
      have h1 : nodePts coords [a, b, c, d, e] 4 = .ok ([a, b, c, d].map (ptNode coords)) := by
        rw [nodePts_char, if_pos ⟨by simp, hva⟩]
        rfl
      have h2 : rd [a, b, c, d, e] 4 = .ok e := rfl
      have h3 : nodePt coords e = .ok (ptNode coords e) := by rw [nodePt_char, if_pos hve]
      simp only [cellBaryF]
      show (do
        let ps ← nodePts coords [a, b, c, d, e] 4
        let y ← baryPolyg3 s tiny eps ps
        let z ← rd [a, b, c, d, e] 4
        let p ← nodePt coords z
        Except.ok fun k => (p k + 3 * y k) / 4 : M (Nat → K)) = _
      rw [h1, ok_bind, hc0, ok_bind, h2, ok_bind, h3, ok_bind]
    refine ⟨(List.range 3).map fun k => (ptNode coords e k + 3 * c0 k) / 4, by unfold cellBary; rw [hb]; rfl, ?_⟩
    refine hasCenter3_of coords _ hfne hcl (ptNode coords e) _ (by simp) ?_
    intro k hk
    have ek : tupPt ((List.range 3).map fun k => (ptNode coords e k + 3 * c0 k) / 4) k = (ptNode coords e k + 3 * c0 k) / 4 := by
      have hk3 : k = 0 ∨ k = 1 ∨ k = 2 := by omega
      rcases hk3 with rfl | rfl | rfl <;> rfl
    rw [ek]
    have hd : ∀ j < 3, _ := fun j hj => hc1 (ptNode coords a) (by simp [p0, ptRk]) j hj k hk
    have d0 := hd 0 (by omega)
    have d1 := hd 1 (by omega)
    have d2 := hd 2 (by omega)
    rw [areaVector_from (ptNode coords a) _ _ (by omega)] at d0 d1 d2
    simp only [edgeSum_cyc, List.map_cons, List.map_nil, List.sum_cons, List.sum_nil, cycPairs, List.tail_cons,
      List.take_succ_cons, List.take_zero, List.cons_append, List.nil_append, List.zip_cons_cons, List.zip_nil_left,
      triV_same, zero_mul, add_zero, zero_add] at d0 d1 d2
    simp only [solidVol, solidMom, List.map_cons, List.map_nil, List.sum_cons, List.sum_nil, List.headD_cons, cycPairs,
      List.tail_cons, List.take_succ_cons, List.take_zero, List.cons_append, List.nil_append, List.zip_cons_cons, List.zip_nil_left,
      tetV_same, tetV_rep, zero_mul, add_zero, zero_add]
    simp only [tetV]
    linear_combination (ptNode coords a 0 - ptNode coords e 0) / 8 * d0 + (ptNode coords a 1 - ptNode coords e 1) / 8 * d1 +
      (ptNode coords a 2 - ptNode coords e 2) / 8 * d2
  | penta a b c d e f =>
    refine cellBary_polyh arcs hs ht he coords 16 _ _ ?_ hne hfne hcl hv (by simpa [SolidReg] using hr)
    simp only [cellBaryF]
    rw [ranks_penta]
    rfl
  | hexa a b c d e f g h =>
    refine cellBary_polyh arcs hs ht he coords 18 _ _ ?_ hne hfne hcl hv (by simpa [SolidReg] using hr)
    simp only [cellBaryF]
    rw [ranks_hexa]
    rfl
  | hexgp a b c d e f g h i j k l =>
    refine cellBary_polyh arcs hs ht he coords 22 _ _ ?_ hne hfne hcl hv (by simpa [SolidReg] using hr)
    simp only [cellBaryF]
    rw [ranks_hexgp]
    rfl
  | polyh fs h1 h2 h3 =>
    refine cellBary_polyh arcs hs ht he coords 31 _ _ ?_ hne hfne hcl hv (by simpa [SolidReg] using hr)
    simp [cellBaryF]

/-! ## What follows -/

theorem tetV_aff (A : Nat → Nat → K) (b o p q r : Nat → K) :
    tetV (affPt 3 A b o) (affPt 3 A b p) (affPt 3 A b q) (affPt 3 A b r) = det3 A * tetV o p q r := by
  simp only [tetV, triV, affPt3 _ _ _ _ (show 0 < 3 by omega), affPt3 _ _ _ _ (show 1 < 3 by omega),
    affPt3 _ _ _ _ (show 2 < 3 by omega), det3, if_true, if_false, one_ne_zero, OfNat.ofNat_ne_zero, OfNat.ofNat_ne_one]
  ring

theorem ptNode_aff (sd : Nat) (A : Nat → Nat → K) (b : Nat → K) (coords : List (List K)) (n : Int)
    (h : 0 ≤ n ∧ n < coords.length) : ptNode (coords.map (affL sd A b)) n = affPt sd A b (ptNode coords n) := by
  unfold ptNode
  obtain ⟨m, rfl⟩ := Int.eq_ofNat_of_zero_le h.1
  have hm : m < coords.length := by omega
  simp only [Int.toNat_natCast]
  rw [getD_of_lt _ (by simpa using hm), getD_of_lt _ hm, List.getElem_map, tupPt_affL]

theorem center3_of_ok (arcs : BaryArcs K) {s : K → K} (hs : IsSqrtF s) {tiny eps : K} (ht : 0 ≤ tiny)
    (he : 0 ≤ eps) {coords : List (List K)} {t : Int} {nodes : List Int} {fs : List (List Int)} (h : SolidOf t nodes fs)
    (hv : ∀ f ∈ fs, ValidNodes coords f) (hr : SolidReg tiny eps coords t fs) {c : List K}
    (hc : cellBary arcs s tiny eps 3 coords t nodes = .ok c) : HasCenter3 coords fs c := by
  obtain ⟨c', h1, h2⟩ := C102_center_of_mass_of_solids arcs hs ht he coords t nodes fs h hv hr
  rw [hc] at h1
  cases h1
  exact h2

theorem list3_ext {c c' : List K} (h : c.length = 3) (h' : c'.length = 3) (he : ∀ k < 3, tupPt c k = tupPt c' k) : c = c' := by
  apply List.ext_getElem (by rw [h, h'])
  intro k h1 h2
  have := he k (by omega)
  unfold tupPt at this
  rwa [getD_of_lt _ h1, getD_of_lt _ h2] at this

theorem headD_mem {f : List Int} (h : f ≠ []) : f.headD 0 ∈ f := by
  obtain ⟨a, l, rfl⟩ := List.exists_cons_of_ne_nil h
  simp

theorem solidVol_aff (A : Nat → Nat → K) (b : Nat → K) (coords : List (List K)) (fs : List (List Int))
    (hne : ∀ f ∈ fs, f ≠ []) (hv : ∀ f ∈ fs, ValidNodes coords f) (o : Nat → K) :
    solidVol (coords.map (affL 3 A b)) fs (affPt 3 A b o) = det3 A * solidVol coords fs o := by
  unfold solidVol
  rw [← sum_map_mul_list]
  congr 1
  apply List.map_congr_left
  intro f hf
  rw [← sum_map_mul_list]
  congr 1
  apply List.map_congr_left
  intro x hx
  obtain ⟨m1, m2⟩ := mem_cycPairs hx
  rw [ptNode_aff 3 A b coords _ (hv f hf _ (headD_mem (hne f hf))), ptNode_aff 3 A b coords _ (hv f hf _ m1),
    ptNode_aff 3 A b coords _ (hv f hf _ m2), tetV_aff]

/-- Moment of an affine form -/
theorem solidMom_aff (A : Nat → Nat → K) (b : Nat → K) (coords : List (List K)) (fs : List (List Int))
    (hne : ∀ f ∈ fs, f ≠ []) (hv : ∀ f ∈ fs, ValidNodes coords f) (o : Nat → K) (k : Nat) (hk : k < 3) :
    solidMom (coords.map (affL 3 A b)) fs (affPt 3 A b o) k =
      det3 A * (A k 0 * solidMom coords fs o 0 + A k 1 * solidMom coords fs o 1 + A k 2 * solidMom coords fs o 2 +
        b k * solidVol coords fs o) := by
  unfold solidMom solidVol
  simp only [← sum_map_mul_list, ← sum_map_add_list]
  congr 1
  apply List.map_congr_left
  intro f hf
  congr 1
  apply List.map_congr_left
  intro x hx
  obtain ⟨m1, m2⟩ := mem_cycPairs hx
  rw [ptNode_aff 3 A b coords _ (hv f hf _ (headD_mem (hne f hf))), ptNode_aff 3 A b coords _ (hv f hf _ m1),
    ptNode_aff 3 A b coords _ (hv f hf _ m2), tetV_aff]
  simp only [affPt3 _ _ _ _ hk]
  ring

/-- **C102.** The centers of mass of cells of dimension 3 follow the affine maps. -/
theorem C102_centers_of_solids_follow_affine_maps (arcs : BaryArcs K) {s : K → K} (hs : IsSqrtF s) {tiny eps : K}
    (ht : 0 ≤ tiny) (he : 0 ≤ eps) (A : Nat → Nat → K) (b : Nat → K) (hA : det3 A ≠ 0) (coords : List (List K)) (t : Int)
    (nodes : List Int) (fs : List (List Int)) (h : SolidOf t nodes fs) (hv : ∀ f ∈ fs, ValidNodes coords f)
    (hr : SolidReg tiny eps coords t fs) (hr' : SolidReg tiny eps (coords.map (affL 3 A b)) t fs)
    (hV : solidVol coords fs (fun _ => 0) ≠ 0) :
    cellBary arcs s tiny eps 3 (coords.map (affL 3 A b)) t nodes =
      (cellBary arcs s tiny eps 3 coords t nodes).map (affL 3 A b) := by
  obtain ⟨_, hfne⟩ := h.faces
  have hv' : ∀ f ∈ fs, ValidNodes (coords.map (affL 3 A b)) f := fun f hf n hn => by
    simpa using hv f hf n hn
  obtain ⟨c, h1, h2⟩ := C102_center_of_mass_of_solids arcs hs ht he coords t nodes fs h hv hr
  obtain ⟨c', h1', h2'⟩ := C102_center_of_mass_of_solids arcs hs ht he _ t nodes fs h hv' hr'
  rw [h1, h1']
  show (Except.ok c' : M (List K)) = .ok (affL 3 A b c)
  congr 1
  refine list3_ext h2'.1 (by simp [affL]) ?_
  intro k hk
  have e := h2'.2 (affPt 3 A b fun _ => 0) k hk
  rw [solidVol_aff A b coords fs hfne hv, solidMom_aff A b coords fs hfne hv _ k hk, ← h2.2 _ 0 (by omega),
    ← h2.2 _ 1 (by omega), ← h2.2 _ 2 (by omega)] at e
  rw [tupPt_affL, affPt3 _ _ _ _ hk]
  apply mul_left_cancel₀ (mul_ne_zero hA hV)
  rw [e]
  ring

/-- **C102.** The center of a cell which is seen as a whole from one of its points is in every half-space which contains the
nodes of the cell and this point; when the cell is convex, it is in the cell. -/
theorem C102_center_of_a_solid_is_inside (arcs : BaryArcs K) {s : K → K} (hs : IsSqrtF s) {tiny eps : K}
    (ht : 0 ≤ tiny) (he : 0 ≤ eps) (coords : List (List K)) (t : Int)
    (nodes : List Int) (fs : List (List Int)) (h : SolidOf t nodes fs) (hv : ∀ f ∈ fs, ValidNodes coords f)
    (hr : SolidReg tiny eps coords t fs) (hV : solidVol coords fs (fun _ => 0) ≠ 0) (o : Nat → K) (sg : K)
    (hsg : sg = 1 ∨ sg = -1)
    (hst : ∀ f ∈ fs, ∀ x ∈ cycPairs f, 0 ≤ sg * tetV o (ptNode coords (f.headD 0)) (ptNode coords x.1) (ptNode coords x.2))
    (al : Nat → K) (m : K) (ho : m ≤ al 0 * o 0 + al 1 * o 1 + al 2 * o 2)
    (hm : ∀ f ∈ fs, ∀ n ∈ f, m ≤ al 0 * ptNode coords n 0 + al 1 * ptNode coords n 1 + al 2 * ptNode coords n 2) (c : List K)
    (hc : cellBary arcs s tiny eps 3 coords t nodes = .ok c) :
    m ≤ al 0 * tupPt c 0 + al 1 * tupPt c 1 + al 2 * tupPt c 2 := by
  have hcen := center3_of_ok arcs hs ht he h hv hr hc
  obtain ⟨_, hfne⟩ := h.faces
  have hVo : solidVol coords fs o = solidVol coords fs fun _ => 0 := by
    rw [solidVol_eq coords fs hfne h.closed, solidVol_eq coords fs hfne h.closed]
  have hsum : 0 ≤ sg * (al 0 * solidMom coords fs o 0 + al 1 * solidMom coords fs o 1 + al 2 * solidMom coords fs o 2 -
      m * solidVol coords fs o) := by
    have e : sg * (al 0 * solidMom coords fs o 0 + al 1 * solidMom coords fs o 1 + al 2 * solidMom coords fs o 2 -
        m * solidVol coords fs o) = (fs.map fun f => ((cycPairs f).map fun x =>
          sg * tetV o (ptNode coords (f.headD 0)) (ptNode coords x.1) (ptNode coords x.2) *
            (((al 0 * o 0 + al 1 * o 1 + al 2 * o 2 - m) +
              (al 0 * ptNode coords (f.headD 0) 0 + al 1 * ptNode coords (f.headD 0) 1 + al 2 * ptNode coords (f.headD 0) 2 - m) +
              (al 0 * ptNode coords x.1 0 + al 1 * ptNode coords x.1 1 + al 2 * ptNode coords x.1 2 - m) +
              (al 0 * ptNode coords x.2 0 + al 1 * ptNode coords x.2 1 + al 2 * ptNode coords x.2 2 - m)) / 4)).sum).sum := by
      rw [sub_eq_add_neg, neg_mul_eq_neg_mul]
      unfold solidMom solidVol
      simp only [← sum_map_mul_list, ← sum_map_add_list]
      congr 1
      apply List.map_congr_left
      intro f _
      congr 1
      apply List.map_congr_left
      intro x _
      ring
    rw [e]
    apply List.sum_nonneg
    intro y hy
    obtain ⟨f, hf, rfl⟩ := List.mem_map.mp hy
    apply List.sum_nonneg
    intro z hz
    obtain ⟨x, hx, rfl⟩ := List.mem_map.mp hz
    obtain ⟨m1, m2⟩ := mem_cycPairs hx
    have a1 := hm f hf _ (headD_mem (hfne f hf))
    have a2 := hm f hf _ m1
    have a3 := hm f hf _ m2
    apply mul_nonneg (hst f hf x hx)
    linarith
  have hvol : 0 ≤ sg * solidVol coords fs o := by
    unfold solidVol
    simp only [← sum_map_mul_list]
    apply List.sum_nonneg
    intro y hy
    obtain ⟨f, hf, rfl⟩ := List.mem_map.mp hy
    apply List.sum_nonneg
    intro z hz
    obtain ⟨x, hx, rfl⟩ := List.mem_map.mp hz
    exact hst f hf x hx
  have hsg0 : sg ≠ 0 := by rcases hsg with rfl | rfl <;> norm_num
  have hvp : 0 < sg * solidVol coords fs o := lt_of_le_of_ne hvol (Ne.symm (mul_ne_zero hsg0 (hVo ▸ hV)))
  rw [← hcen.2 o 0 (by omega), ← hcen.2 o 1 (by omega), ← hcen.2 o 2 (by omega)] at hsum
  have e : sg * (al 0 * (solidVol coords fs o * tupPt c 0) + al 1 * (solidVol coords fs o * tupPt c 1) +
      al 2 * (solidVol coords fs o * tupPt c 2) - m * solidVol coords fs o) =
      (sg * solidVol coords fs o) * (al 0 * tupPt c 0 + al 1 * tupPt c 1 + al 2 * tupPt c 2 - m) := by ring
  rw [e] at hsum
  have := nonneg_of_mul_nonneg_right hsum hvp
  linarith

/-- **C102.** The order of the faces of a polyhedron does not matter. -/
theorem C102_center_whatever_the_order_of_faces (arcs : BaryArcs K) {s : K → K} (hs : IsSqrtF s) {tiny eps : K}
    (ht : 0 ≤ tiny) (he : 0 ≤ eps) (coords : List (List K)) (fs gs : List (List Int)) (hp : gs.Perm fs)
    (h : SolidOf 31 (joinFaces fs) fs) (hv : ∀ f ∈ fs, ValidNodes coords f) (hr : SolidReg tiny eps coords 31 fs) :
    cellBary arcs s tiny eps 3 coords 31 (joinFaces gs) = cellBary arcs s tiny eps 3 coords 31 (joinFaces fs) := by
  obtain ⟨hne, hfne⟩ := h.faces
  have hcl := h.closed
  have hclg : ClosedFaces gs := by
    unfold ClosedFaces at hcl ⊢
    exact ((hp.flatMap_right cycPairs).trans hcl).trans ((hp.flatMap_right cycPairs).map Prod.swap).symm
  have hvol : ∀ o, solidVol coords gs o = solidVol coords fs o := fun o => sum_map_perm _ hp
  have hmom : ∀ o k, solidMom coords gs o k = solidMom coords fs o k := fun o k => sum_map_perm _ hp
  have hg : SolidOf 31 (joinFaces gs) gs :=
    SolidOf.polyh gs (fun h0 => hne (by rw [h0] at hp; exact hp.symm.eq_nil)) (fun f hf => hfne f (hp.mem_iff.mp hf)) hclg
  have hr2 : (∀ f ∈ fs, RegFace tiny eps (f.map (ptNode coords))) ∧ tiny < |solidVol coords fs fun _ => 0| := by
    simpa [SolidReg] using hr
  have hrg : SolidReg tiny eps coords 31 gs := by
    simp only [SolidReg]
    exact ⟨fun f hf => hr2.1 f (hp.mem_iff.mp hf), by rw [hvol]; exact hr2.2⟩
  obtain ⟨c, h1, h2⟩ := C102_center_of_mass_of_solids arcs hs ht he coords 31 _ fs h hv hr
  obtain ⟨c', h1', h2'⟩ := C102_center_of_mass_of_solids arcs hs ht he coords 31 _ gs hg
    (fun f hf => hv f (hp.mem_iff.mp hf)) hrg
  rw [h1, h1']
  congr 1
  refine list3_ext h2'.1 h2.1 fun k hk => ?_
  have hV : solidVol coords fs (fun _ => 0) ≠ 0 := by
    intro h0
    rw [h0, abs_zero] at hr2
    exact absurd hr2.2 (not_lt.mpr ht)
  apply mul_left_cancel₀ hV
  rw [h2.2 _ k hk, ← hmom, ← h2'.2 _ k hk, hvol]

/-- **C102.** A polyhedron cut in two by a face: the volumes times the centers add. -/
theorem C102_cutting_a_polyhedron (arcs : BaryArcs K) {s : K → K} (hs : IsSqrtF s) {tiny eps : K}
    (ht : 0 ≤ tiny) (he : 0 ≤ eps) (coords : List (List K)) (fs gs : List (List Int)) (a : Int) (l : List Int)
    (h1 : SolidOf 31 (joinFaces (fs ++ [a :: l])) (fs ++ [a :: l]))
    (h2 : SolidOf 31 (joinFaces (gs ++ [a :: l.reverse])) (gs ++ [a :: l.reverse]))
    (h : SolidOf 31 (joinFaces (fs ++ gs)) (fs ++ gs))
    (hv1 : ∀ f ∈ fs ++ [a :: l], ValidNodes coords f) (hv2 : ∀ f ∈ gs ++ [a :: l.reverse], ValidNodes coords f)
    (hr1 : SolidReg tiny eps coords 31 (fs ++ [a :: l])) (hr2 : SolidReg tiny eps coords 31 (gs ++ [a :: l.reverse]))
    (hr : SolidReg tiny eps coords 31 (fs ++ gs)) :
    ∃ c c1 c2, cellBary arcs s tiny eps 3 coords 31 (joinFaces (fs ++ gs)) = .ok c ∧
      cellBary arcs s tiny eps 3 coords 31 (joinFaces (fs ++ [a :: l])) = .ok c1 ∧
      cellBary arcs s tiny eps 3 coords 31 (joinFaces (gs ++ [a :: l.reverse])) = .ok c2 ∧
      ∀ o, solidVol coords (fs ++ gs) o = solidVol coords (fs ++ [a :: l]) o + solidVol coords (gs ++ [a :: l.reverse]) o ∧
        ∀ k < 3, solidVol coords (fs ++ gs) o * tupPt c k =
          solidVol coords (fs ++ [a :: l]) o * tupPt c1 k + solidVol coords (gs ++ [a :: l.reverse]) o * tupPt c2 k := by
  have hv : ∀ f ∈ fs ++ gs, ValidNodes coords f := by
    intro f hf
    rcases List.mem_append.mp hf with hf | hf
    · exact hv1 f (by simp [hf])
    · exact hv2 f (by simp [hf])
  obtain ⟨c, e, g⟩ := C102_center_of_mass_of_solids arcs hs ht he coords 31 _ _ h hv hr
  obtain ⟨c1, e1, g1⟩ := C102_center_of_mass_of_solids arcs hs ht he coords 31 _ _ h1 hv1 hr1
  obtain ⟨c2, e2, g2⟩ := C102_center_of_mass_of_solids arcs hs ht he coords 31 _ _ h2 hv2 hr2
  refine ⟨c, c1, c2, e, e1, e2, fun o => ?_⟩
  have anti : ∀ q x y : Nat → K, tetV o q y x = -tetV o q x y := by
    intro q x y
    simp only [tetV, triV, if_true, if_false, one_ne_zero, OfNat.ofNat_ne_zero, OfNat.ofNat_ne_one]
    ring
  have hrev : ∀ E : Int × Int → K, (∀ x, E x.swap = -E x) →
      ((cycPairs (a :: l.reverse)).map E).sum = -((cycPairs (a :: l)).map E).sum := by
    intro E hE
    rw [cycPairs_inv a l, List.map_reverse, List.sum_reverse, List.map_map]
    have : E ∘ Prod.swap = fun x => (-1) * E x := by
      funext x
      simp [hE]
    rw [this, sum_map_mul_list]
    ring
  have hvol : solidVol coords (fs ++ gs) o =
      solidVol coords (fs ++ [a :: l]) o + solidVol coords (gs ++ [a :: l.reverse]) o := by
    simp only [solidVol, List.map_append, List.sum_append, List.map_cons, List.map_nil, List.sum_cons, List.sum_nil,
      List.headD_cons]
    rw [hrev _ fun x => by simp only [Prod.fst_swap, Prod.snd_swap]; exact anti _ _ _]
    ring
  refine ⟨hvol, fun k hk => ?_⟩
  rw [g.2 o k hk, g1.2 o k hk, g2.2 o k hk]
  simp only [solidMom, List.map_append, List.sum_append, List.map_cons, List.map_nil, List.sum_cons, List.sum_nil,
    List.headD_cons]
  rw [hrev _ fun x => by
    simp only [Prod.fst_swap, Prod.snd_swap]
    rw [anti]
    ring]
  ring

end

end MC
