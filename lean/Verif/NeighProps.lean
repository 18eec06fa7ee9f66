import Verif.Neigh
import Verif.DescThm
import Verif.IndexProps
import Verif.ScanProps

/-!
# C66: neighbours of the cells, connected zones
-/

namespace MC
section

/-- C66: what `ComputeNeighborsOfCellsAdv` gives for any pair of correspondences (the users may filter the faces): the group of a cell
is made of one block per face of the cell, in order, with the other owners of the face in increasing order. -/
theorem C66_adv {desc descI revDesc revDescI : List Int} {D R : List (List Int)} (hD : IsSky desc descI D) (hR : IsSky revDesc revDescI R)
    (hf : ∀ d ∈ D, ∀ f ∈ d, 0 ≤ f ∧ f < (R.length : Int)) :
    ∃ (arr idx : List Int) (G : List (List Int)), computeNeighborsOfCellsAdv desc descI revDesc revDescI = .ok (arr, idx) ∧ IsSky arr idx G ∧
      G.length = D.length ∧ ∀ (i : Nat) (d : List Int), D[i]? = some d → ∃ blocks : List (List Int), G[i]? = some blocks.flatten ∧
        List.Forall₂ (fun (f : Int) (b : List Int) => StrictSorted b ∧
          ∀ j : Int, j ∈ b ↔ j ≠ i ∧ ∃ r, R[f.toNat]? = some r ∧ j ∈ r) d blocks := by
  have hl := hD.idx_length
  unfold computeNeighborsOfCellsAdv
  rw [if_neg (by omega)]
  have key : wp (loop (descI.length - 1) (([] : List Int), [(0 : Int)]) fun i s => do
      let g ← revGroup desc descI i
      let out0 ← g.foldlM (fun (out : List Int) (w1 : Int) => do
        let r ← revGroup revDesc revDescI w1
        .ok (out ++ (setInsertAll [] r).erase (i : Int))) s.1
      .ok (out0, s.2 ++ [(out0.length : Int)])) (fun (s : List Int × List Int) => ∃ G : List (List Int), IsSky s.1 s.2 G ∧ G.length = D.length ∧
        ∀ (i : Nat) (d : List Int), i < D.length → D[i]? = some d → ∃ blocks : List (List Int), G[i]? = some blocks.flatten ∧
        List.Forall₂ (fun (f : Int) (b : List Int) => StrictSorted b ∧ ∀ j : Int, j ∈ b ↔ j ≠ i ∧ ∃ r, R[f.toNat]? = some r ∧ j ∈ r) d blocks) False := by
    rw [show descI.length - 1 = D.length by omega]
    refine wp_loop (fun k (s : List Int × List Int) => ∃ G : List (List Int), IsSky s.1 s.2 G ∧ G.length = k ∧
        ∀ (i : Nat) (d : List Int), i < k → D[i]? = some d → ∃ blocks : List (List Int), G[i]? = some blocks.flatten ∧
        List.Forall₂ (fun (f : Int) (b : List Int) => StrictSorted b ∧ ∀ j : Int, j ∈ b ↔ j ≠ i ∧ ∃ r, R[f.toNat]? = some r ∧ j ∈ r) d blocks)
      ⟨[], ⟨rfl, rfl⟩, rfl, by omega⟩ ?_
    rintro i hi ⟨a, ix⟩ ⟨G, ⟨g1, g2⟩, g3, g4⟩
    simp only at g1 g2
    have hDi : D[i]? = some D[i] := List.getElem?_eq_getElem hi
    rw [revGroup_sky hD hDi, ok_bind]
    have inner : ∀ (d : List Int) (out : List Int), (∀ f ∈ d, 0 ≤ f ∧ f < (R.length : Int)) →
        ∃ blocks : List (List Int), d.foldlM (fun (out : List Int) (w1 : Int) => do
          let r ← revGroup revDesc revDescI w1
          .ok (out ++ (setInsertAll [] r).erase (i : Int))) out = .ok (out ++ blocks.flatten) ∧
          List.Forall₂ (fun (f : Int) (b : List Int) => StrictSorted b ∧ ∀ j : Int, j ∈ b ↔ j ≠ i ∧ ∃ r, R[f.toNat]? = some r ∧ j ∈ r) d blocks := by
      intro d
      induction d with
      | nil => intro out _; exact ⟨[], by simp; rfl, .nil⟩
      | cons f d ih =>
        intro out hd
        obtain ⟨f0, f1⟩ := hd f (by simp)
        lift f to Nat using f0
        have hRf : R[f]? = some (R[f]'(by omega)) := List.getElem?_eq_getElem (by omega)
        obtain ⟨bl, b1, b2⟩ := ih (out ++ (setInsertAll [] (R[f]'(by omega))).erase (i : Int)) fun f hf => hd f (by simp [hf])
        refine ⟨(setInsertAll [] (R[f]'(by omega))).erase (i : Int) :: bl, ?_, .cons ⟨?_, ?_⟩ b2⟩
        · rw [List.foldlM_cons, revGroup_sky hR hRf, ok_bind, ok_bind, b1, List.flatten_cons, List.append_assoc]
        · exact List.Pairwise.sublist List.erase_sublist (sorted_setInsertAll List.Pairwise.nil)
        · intro j
          rw [(sorted_setInsertAll List.Pairwise.nil : StrictSorted (setInsertAll [] _)).nodup.mem_erase_iff, mem_setInsertAll, Int.toNat_natCast, hRf]
          simp
    obtain ⟨bl, b1, b2⟩ := inner D[i] a (hf _ (List.getElem_mem hi))
    rw [b1, ok_bind]
    refine ⟨G ++ [bl.flatten], ⟨?_, ?_⟩, by simp [g3], ?_⟩
    · simp [g1]
    · rw [skyIdx_snoc, g2, g1, List.length_append]
    · intro i' d hi' hd
      rcases Nat.lt_succ_iff_lt_or_eq.mp hi' with hlt | rfl
      · obtain ⟨bl', c1, c2⟩ := g4 i' d hlt hd
        exact ⟨bl', by rw [List.getElem?_append_left (by omega)]; exact c1, c2⟩
      · rw [hDi, Option.some.injEq] at hd
        subst hd
        exact ⟨bl, by rw [List.getElem?_append_right (by omega), g3, Nat.sub_self]; rfl, b2⟩
  obtain ⟨⟨a, ix⟩, e1, G, e2, e3, e4⟩ := wp_exists key
  exact ⟨a, ix, G, e1, e2, e3, fun i d hd => e4 i d (List.getElem?_eq_some_iff.mp hd).1 hd⟩

/-! ## Sharing a face -/

theorem sameCell3 (c d : Cell) : SameCell 3 c d ↔ c.nodes.length = d.nodes.length ∧ ∀ n, n ∈ c.nodes ↔ n ∈ d.nodes := by
  unfold SameCell
  constructor
  · intro h; exact h.2.2.2 rfl
  · intro h; exact ⟨fun h => by omega, fun h => by omega, fun h => by omega, fun _ => h⟩

theorem SameCell.symm3 {c d : Cell} (h : SameCell 3 c d) : SameCell 3 d c := by
  rw [sameCell3] at *
  exact ⟨h.1.symm, fun n => (h.2 n).symm⟩

theorem SameCell.trans3 {c d e : Cell} (h : SameCell 3 c d) (h' : SameCell 3 d e) : SameCell 3 c e := by
  rw [sameCell3] at *
  exact ⟨h.1.trans h'.1, fun n => (h.2 n).trans (h'.2 n)⟩

theorem SameCell.refl3 (c : Cell) : SameCell 3 c c := by rw [sameCell3]; exact ⟨rfl, fun _ => Iff.rfl⟩

/-- Two sub cells have the same number exactly when they have the same nodes. -/
theorem IsDescending.same {S : List (List Cell)} {faces : List Cell} {D : List (List Int)} (h : IsDescending S faces D) {s s' : Cell} {v w : Int}
    (h1 : ∃ (f : Nat) (c : Cell), v = f ∧ faces[f]? = some c ∧ SameCell 3 s c) (h2 : ∃ (f : Nat) (c : Cell), w = f ∧ faces[f]? = some c ∧ SameCell 3 s' c) :
    v = w ↔ SameCell 3 s s' := by
  obtain ⟨f, c, rfl, a1, a2⟩ := h1
  obtain ⟨g, d, rfl, b1, b2⟩ := h2
  constructor
  · intro e
    have : f = g := by omega
    subst this
    rw [a1, Option.some.injEq] at b1
    subst b1
    exact a2.trans3 b2.symm3
  · intro e
    by_contra hne
    have hcd : SameCell 3 c d := a2.symm3.trans3 (e.trans3 b2)
    obtain ⟨hf, rfl⟩ := List.getElem?_eq_some_iff.mp a1
    obtain ⟨hg, rfl⟩ := List.getElem?_eq_some_iff.mp b1
    rcases Nat.lt_trichotomy f g with hlt | heq | hgt
    · exact List.pairwise_iff_getElem.mp h.distinct f g hf hg hlt hcd
    · exact hne (by rw [heq])
    · exact List.pairwise_iff_getElem.mp h.distinct g f hg hf hgt hcd.symm3

theorem forall₂_mem_left {α β : Type} {R : α → β → Prop} {l : List α} {r : List β} (h : List.Forall₂ R l r) {a : α} (ha : a ∈ l) : ∃ b ∈ r, R a b := by
  induction h with
  | nil => cases ha
  | cons h1 _ ih =>
    rcases List.mem_cons.mp ha with rfl | ha
    · exact ⟨_, by simp, h1⟩
    · obtain ⟨b, hb, hr⟩ := ih ha
      exact ⟨b, by simp [hb], hr⟩

theorem forall₂_mem_right {α β : Type} {R : α → β → Prop} {l : List α} {r : List β} (h : List.Forall₂ R l r) {b : β} (hb : b ∈ r) : ∃ a ∈ l, R a b := by
  obtain ⟨a, ha, hr⟩ := forall₂_mem_left h.flip hb
  exact ⟨a, ha, hr⟩

/-- The number of a sub cell of `c` is among those of another cell exactly when this one has a sub cell with the same nodes. -/
theorem IsDescending.mem {S : List (List Cell)} {faces : List Cell} {D : List (List Int)} (h : IsDescending S faces D) {s : Cell} {v : Int}
    (h1 : ∃ (f : Nat) (c : Cell), v = f ∧ faces[f]? = some c ∧ SameCell 3 s c) {j : Nat} {sj : List Cell} {dj : List Int} (hs : S[j]? = some sj) (hd : D[j]? = some dj) :
    v ∈ dj ↔ ∃ s' ∈ sj, SameCell 3 s s' := by
  have hrel := forall₂_at h.faceOf hs
  obtain ⟨dj', e, hr⟩ := hrel
  rw [hd, Option.some.injEq] at e
  subst e
  constructor
  · intro hv
    obtain ⟨s', hs', hr'⟩ := forall₂_mem_right hr hv
    exact ⟨s', hs', (h.same h1 hr').mp rfl⟩
  · rintro ⟨s', hs', hss⟩
    obtain ⟨w, hw, hr'⟩ := forall₂_mem_left hr hs'
    rw [(h.same h1 hr').mpr hss]
    exact hw

theorem mem_ownersOf {D : List (List Int)} {f : Int} {j : Int} : j ∈ ownersOf D f ↔ ∃ (i : Nat) (d : List Int), j = i ∧ D[i]? = some d ∧ f ∈ d := by
  unfold ownersOf
  rw [List.mem_flatMap]
  constructor
  · rintro ⟨⟨d, i⟩, hp, hj⟩
    rw [List.mem_replicate] at hj
    rw [List.mem_zipIdx_iff_getElem?] at hp
    exact ⟨i, d, hj.2, hp, List.count_pos_iff.mp (by simp only at hj; omega)⟩
  · rintro ⟨i, d, rfl, hd, hf⟩
    refine ⟨(d, i), List.mem_zipIdx_iff_getElem?.mpr hd, ?_⟩
    rw [List.mem_replicate]
    have := List.count_pos_iff.mpr hf
    exact ⟨by simp only; omega, rfl⟩

/-- The two cells have sub cells with the same nodes. -/
def ShareFace (S : List (List Cell)) (i j : Nat) : Prop := ∃ si sj, S[i]? = some si ∧ S[j]? = some sj ∧ ∃ s ∈ si, ∃ s' ∈ sj, SameCell 3 s s'

theorem count_blocks {d : List Int} {blocks : List (List Int)} {P : Int → Prop} [DecidablePred P] {j : Int}
    (h : List.Forall₂ (fun (f : Int) (b : List Int) => StrictSorted b ∧ (j ∈ b ↔ P f)) d blocks) : blocks.flatten.count j = d.countP fun f => decide (P f) := by
  induction h with
  | nil => rfl
  | cons h1 _ ih =>
    rw [List.flatten_cons, List.count_append, ih, List.countP_cons, Nat.add_comm]
    congr 1
    by_cases hp : P ‹_›
    · rw [if_pos (by simpa using hp)]
      have := List.count_pos_iff.mpr (h1.2.mpr hp)
      have := List.nodup_iff_count_le_one.mp h1.1.nodup j
      omega
    · rw [if_neg (by simpa using hp)]
      exact List.count_eq_zero.mpr fun hm => hp (h1.2.mp hm)

theorem countP_forall₂ {α β : Type} {R : α → β → Prop} {l : List α} {r : List β} (h : List.Forall₂ R l r) {p : α → Bool} {q : β → Bool}
    (hpq : ∀ a b, R a b → p a = q b) : l.countP p = r.countP q := by
  induction h with
  | nil => rfl
  | cons h1 _ ih => rw [List.countP_cons, List.countP_cons, ih, hpq _ _ h1]

open Classical in
/-- C66: the neighbours of the cells of any mesh.  The neighbours of cell `i` are the other cells which share a sub cell with it; each is
given once per sub cell of `i` it shares. -/
theorem C66_neighbours {dim : Int} {nbNodes : Nat} {conn connI : List Int} {cells : List Cell} (h : IsMesh conn connI cells)
    (hd : 0 ≤ dim ∧ dim ≤ 3) (hc : ∀ c ∈ cells, CellOk dim nbNodes c) :
    ∃ (S : List (List Cell)) (arr idx : List Int) (G : List (List Int)), List.Forall₂ BoundaryOf cells S ∧
      computeNeighborsOfCells dim nbNodes conn connI = .ok (arr, idx) ∧ IsSky arr idx G ∧ G.length = cells.length ∧
      (∀ (i : Nat) (g : List Int) (x : Int), G[i]? = some g → (x ∈ g ↔ ∃ j : Nat, x = j ∧ j ≠ i ∧ ShareFace S i j)) ∧
      (∀ (i j : Nat) (g : List Int) (si sj : List Cell), G[i]? = some g → S[i]? = some si → S[j]? = some sj → j ≠ i →
        g.count (j : Int) = si.countP fun s => decide (∃ s' ∈ sj, SameCell 3 s s')) := by
  obtain ⟨S, r, faces, D, a1, a2, a3, -, a5, a6, a7⟩ := C63_descending h hd hc
  have hlen : D.length = S.length := a5.faceOf.length_eq.symm
  have hlenS : S.length = cells.length := a1.length_eq.symm
  have hrange : ∀ d ∈ D, ∀ f ∈ d, 0 ≤ f ∧ f < (((List.range faces.length).map fun f : Nat => ownersOf D (f : Int)).length : Int) := by
    intro d hd' f hf
    obtain ⟨s, hs, hr⟩ := forall₂_mem_right a5.faceOf hd'
    obtain ⟨c, hc', k, c', rfl, hk, -⟩ := forall₂_mem_right hr hf
    have := (List.getElem?_eq_some_iff.mp hk).1
    simp only [List.length_map, List.length_range]
    omega
  obtain ⟨arr, idx, G, e1, e2, e3, e4⟩ := C66_adv a6 a7 hrange
  -- what is in a block
  have hblk : ∀ (i : Nat) (d : List Int), D[i]? = some d → ∀ f ∈ d, ∀ x : Int,
      (∃ r, ((List.range faces.length).map fun f : Nat => ownersOf D (f : Int))[f.toNat]? = some r ∧ x ∈ r) ↔ ∃ (j : Nat) (dj : List Int), x = j ∧ D[j]? = some dj ∧ f ∈ dj := by
    intro i d hd' f hf x
    obtain ⟨h0, h1⟩ := hrange d (List.mem_of_getElem? hd') f hf
    simp only [List.length_map, List.length_range] at h1
    lift f to Nat using h0
    rw [Int.toNat_natCast, List.getElem?_map, List.getElem?_range (by omega)]
    simp only [Option.map_some, Option.some.injEq, exists_eq_left']
    exact mem_ownersOf
  refine ⟨S, arr, idx, G, a1, ?_, e2, by omega, ?_, ?_⟩
  · unfold computeNeighborsOfCells
    rw [a2, ok_bind, e1]
  · intro i g x hg
    have hi : i < D.length := by have := (List.getElem?_eq_some_iff.mp hg).1; omega
    have hDi : D[i]? = some D[i] := List.getElem?_eq_getElem hi
    obtain ⟨bl, b1, b2⟩ := e4 i _ hDi
    rw [hg, Option.some.injEq] at b1
    subst b1
    have hSi : S[i]? = some (S[i]'(by omega)) := List.getElem?_eq_getElem (by omega)
    obtain ⟨dd, q1, q2⟩ := forall₂_at a5.faceOf hSi
    rw [hDi, Option.some.injEq] at q1
    subst q1
    rw [List.mem_flatten]
    constructor
    · rintro ⟨b, hb, hx⟩
      obtain ⟨f, hf, hr⟩ := forall₂_mem_right b2 hb
      obtain ⟨hne, hr2⟩ := (hr.2 x).mp hx
      obtain ⟨j, dj, rfl, hj, hfj⟩ := (hblk i _ hDi f hf x).mp hr2
      refine ⟨j, rfl, by omega, ?_⟩
      have hjl := (List.getElem?_eq_some_iff.mp hj).1
      have hSj : S[j]? = some (S[j]'(by omega)) := List.getElem?_eq_getElem (by omega)
      obtain ⟨s, hs, hsr⟩ := forall₂_mem_right q2 hf
      exact ⟨_, _, hSi, hSj, s, hs, (a5.mem hsr hSj hj).mp hfj⟩
    · rintro ⟨j, rfl, hne, si, sj, h1, h2, s, hs, s', hs', hss⟩
      rw [hSi, Option.some.injEq] at h1
      subst h1
      obtain ⟨f, hf, hfr⟩ := forall₂_mem_left q2 hs
      have hjl := (List.getElem?_eq_some_iff.mp h2).1
      have hDj : D[j]? = some (D[j]'(by omega)) := List.getElem?_eq_getElem (by omega)
      obtain ⟨b, hb, hbr⟩ := forall₂_mem_left b2 hf
      refine ⟨b, hb, (hbr.2 _).mpr ⟨by omega, (hblk i _ hDi f hf _).mpr ⟨j, _, rfl, hDj, ?_⟩⟩⟩
      exact (a5.mem hfr h2 hDj).mpr ⟨s', hs', hss⟩
  · intro i j g si sj hg hsi hsj hne
    have hi : i < D.length := by have := (List.getElem?_eq_some_iff.mp hg).1; omega
    have hDi : D[i]? = some D[i] := List.getElem?_eq_getElem hi
    obtain ⟨bl, b1, b2⟩ := e4 i _ hDi
    rw [hg, Option.some.injEq] at b1
    subst b1
    obtain ⟨dd, q1, q2⟩ := forall₂_at a5.faceOf hsi
    rw [hDi, Option.some.injEq] at q1
    subst q1
    have hjl := (List.getElem?_eq_some_iff.mp hsj).1
    have hDj : D[j]? = some (D[j]'(by omega)) := List.getElem?_eq_getElem (by omega)
    have b3 : List.Forall₂ (fun (f : Int) (b : List Int) => StrictSorted b ∧ ((j : Int) ∈ b ↔ f ∈ D[j]'(by omega))) D[i] bl := by
      refine List.forall₂_iff_get.mpr ⟨b2.length_eq, fun k h1 h2 => ?_⟩
      have hk := List.forall₂_iff_get.mp b2 |>.2 k h1 h2
      refine ⟨hk.1, (hk.2 j).trans ?_⟩
      rw [hblk i _ hDi _ (List.get_mem _ _)]
      constructor
      · rintro ⟨-, j', dj, hj', hd', hf⟩
        have : j = j' := by omega
        subst this
        rw [hDj, Option.some.injEq] at hd'
        rw [hd']; exact hf
      · intro hf
        exact ⟨by omega, j, _, rfl, hDj, hf⟩
    rw [count_blocks b3]
    refine (countP_forall₂ q2 fun s f hr => ?_).symm
    rw [decide_eq_decide]
    exact (a5.mem hr hsj hDj).symm

/-- C66: being neighbours is symmetric. -/
theorem C66_symmetric (S : List (List Cell)) (i j : Nat) (h : ShareFace S i j) : ShareFace S j i := by
  obtain ⟨si, sj, h1, h2, s, hs, s', hs', hss⟩ := h
  exact ⟨sj, si, h2, h1, s', hs', s, hs, hss.symm3⟩

/-- C66: `partitionBySpreadZone` gives the connected zones of the mesh: the zones are sorted, disjoint, cover the cells, and two cells are in
the same zone exactly when a chain of cells, each sharing a sub cell with the next one, goes from one to the other. -/
theorem C66_zones {dim : Int} {nbNodes : Nat} {conn connI : List Int} {cells : List Cell} (h : IsMesh conn connI cells)
    (hd : 0 ≤ dim ∧ dim ≤ 3) (hc : ∀ c ∈ cells, CellOk dim nbNodes c) :
    ∃ (S : List (List Cell)) (zones : List (List Int)), List.Forall₂ BoundaryOf cells S ∧
      partitionBySpreadZone dim nbNodes conn connI = .ok (zones.map fun z => z.map some) ∧
      (∀ x : Int, 0 ≤ x ∧ x < (cells.length : Int) ↔ ∃ z ∈ zones, x ∈ z) ∧ zones.Pairwise List.Disjoint ∧
      (∀ z ∈ zones, z ≠ [] ∧ StrictSorted z) ∧ (zones.Pairwise fun z z' => ∀ a ∈ z.head?, ∀ b ∈ z'.head?, a < b) ∧
      ∀ z ∈ zones, ∀ x ∈ z, ∀ y : Int, y ∈ z ↔ Relation.ReflTransGen (fun a b : Int => ∃ i j : Nat, a = i ∧ b = j ∧ ShareFace S i j) x y := by
  obtain ⟨S, arr, idx, G, a1, a2, a3, a4, a5, -⟩ := C66_neighbours h hd hc
  have hSl : S.length = cells.length := a1.length_eq.symm
  have hshare : ∀ {i j : Nat}, ShareFace S i j → i < G.length ∧ j < G.length := by
    rintro i j ⟨si, sj, h1, h2, -⟩
    have := (List.getElem?_eq_some_iff.mp h1).1
    have := (List.getElem?_eq_some_iff.mp h2).1
    omega
  have hv : ValidGraph G := by
    intro g hg x hx
    obtain ⟨i, hi, rfl⟩ := List.mem_iff_getElem.mp hg
    obtain ⟨j, rfl, -, hs⟩ := (a5 i _ x (List.getElem?_eq_getElem hi)).mp hx
    have := (hshare hs).2
    omega
  have hnbr : ∀ x y : Int, Nbr G x y ↔ ∃ i j : Nat, x = i ∧ y = j ∧ j ≠ i ∧ ShareFace S i j := by
    intro x y
    constructor
    · rintro ⟨i, l, rfl, h1, h2⟩
      obtain ⟨j, rfl, hne, hs⟩ := (a5 i l y h1).mp h2
      exact ⟨i, j, rfl, rfl, hne, hs⟩
    · rintro ⟨i, j, rfl, rfl, hne, hs⟩
      have hi := (hshare hs).1
      exact ⟨i, _, rfl, List.getElem?_eq_getElem hi, (a5 i _ _ (List.getElem?_eq_getElem hi)).mpr ⟨j, rfl, hne, hs⟩⟩
  obtain ⟨zones, z1, z2, z3, z4, z5, z6⟩ := C62_partition a3 hv
  refine ⟨S, zones, a1, ?_, by rw [← a4]; exact z2, z3, z4, z5, ?_⟩
  · unfold partitionBySpreadZone
    rw [a2, ok_bind, z1]
  · intro z hz x hx y
    rw [z6 (fun x y hxy => ?_) z hz x hx y]
    · constructor
      · intro hr
        refine reach_mono (fun a b hab => ?_) hr
        obtain ⟨i, j, h1, h2, -, h3⟩ := (hnbr a b).mp hab
        exact ⟨i, j, h1, h2, h3⟩
      · intro hr
        induction hr with
        | refl => exact Relation.ReflTransGen.refl
        | tail _ hab ih =>
          obtain ⟨i, j, rfl, rfl, h3⟩ := hab
          by_cases hne : j = i
          · subst hne; exact ih
          · exact ih.tail ((hnbr _ _).mpr ⟨i, j, rfl, rfl, hne, h3⟩)
    · obtain ⟨i, j, h1, h2, h3, h4⟩ := (hnbr x y).mp hxy
      exact (hnbr y x).mpr ⟨j, i, h2, h1, fun e => h3 e.symm, C66_symmetric S i j h4⟩

theorem tri_ok (nbNodes : Nat) (a b c : Int) (h : NodesOk nbNodes [a, b, c]) : CellOk 2 nbNodes ⟨3, [a, b, c]⟩ :=
  ⟨cm_tri3, rfl, rfl, Or.inl ⟨rfl, rfl, h⟩⟩

/- Two triangles sharing an edge and a third one which shares a node only. -/
example : (∀ c ∈ ([⟨3, [0, 1, 2]⟩, ⟨3, [2, 1, 3]⟩, ⟨3, [3, 4, 5]⟩] : List Cell), CellOk 2 6 c) ∧
    IsMesh [3, 0, 1, 2, 3, 2, 1, 3, 3, 3, 4, 5] [0, 4, 8, 12] [⟨3, [0, 1, 2]⟩, ⟨3, [2, 1, 3]⟩, ⟨3, [3, 4, 5]⟩] ∧
    computeNeighborsOfCells 2 6 [3, 0, 1, 2, 3, 2, 1, 3, 3, 3, 4, 5] [0, 4, 8, 12] = .ok ([1, 0], [0, 1, 2, 2]) ∧
    partitionBySpreadZone 2 6 [3, 0, 1, 2, 3, 2, 1, 3, 3, 3, 4, 5] [0, 4, 8, 12] = .ok [[some 0, some 1], [some 2]] := by
  refine ⟨?_, by decide, by decide, by decide⟩
  intro c hc
  simp only [List.mem_cons, List.not_mem_nil, or_false] at hc
  rcases hc with rfl | rfl | rfl <;> exact tri_ok _ _ _ _ (by unfold NodesOk; decide)

/-- C66, finding: two cells which share two faces are given as neighbours of each other twice. -/
theorem C66_repeated : computeNeighborsOfCells 2 4 [4, 0, 1, 2, 3, 3, 0, 1, 2] [0, 5, 9] = .ok ([1, 1, 0, 0], [0, 2, 4]) := by decide

end
end MC
