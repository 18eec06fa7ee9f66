import Verif.SkyLineThm

/-!
# C104: the operations on packs of skyline arrays
-/

namespace MC

/-! ## One pack -/

theorem split_at {α : Type} (l : List α) {i : Nat} (h : i < l.length) : l = l.take i ++ l[i] :: l.drop (i + 1) ∧ (l.take i).length = i := by
  constructor
  · rw [← List.drop_eq_getElem_cons h, List.take_append_drop]
  · simp; omega

theorem C104_getSimplePackSafe {s : SkyL} {ps : List (List Int)} (h : s.Packs ps) {i : Nat} (hi : i < ps.length) :
    s.getSimplePackSafe i = .ok ps[i] := by
  obtain ⟨e, hl⟩ := split_at ps hi
  obtain ⟨hv, hx⟩ := h
  rw [SkyL.getSimplePackSafe, if_neg (by rw [hx, skyIdx_length]; omega), hx]
  have e1 := rd_sky_mid (ps.take i) ps[i] (ps.drop (i + 1)) (i := i) (by omega)
  have e2 := rd_sky_next (ps.take i) ps[i] (ps.drop (i + 1)) (i := (i : Int) + 1) (by omega)
  rw [← e] at e1 e2
  rw [e1, ok_bind, e2, ok_bind, hv]
  have e3 : ps.flatten = (ps.take i).flatten ++ ps[i] ++ (ps.drop (i + 1)).flatten := by
    have := congrArg List.flatten e
    rwa [List.flatten_append, List.flatten_cons, ← List.append_assoc] at this
  rw [e3]
  exact readIn_mid rfl rfl

theorem C104_getSimplePackSafe_throws {s : SkyL} {ps : List (List Int)} (h : s.Packs ps) {i : Int} (hi : i < 0 ∨ i > ps.length) :
    s.getSimplePackSafe i = throwX := by
  rw [SkyL.getSimplePackSafe, if_pos (by rw [h.2, skyIdx_length]; omega)]

/-- The check lets the number of packs through: the read of the end of the pack is then out of the index. -/
theorem C104_finding_getSimplePackSafe {s : SkyL} {ps : List (List Int)} (h : s.Packs ps) : s.getSimplePackSafe ps.length = undef := by
  rw [SkyL.getSimplePackSafe, if_neg (by rw [h.2, skyIdx_length]; omega), h.2]
  have e1 := rd_sky_end ps [] (i := ps.length) rfl
  rw [List.append_nil] at e1
  rw [e1, ok_bind]
  have : rd (skyIdx ps) ((ps.length : Int) + 1) = undef := by
    rw [rd, if_pos (by omega), List.getElem?_eq_none (by simp)]
    rfl
  rw [this]
  rfl

theorem C104_replaceSimplePack (junk : Nat → Int) {s : SkyL} {ps : List (List Int)} (h : s.Packs ps) {i : Nat} (hi : i < ps.length) (pack : List Int) :
    ∃ s', s.replaceSimplePack junk i pack = .ok s' ∧ s'.Packs (ps.set i pack) ∧ s'.si = s.si := by
  obtain ⟨e, hl⟩ := split_at ps hi
  have h' := h
  rw [e] at h'
  refine ⟨⟨s.si, skyIdx (ps.set i pack), (ps.set i pack).flatten⟩, ?_, ⟨rfl, rfl⟩, rfl⟩
  rw [SkyL.replaceSimplePack, SkyL.validIdx, if_neg (by rw [h.2, skyIdx_length]; omega), ok_bind, replaceAt_ok junk h' (by omega) pack]
  rw [List.set_eq_take_append_cons_drop, if_pos hi]

/-- a list of lists with one element of one list in evidence -/
theorem split2 {α : Type} (g : List (List α)) {k i : Nat} (hk : k < g.length) (hi : i < g[k].length) :
    g.flatten = ((g.take k).flatten ++ g[k].take i) ++ g[k][i] :: (g[k].drop (i + 1) ++ (g.drop (k + 1)).flatten) ∧
    ((g.take k).flatten ++ g[k].take i).length = (g.take k).flatten.length + i ∧
    ∀ y, (g.set k (g[k].set i y)).flatten = ((g.take k).flatten ++ g[k].take i) ++ y :: (g[k].drop (i + 1) ++ (g.drop (k + 1)).flatten) := by
  obtain ⟨e, hl⟩ := split_at g hk
  obtain ⟨e', hl'⟩ := split_at g[k] hi
  refine ⟨?_, by simp; omega, ?_⟩
  · have h1 := congrArg List.flatten e
    rw [List.flatten_append, List.flatten_cons] at h1
    have h2 : g[k] ++ (g.drop (k + 1)).flatten = g[k].take i ++ g[k][i] :: (g[k].drop (i + 1) ++ (g.drop (k + 1)).flatten) := by
      rw [← List.cons_append, ← List.append_assoc, ← e']
    rw [h1, h2, List.append_assoc]
  · intro y
    rw [List.set_eq_take_append_cons_drop, if_pos hk, List.set_eq_take_append_cons_drop, if_pos hi]
    simp

theorem validBoth_ok {s : SkyL} {g : List (List (List Int))} (h : s.Supers g) {k i : Nat} (hk : k < g.length) (hi : i < g[k].length) :
    s.validBoth k i = .ok (((g.take k).flatten.length + i : Nat) : Int) := by
  obtain ⟨hsi, hv, hx⟩ := h
  obtain ⟨e, hl⟩ := split_at g hk
  have e1 := rd_sky_mid (g.take k) g[k] (g.drop (k + 1)) (i := k) (by omega)
  rw [← e] at e1
  rw [SkyL.validBoth, SkyL.validSuper, if_neg (by rw [hsi, skyIdx_length]; omega), ok_bind, hsi, e1, ok_bind, if_neg]
  · push_cast; rfl
  · obtain ⟨e2, hl2, _⟩ := split2 g hk hi
    have := congrArg List.length e2
    rw [List.length_append, hl2] at this
    rw [hx, skyIdx_length, this]
    push_cast
    omega

theorem checkSuper_ok {s : SkyL} {g : List (List (List Int))} (h : s.Supers g) : s.checkSuper = .ok () := by
  rw [SkyL.checkSuper, if_neg (by rw [h.1, skyIdx_length]; omega)]

theorem C104_replacePack (junk : Nat → Int) {s : SkyL} {g : List (List (List Int))} (h : s.Supers g) {k i : Nat} (hk : k < g.length)
    (hi : i < g[k].length) (pack : List Int) :
    ∃ s', s.replacePack junk k i pack = .ok s' ∧ s'.Supers (g.set k (g[k].set i pack)) := by
  obtain ⟨e, hl, hs⟩ := split2 g hk hi
  have h' := h.2
  rw [e] at h'
  refine ⟨⟨s.si, skyIdx (g.set k (g[k].set i pack)).flatten, (g.set k (g[k].set i pack)).flatten.flatten⟩, ?_, ?_, rfl, rfl⟩
  · rw [SkyL.replacePack, checkSuper_ok h, ok_bind, validBoth_ok h hk hi, ok_bind, replaceAt_ok junk h' (by omega) pack, hs]
  · simp only
    rw [h.1, ← scanl_sizes, ← scanl_sizes]
    congr 1
    rw [List.map_set]
    rw [List.length_set, ← List.getElem_map (fun x : List (List Int) => (x.length : Int)) (h := by simpa using hk), List.set_getElem_self]

/-- the super index, when the size of one super pack changes -/
theorem addRange_super (g : List (List (List Int))) {k : Nat} (hk : k < g.length) (X : List (List Int)) {d : Int} (hd : d = (X.length : Int) - g[k].length) :
    addRange (skyIdx g) ((k : Int) + 1) (skyIdx g).length d = .ok (skyIdx (g.set k X)) := by
  obtain ⟨e, hl⟩ := split_at g hk
  have := addRange_sky (g.take k) g[k] X (g.drop (k + 1)) (a := (k : Int) + 1) (b := (skyIdx g).length) (d := d) (by omega) (by rw [← e]) hd
  rw [← e] at this
  rw [this, List.set_eq_take_append_cons_drop, if_pos hk]

theorem C104_deletePack (junk : Nat → Int) {s : SkyL} {g : List (List (List Int))} (h : s.Supers g) {k i : Nat} (hk : k < g.length)
    (hi : i < g[k].length) :
    ∃ s', s.deletePack junk k i = .ok s' ∧ s'.Supers (g.set k (g[k].eraseIdx i)) := by
  obtain ⟨e, hl, _⟩ := split2 g hk hi
  obtain ⟨hsi, hv, hx⟩ := h
  have hfl : (g.set k (g[k].eraseIdx i)).flatten = ((g.take k).flatten ++ g[k].take i) ++ (g[k].drop (i + 1) ++ (g.drop (k + 1)).flatten) := by
    rw [List.set_eq_take_append_cons_drop, if_pos hk, List.eraseIdx_eq_take_drop_succ]
    simp
  refine ⟨⟨skyIdx (g.set k (g[k].eraseIdx i)), skyIdx (g.set k (g[k].eraseIdx i)).flatten, (g.set k (g[k].eraseIdx i)).flatten.flatten⟩, ?_, rfl, rfl, rfl⟩
  rw [hfl]
  generalize hA : (g.take k).flatten ++ g[k].take i = A at *
  generalize hB : g[k].drop (i + 1) ++ (g.drop (k + 1)).flatten = B at *
  rw [e] at hv hx
  rw [SkyL.deletePack, checkSuper_ok ⟨hsi, by rw [e]; exact ⟨hv, hx⟩⟩, ok_bind,
    validBoth_ok ⟨hsi, by rw [e]; exact ⟨hv, hx⟩⟩ hk hi, ok_bind, ← hl, hx, rd_sky_mid A _ B rfl, ok_bind, rd_sky_next A _ B rfl, ok_bind]
  obtain ⟨v, h1, h2⟩ := delVals_ok junk A g[k][i] B hv (n := (s.vals.length : Int) - ((A.flatten.length : Int) + (g[k][i].length : Int) - A.flatten.length)) rfl rfl (by omega)
  obtain ⟨w, h3⟩ := delIdx_ok A g[k][i] B rfl (i := (A.length : Int)) rfl
  rw [h1, ok_bind, h2, ok_bind, h3, ok_bind, reAllocL_cut junk (by simp), ok_bind]
  have h4 := addRange_mid (A := preIdx A) (B := (skyIdx B).map (· + ((A.flatten.length : Int) + g[k][i].length))) (C := []) (a := (A.length : Int))
    (b := ((skyIdx (A ++ g[k][i] :: B)).length : Int) - 1) (d := -((A.flatten.length : Int) + (g[k][i].length : Int) - A.flatten.length)) (by simp) (by simp)
  rw [List.append_nil, List.append_nil] at h4
  have h5 : -((A.flatten.length : Int) + (g[k][i].length : Int) - A.flatten.length) = -(g[k][i].length : Int) := by omega
  rw [h4, ok_bind, h5, skyIdx_shift, hsi, addRange_super g hk (g[k].eraseIdx i) (by rw [List.length_eraseIdx_of_lt hi]; omega), ok_bind]

theorem C104_pushBackPack (junk : Nat → Int) {s : SkyL} {g : List (List (List Int))} (h : s.Supers g) {k : Nat} (hk : k < g.length) (pack : List Int) :
    ∃ s', s.pushBackPack junk k pack = .ok s' ∧ s'.Supers (g.set k (g[k] ++ [pack])) := by
  obtain ⟨hsi, hv, hx⟩ := h
  obtain ⟨eg, hlg⟩ := split_at g hk
  have hfl : (g.set k (g[k] ++ [pack])).flatten = ((g.take k).flatten ++ g[k]) ++ pack :: (g.drop (k + 1)).flatten := by
    rw [List.set_eq_take_append_cons_drop, if_pos hk]
    simp
  have e : g.flatten = ((g.take k).flatten ++ g[k]) ++ (g.drop (k + 1)).flatten := by
    have := congrArg List.flatten eg
    rwa [List.flatten_append, List.flatten_cons, ← List.append_assoc] at this
  refine ⟨⟨skyIdx (g.set k (g[k] ++ [pack])), skyIdx (g.set k (g[k] ++ [pack])).flatten, (g.set k (g[k] ++ [pack])).flatten.flatten⟩, ?_, rfl, rfl, rfl⟩
  have hsn := rd_sky_next (g.take k) g[k] (g.drop (k + 1)) (i := (k : Int) + 1) (by omega)
  rw [← eg] at hsn
  rw [hfl, SkyL.pushBackPack, checkSuper_ok ⟨hsi, hv, hx⟩, ok_bind, SkyL.validSuper, if_neg (by rw [hsi, skyIdx_length]; omega), ok_bind, hsi, hsn, ok_bind]
  have hAl : ((g.take k).flatten.length : Int) + g[k].length = (((g.take k).flatten ++ g[k]).length : Int) := by simp
  rw [hAl]
  generalize (g.take k).flatten ++ g[k] = A at *
  generalize (g.drop (k + 1)).flatten = B at *
  rw [e] at hv hx
  rw [hx, rd_sky_end A B rfl, ok_bind]
  obtain ⟨J, hJ, hr⟩ := reAllocL_grow junk (P := s.vals) (n := s.vals.length + pack.length) pack.length rfl
  have ev : s.vals = A.flatten ++ B.flatten := by rw [hv]; simp
  obtain ⟨W, hW, hm⟩ := moveIn_up (P := A.flatten) (S := B.flatten) (J := J) (a := (A.flatten.length : Int)) (b := (s.vals.length : Int))
    (c := (A.flatten.length : Int) + pack.length) rfl (by rw [ev]; simp) (by omega)
  rw [← ev] at hm
  rw [hr, ok_bind, hm, ok_bind, copyTo_mid rfl (by omega), ok_bind]
  obtain ⟨T, hT, hTl⟩ := skyIdx_head B
  have ex : skyIdx (A ++ B) = preIdx A ++ [(A.flatten.length : Int)] ++ T.map (· + (A.flatten.length : Int)) := by
    rw [skyIdx_app, hT]; simp
  obtain ⟨J2, hJ2, hr2⟩ := reAllocL_grow junk (P := skyIdx (A ++ B)) (n := ((skyIdx (A ++ B)).length : Int) + 1) 1 rfl
  obtain ⟨j, rfl⟩ := List.length_eq_one_iff.1 hJ2
  obtain ⟨W2, hW2, hm2⟩ := moveIn_up (P := preIdx A ++ [(A.flatten.length : Int)]) (S := T.map (· + (A.flatten.length : Int))) (J := [j])
    (a := (A.length : Int) + 1) (b := ((skyIdx (A ++ B)).length : Int)) (c := (A.length : Int) + 2) (by simp) (by simp [hTl]; omega) (by simp; omega)
  rw [← ex] at hm2
  obtain ⟨w, rfl⟩ := List.length_eq_one_iff.1 hW2
  have e3 : preIdx A ++ [(A.flatten.length : Int)] ++ [w] ++ T.map (· + (A.flatten.length : Int)) =
      preIdx A ++ (A.flatten.length : Int) :: (w :: T.map (· + (A.flatten.length : Int))) := by simp
  have e4 : preIdx A ++ (A.flatten.length : Int) :: (w :: T.map (· + (A.flatten.length : Int))) =
      (preIdx A ++ [(A.flatten.length : Int)]) ++ w :: T.map (· + (A.flatten.length : Int)) := by simp
  rw [hr2, ok_bind, hm2, ok_bind, e3, rd_mid (by simp), ok_bind, e4, wr_mid (by simp), ok_bind]
  have e5 : preIdx A ++ [(A.flatten.length : Int)] ++ ((A.flatten.length : Int) + pack.length) :: T.map (· + (A.flatten.length : Int)) =
      (preIdx A ++ [(A.flatten.length : Int), (A.flatten.length : Int) + pack.length]) ++ T.map (· + (A.flatten.length : Int)) ++ [] := by simp
  rw [e5, addRange_mid (by simp) (by simp [hTl]; omega), ok_bind, addRange_super g hk (g[k] ++ [pack]) (by simp), ok_bind]
  congr 2
  · rw [skyIdx_mid, hT]
    simp only [List.append_assoc, List.cons_append, List.nil_append, List.append_nil, List.map_cons, List.map_map, Int.zero_add]
    congr 3
    apply List.map_congr_left
    intro x _
    simp
    omega
  · simp

theorem C104_deleteSimplePack (junk : Nat → Int) {s : SkyL} {ps : List (List Int)} (h : s.Packs ps) {i : Nat} (hi : i < ps.length) :
    (ps[i] ≠ [] → ∃ s', s.deleteSimplePack junk i = .ok s' ∧ s'.Packs (ps.eraseIdx i) ∧ s'.si = s.si) ∧
    (ps[i] = [] → s.deleteSimplePack junk i = throwX) := by
  obtain ⟨e, hl⟩ := split_at ps hi
  obtain ⟨hv, hx⟩ := h
  rw [SkyL.deleteSimplePack, SkyL.validIdx, if_neg (by rw [hx, skyIdx_length]; omega), ok_bind]
  rw [e] at hv hx
  rw [List.eraseIdx_eq_take_drop_succ, hx, rd_sky_mid _ _ _ (by omega), ok_bind, rd_sky_next _ _ _ (by omega), ok_bind]
  generalize ps[i] = p at *
  generalize ps.drop (i + 1) = B at *
  generalize ps.take i = A at *
  constructor
  · intro hp
    have hp' : 0 < p.length := List.length_pos_iff.2 hp
    refine ⟨⟨s.si, skyIdx (A ++ B), (A ++ B).flatten⟩, ?_, ⟨rfl, rfl⟩, rfl⟩
    obtain ⟨v, h1, h2⟩ := delVals_ok junk A p B hv (n := (s.vals.length : Int) + ((A.flatten.length : Int) - (A.flatten.length + p.length))) rfl rfl (by omega)
    obtain ⟨w, h3⟩ := delIdx_ok A p B rfl (i := (i : Int)) (by omega)
    have h4 := addRange_mid (A := preIdx A) (B := (skyIdx B).map (· + ((A.flatten.length : Int) + p.length))) (C := [w]) (a := (i : Int))
      (b := ((skyIdx (A ++ p :: B)).length : Int) - 1) (d := (A.flatten.length : Int) - (A.flatten.length + p.length)) (by simp; omega) (by simp)
    have h5 : (A.flatten.length : Int) - (A.flatten.length + p.length) = -(p.length : Int) := by omega
    rw [if_pos (by omega), h1, ok_bind, h2, ok_bind, h3, ok_bind, h4, ok_bind, h5, skyIdx_shift, reAllocL_cut junk (by simp; omega), ok_bind]
  · intro hp
    rw [if_neg (by rw [hp]; simp)]

end MC
