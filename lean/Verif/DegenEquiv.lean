import Verif.Degen

/-!
# The search of usual cells follows the renumberings of the nodes (C105)
-/

namespace MC

section
variable {α β : Type} [DecidableEq α] [DecidableEq β] {f : α → β}

theorem meet_map (hf : Function.Injective f) (a b : List α) : meet (a.map f) (b.map f) = (meet a b).map f := by
  unfold meet
  rw [List.dedup_map_of_injective hf, List.filter_map]
  congr 1
  apply List.filter_congr
  intro x _
  simp [hf.eq_iff]

theorem minus_map (hf : Function.Injective f) (a b : List α) : minus (a.map f) (b.map f) = (minus a b).map f := by
  unfold minus
  rw [List.dedup_map_of_injective hf, List.filter_map]
  congr 1
  apply List.filter_congr
  intro x _
  simp only [Function.comp_apply, List.mem_map_of_injective hf]

theorem ringEdges_map (f : α → β) (l : List α) : ringEdges (l.map f) = (ringEdges l).map (Prod.map f f) := by
  unfold ringEdges
  rw [← List.map_rotate, List.zip_map]

theorem swap_map (f : α → β) (l : List (α × α)) : (l.map (Prod.map f f)).map Prod.swap = (l.map Prod.swap).map (Prod.map f f) := by
  rw [List.map_map, List.map_map]
  rfl

theorem sideTurn_map (hf : Function.Injective f) (a b : List (α × α)) :
    sideTurn (a.map (Prod.map f f)) (b.map (Prod.map f f)) = ((sideTurn a b).1.map (Prod.map f f), (sideTurn a b).2.map (Prod.map f f)) := by
  unfold sideTurn
  rw [swap_map, meet_map (hf.prodMap hf), meet_map (hf.prodMap hf)]
  by_cases h : meet a b = []
  · rw [if_pos h, if_pos (by rw [h]; rfl)]
  · rw [if_neg h, if_neg (by rwa [List.map_eq_nil_iff])]

theorem sideFar_map (hf : Function.Injective f) (e : α × α) (l : List (α × α)) :
    sideFar (Prod.map f f e) (l.map (Prod.map f f)) = (sideFar e l).map (Prod.map f f) := by
  unfold sideFar
  rw [List.find?_map]
  congr 1
  congr 1
  funext s
  simp [hf.eq_iff]

omit [DecidableEq α] [DecidableEq β] in
theorem idxOf_map {γ δ : Type} [BEq γ] [LawfulBEq γ] [BEq δ] [LawfulBEq δ] {g : γ → δ} (hg : Function.Injective g) (x : γ) (l : List γ) :
    (l.map g).idxOf (g x) = l.idxOf x := by
  induction l with
  | nil => rfl
  | cons y l ih =>
    have : (g y == g x) = (y == x) := by rw [Bool.eq_iff_iff, beq_iff_eq, beq_iff_eq, hg.eq_iff]
    rw [List.map_cons, List.idxOf_cons, List.idxOf_cons, ih, this]

theorem turnOpposite_map (hf : Function.Injective f) (base ret : List α) (e s : α × α) :
    turnOpposite (base.map f) (ret.map f) (Prod.map f f e) (Prod.map f f s) = (turnOpposite base ret e s).map (List.map f) := by
  unfold turnOpposite
  have hp := hf.prodMap hf
  have h1 : ((Prod.map f f s).2, (Prod.map f f s).1) = Prod.map f f (s.2, s.1) := rfl
  rw [h1, ringEdges_map, ringEdges_map, idxOf_map hp, idxOf_map hp, List.length_map]
  by_cases h : (s.2, s.1) ∈ ringEdges ret
  · rw [if_pos h, if_pos ((List.mem_map_of_injective hp).mpr h)]
    simp only [Option.map_some, List.map_rotate]
  · rw [if_neg h, if_neg (fun h' => h ((List.mem_map_of_injective hp).mp h'))]
    rfl

theorem orientOppositeFace_map (hf : Function.Injective f) (base ret side : List α) :
    orientOppositeFace (base.map f) (ret.map f) (side.map f) = (orientOppositeFace base ret side).map (List.map f) := by
  unfold orientOppositeFace
  rw [meet_map hf, List.length_map, ringEdges_map, ringEdges_map, sideTurn_map hf]
  split
  · rcases sideTurn (ringEdges base) (ringEdges side) with ⟨_ | ⟨e, _ | ⟨e', t⟩⟩, se⟩
    · rfl
    · show (sideFar (Prod.map f f e) (se.map (Prod.map f f))).bind (turnOpposite (base.map f) (ret.map f) (Prod.map f f e)) =
        ((sideFar e se).bind (turnOpposite base ret e)).map (List.map f)
      rw [sideFar_map hf]
      cases sideFar e se with
      | none => rfl
      | some s => exact turnOpposite_map hf base ret e s
    · rfl
  · rfl

theorem firstSide_map (f : α → β) (faces : List (List α)) (b o : Nat) :
    firstSide (faces.map (List.map f)) b o = (firstSide faces b o).map (List.map f) := by
  unfold firstSide
  rw [List.zipIdx_map, List.find?_map, Option.map_map, Option.map_map]
  rfl

theorem arrangeOpposite_map (hf : Function.Injective f) (faces : List (List α)) (b o : Nat) (base opp : List α) :
    arrangeOpposite (faces.map (List.map f)) b o (base.map f) (opp.map f) = (arrangeOpposite faces b o base opp).map (List.map f) := by
  have e : (opp.map f).take 1 ++ ((opp.map f).drop 1).reverse = (opp.take 1 ++ (opp.drop 1).reverse).map f := by
    rw [List.map_append, List.map_take, List.map_reverse, List.map_drop]
  unfold arrangeOpposite
  rw [firstSide_map, e]
  cases firstSide faces b o with
  | none => rfl
  | some s => exact orientOppositeFace_map hf _ _ _

theorem prismOf_map (hf : Function.Injective f) (faces : List (List α)) (b o : Nat) :
    prismOf (faces.map (List.map f)) b o = (prismOf faces b o).map (List.map f) := by
  unfold prismOf
  rw [List.getElem?_map, List.getElem?_map]
  cases faces[b]? with
  | none => rfl
  | some base =>
    cases faces[o]? with
    | none => rfl
    | some opp =>
      show ((arrangeOpposite (faces.map (List.map f)) b o (base.map f) (opp.map f)).map (base.map f ++ ·)) = _
      show _ = ((arrangeOpposite faces b o base opp).map (base ++ ·)).map (List.map f)
      rw [arrangeOpposite_map hf]
      generalize arrangeOpposite faces b o base opp = x
      cases x with
      | none => rfl
      | some r => simp

/-- The faces, with other nodes -/
def mapFaces (f : α → β) (fs : List (Int × List α)) : List (Int × List β) := fs.map fun x => (x.1, x.2.map f)

theorem mapFaces_fst (f : α → β) (fs : List (Int × List α)) : (mapFaces f fs).map Prod.fst = fs.map Prod.fst := by
  simp [mapFaces]

theorem mapFaces_snd (f : α → β) (fs : List (Int × List α)) : (mapFaces f fs).map Prod.snd = (fs.map Prod.snd).map (List.map f) := by
  simp [mapFaces]

theorem getD_map_nil (f : α → β) (x : Option (List α)) : (x.map (List.map f)).getD [] = (x.getD []).map f := by
  cases x <;> rfl

theorem tryHexa8_map (hf : Function.Injective f) (fs : List (Int × List α)) :
    tryHexa8 (mapFaces f fs) = (tryHexa8 fs).map (List.map f) := by
  unfold tryHexa8
  have h1 : ((mapFaces f fs).all fun x => x.1 == 4) = fs.all fun x => x.1 == 4 := by
    simp [mapFaces, List.all_map, Function.comp_def]
  rw [h1, mapFaces_snd, ← List.map_drop, ← List.map_take, List.head?_map, getD_map_nil, List.findIdx?_map, ← List.map_take]
  have h2 : ((fun g => (meet (((fs.map Prod.snd).head?.getD []).map f) g).isEmpty) ∘ List.map f) =
      fun g => (meet ((fs.map Prod.snd).head?.getD []) g).isEmpty := by
    funext g
    simp [meet_map hf]
  rw [h2]
  split
  · cases ((fs.map Prod.snd).drop 1 |>.take 5).findIdx? fun g => (meet ((fs.map Prod.snd).head?.getD []) g).isEmpty with
    | none => rfl
    | some k => exact prismOf_map hf _ _ _
  · rfl

theorem prismBetween_map (hf : Function.Injective f) (faces : List (List α)) (p : Nat × Nat) :
    prismBetween (faces.map (List.map f)) p = (prismBetween faces p).map (List.map f) := by
  unfold prismBetween
  rw [List.getElem?_map, List.getElem?_map, getD_map_nil, getD_map_nil, meet_map hf]
  by_cases h : meet ((faces[p.1]?).getD []) ((faces[p.2]?).getD []) = []
  · rw [if_pos h, if_pos (by rw [h]; rfl)]
    exact prismOf_map hf _ _ _
  · rw [if_neg h, if_neg (by rwa [List.map_eq_nil_iff])]
    rfl

theorem tryHexgp12_map (hf : Function.Injective f) (fs : List (Int × List α)) :
    tryHexgp12 (mapFaces f fs) = (tryHexgp12 fs).map (List.map f) := by
  unfold tryHexgp12
  rw [mapFaces_fst, mapFaces_snd]
  generalize fs.map Prod.snd = G
  generalize fs.map Prod.fst = T
  dsimp only
  rw [List.getElem?_map, List.getElem?_map, getD_map_nil, getD_map_nil, List.length_map, List.length_map, prismBetween_map hf]
  split
  · split <;> rfl
  · rfl

theorem tryPenta6_map (hf : Function.Injective f) (fs : List (Int × List α)) :
    tryPenta6 (mapFaces f fs) = (tryPenta6 fs).map (List.map f) := by
  unfold tryPenta6
  rw [mapFaces_fst, mapFaces_snd, prismBetween_map hf]
  split <;> rfl

theorem coneLoop_cons (base g : List α) (fs : List (List α)) (p : Option α) : coneLoop base (g :: fs) p =
    if (meet g base).length = 2 then
      match minus g base, p with
      | [x], none => coneLoop base fs (some x)
      | [x], some y => if y = x then coneLoop base fs (some y) else none
      | _, _ => none
    else none := rfl

theorem coneLoop_map (hf : Function.Injective f) (base : List α) (fs : List (List α)) (p : Option α) :
    coneLoop (base.map f) (fs.map (List.map f)) (p.map f) = (coneLoop base fs p).map f := by
  induction fs generalizing p with
  | nil => rfl
  | cons g fs ih =>
    rw [List.map_cons, coneLoop_cons, coneLoop_cons, meet_map hf, List.length_map, minus_map hf]
    split
    · rcases minus g base with _ | ⟨x, _ | ⟨y, t⟩⟩
      · cases p <;> rfl
      · cases p with
        | none => exact ih (some x)
        | some y =>
          simp only [List.map_cons, List.map_nil, Option.map_some, hf.eq_iff]
          split
          · exact ih (some y)
          · rfl
      · cases p <;> rfl
    · rfl

theorem eraseIdx_map (f : α → β) (l : List α) (i : Nat) : (l.map f).eraseIdx i = (l.eraseIdx i).map f := by
  rw [List.eraseIdx_eq_take_drop_succ, List.eraseIdx_eq_take_drop_succ, List.map_append, List.map_take, List.map_drop]

omit [DecidableEq α] [DecidableEq β] in
theorem eraseIdx_maps (f : List α → List β) (l : List (List α)) (i : Nat) : (l.map f).eraseIdx i = (l.eraseIdx i).map f := by
  rw [List.eraseIdx_eq_take_drop_succ, List.eraseIdx_eq_take_drop_succ, List.map_append, List.map_take, List.map_drop]

theorem tryPyra5_map (hf : Function.Injective f) (fs : List (Int × List α)) :
    tryPyra5 (mapFaces f fs) = (tryPyra5 fs).map (List.map f) := by
  unfold tryPyra5
  rw [mapFaces_fst, mapFaces_snd]
  dsimp only
  rw [List.getElem?_map, eraseIdx_maps]
  split
  · cases (fs.map Prod.snd)[(fs.map Prod.fst).idxOf 4]? with
    | none => rfl
    | some base =>
      have := coneLoop_map hf base ((fs.map Prod.snd).eraseIdx ((fs.map Prod.fst).idxOf 4)) none
      rw [Option.map_none] at this
      show (coneLoop (base.map f) _ none).map _ =
        ((coneLoop base ((fs.map Prod.snd).eraseIdx ((fs.map Prod.fst).idxOf 4)) none).map fun p => base ++ [p]).map (List.map f)
      rw [this]
      generalize coneLoop base ((fs.map Prod.snd).eraseIdx ((fs.map Prod.fst).idxOf 4)) none = x
      cases x <;> simp
  · rfl

theorem tryTetra4_map (hf : Function.Injective f) (fs : List (Int × List α)) :
    tryTetra4 (mapFaces f fs) = (tryTetra4 fs).map (List.map f) := by
  unfold tryTetra4
  have h1 : ((mapFaces f fs).all fun x => x.1 == 3) = fs.all fun x => x.1 == 3 := by
    simp [mapFaces, List.all_map, Function.comp_def]
  rw [h1, mapFaces_snd, ← List.map_take]
  split
  · cases (fs.map Prod.snd).take 4 with
    | nil => rfl
    | cons base others =>
      have := coneLoop_map hf base others none
      rw [Option.map_none] at this
      show (coneLoop (base.map f) (others.map (List.map f)) none).map _ = (Option.map _ (coneLoop base others none)).map _
      rw [this]
      cases coneLoop base others none <;> simp
  · rfl

/-- The search of a usual cell only compares the nodes: it follows the changes of the numbers of the nodes. -/
theorem tryUsual_map (hf : Function.Injective f) (n : Nat) (fs : List (Int × List α)) :
    tryUsual n (mapFaces f fs) = (tryUsual n fs).map fun r => (r.1, r.2.map f) := by
  have hl : (mapFaces f fs).length = fs.length := by simp [mapFaces]
  unfold tryUsual
  rw [hl, tryHexa8_map hf, tryHexgp12_map hf, tryPenta6_map hf, tryPyra5_map hf, tryTetra4_map hf]
  split_ifs <;> simp [Function.comp_def]

end
end MC
