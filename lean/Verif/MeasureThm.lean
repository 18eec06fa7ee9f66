import Verif.MeasureProps

/-!
# C98: lengths, areas and volumes of cells
-/

namespace MC

section
variable {K : Type} [Field K]

/-! ## Reading the nodes -/

/-- The point of a node of the mesh -/
def ptNode (coords : List (List K)) (n : Int) : Nat → K := tupPt (coords.getD n.toNat [])

theorem nodePt_char (coords : List (List K)) (n : Int) :
    nodePt coords n = if 0 ≤ n ∧ n < coords.length then .ok (ptNode coords n) else undef := by
  unfold nodePt ptNode rd
  by_cases h0 : 0 ≤ n
  · obtain ⟨m, rfl⟩ := Int.eq_ofNat_of_zero_le h0
    by_cases hm : m < coords.length
    · simp [hm, List.getD_eq_getElem?_getD, ok_bind]
    · simp [hm]
      rfl
  · simp [h0]
    rfl

theorem mapM_all {α β : Type} (f : α → M β) (g : α → β) (P : α → Prop) [DecidablePred P] (l : List α)
    (h : ∀ a ∈ l, f a = if P a then .ok (g a) else undef) :
    l.mapM f = if ∀ a ∈ l, P a then .ok (l.map g) else undef := by
  induction l with
  | nil => simp; rfl
  | cons a l ih =>
    rw [List.mapM_cons, h a (by simp), ih fun x hx => h x (by simp [hx])]
    by_cases ha : P a
    · by_cases hl : ∀ x ∈ l, P x
      · rw [if_pos ha, if_pos hl, if_pos (by simpa using ⟨ha, hl⟩)]
        rfl
      · rw [if_pos ha, if_neg hl, if_neg (fun h => hl fun x hx => h x (List.mem_cons_of_mem _ hx))]
        rfl
    · have : ¬ ∀ x ∈ a :: l, P x := fun h => ha (h a List.mem_cons_self)
      simp only [if_neg ha, if_neg this]
      rfl

theorem nodePts_char (coords : List (List K)) (nodes : List Int) (n : Nat) :
    nodePts coords nodes n =
      if n ≤ nodes.length ∧ ∀ c ∈ nodes.take n, 0 ≤ c ∧ c < coords.length then .ok ((nodes.take n).map (ptNode coords))
      else undef := by
  unfold nodePts
  rw [mapM_all (fun i : Nat => do
    let c ← rd nodes i
    nodePt coords c) (fun i => ptNode coords (nodes.getD i 0))
    (fun i => i < nodes.length ∧ 0 ≤ nodes.getD i 0 ∧ nodes.getD i 0 < coords.length)]
  · by_cases hn : n ≤ nodes.length
    · have e1 : (∀ a ∈ List.range n, a < nodes.length ∧ 0 ≤ nodes.getD a 0 ∧ nodes.getD a 0 < coords.length) ↔
          (n ≤ nodes.length ∧ ∀ c ∈ nodes.take n, 0 ≤ c ∧ c < coords.length) := by
        constructor
        · intro h
          refine ⟨hn, fun c hc => ?_⟩
          obtain ⟨i, hi, rfl⟩ := List.mem_iff_getElem.mp hc
          have hi' : i < n := by simp at hi; omega
          have := (h i (by simpa using hi')).2
          rw [getD_of_lt _ (by omega)] at this
          simpa using this
        · rintro ⟨_, h⟩ i hi
          have hi' : i < n := by simpa using hi
          have hl : i < nodes.length := by omega
          rw [getD_of_lt _ hl]
          exact ⟨hl, h _ (by rw [List.mem_take_iff_getElem]; exact ⟨i, by omega, rfl⟩)⟩
      by_cases h : ∀ a ∈ List.range n, a < nodes.length ∧ 0 ≤ nodes.getD a 0 ∧ nodes.getD a 0 < coords.length
      · rw [if_pos h, if_pos (e1.mp h)]
        congr 1
        refine List.ext_getElem (by simp [hn]) ?_
        intro i h1 h2
        have hi : i < nodes.length := by simp at h1; omega
        simp [getD_of_lt, hi]
      · rw [if_neg h, if_neg fun h' => h (e1.mpr h')]
    · rw [if_neg, if_neg (by intro h; exact hn h.1)]
      intro h
      have := (h nodes.length (by simp; omega)).1
      omega
  · intro i _
    by_cases hi : i < nodes.length
    · have : rd nodes (i : Int) = .ok nodes[i] := by simp [rd, hi]
      rw [this, ok_bind, nodePt_char, getD_of_lt _ hi]
      simp [hi]
    · have : rd nodes (i : Int) = undef := by simp [rd, hi, undef]
      rw [this, if_neg (by intro h; exact hi h.1)]
      rfl

/-! ## Faces -/

theorem takeWhile_all_app (f : List Int) (l : List Int) (h : ∀ n ∈ f, n ≠ -1) :
    (f ++ -1 :: l).takeWhile (· ≠ -1) = f ∧ (f ++ -1 :: l).dropWhile (· ≠ -1) = -1 :: l := by
  induction f with
  | nil => simp
  | cons a f ih =>
    have := ih fun n hn => h n (by simp [hn])
    have ha := h a (by simp)
    simp only [List.cons_append, List.takeWhile_cons, List.dropWhile_cons]
    simp only [ha, ne_eq, not_false_eq_true, decide_true, if_true]
    exact ⟨by simpa using this.1, by simpa using this.2⟩

theorem takeWhile_nosep (f : List Int) (h : ∀ n ∈ f, n ≠ -1) :
    f.takeWhile (· ≠ -1) = f ∧ f.dropWhile (· ≠ -1) = [] := by
  induction f with
  | nil => simp
  | cons a f ih =>
    have := ih fun n hn => h n (by simp [hn])
    have ha := h a (by simp)
    simp only [List.takeWhile_cons, List.dropWhile_cons]
    simp only [ha, ne_eq, not_false_eq_true, decide_true, if_true]
    exact ⟨by simpa using this.1, by simpa using this.2⟩

/-- Faces which have nodes, none of which is -1 -/
def GoodFaces (fs : List (List Int)) : Prop := ∀ f ∈ fs, f ≠ [] ∧ ∀ n ∈ f, n ≠ -1

theorem count_joinFaces1 (fs : List (List Int)) (h : GoodFaces fs) (hne : fs ≠ []) :
    (joinFaces fs).count (-1) + 1 = fs.length := by
  induction fs with
  | nil => exact absurd rfl hne
  | cons f fs ih =>
    have hf : f.count (-1) = 0 := List.count_eq_zero.mpr fun hm => (h f (by simp)).2 _ hm rfl
    cases fs with
    | nil => simp [joinFaces, hf]
    | cons g fs =>
      have := ih (fun x hx => h x (by simp [hx])) (by simp)
      simp only [joinFaces, List.count_append, hf, List.count_cons, List.length_cons] at this ⊢
      simp
      omega

theorem facesLoop_join (fs : List (List Int)) (h : GoodFaces fs) : facesLoop fs.length (joinFaces fs) = .ok fs := by
  induction fs with
  | nil => rfl
  | cons f fs ih =>
    have hf := h f (by simp)
    have ih' := ih fun x hx => h x (by simp [hx])
    obtain ⟨a, f', rfl⟩ := List.exists_cons_of_ne_nil hf.1
    have hf' : ∀ n ∈ f', n ≠ -1 := fun n hn => hf.2 n (by simp [hn])
    cases fs with
    | nil =>
      simp only [joinFaces, facesLoop, List.length_cons, List.length_nil, Nat.zero_add, nextFace, ok_bind]
      rw [(takeWhile_nosep f' hf').1]
    | cons g fs =>
      have e : joinFaces ((a :: f') :: g :: fs) = a :: (f' ++ -1 :: joinFaces (g :: fs)) := rfl
      rw [e]
      show (do
        let x ← nextFace (a :: (f' ++ -1 :: joinFaces (g :: fs)))
        let r ← facesLoop (g :: fs).length x.2
        Except.ok (x.1 :: r) : M _) = _
      simp only [nextFace, ok_bind]
      rw [(takeWhile_all_app f' _ hf').1, (takeWhile_all_app f' _ hf').2]
      simp only [List.drop_succ_cons, List.drop_zero]
      rw [ih']
      rfl

theorem facesOfPolyh_join (fs : List (List Int)) (h : GoodFaces fs) (hne : fs ≠ []) :
    facesOfPolyh (joinFaces fs) = .ok fs := by
  unfold facesOfPolyh
  rw [count_joinFaces1 fs h hne, facesLoop_join fs h]

theorem volPolyh_join (coords : List (List K)) (fs : List (List Int)) (h : GoodFaces fs) (hne : fs ≠ []) :
    volPolyh coords (joinFaces fs) =
      if ∀ f ∈ fs, ∀ c ∈ f, 0 ≤ c ∧ c < coords.length then .ok (polyVol (fs.map (List.map (ptNode coords)))) else undef := by
  unfold volPolyh
  rw [facesOfPolyh_join fs h hne, ok_bind]
  rw [mapM_all (fun f => do
    let ps ← nodePts coords f f.length
    .ok (faceTerm ps)) (fun f => faceTerm (f.map (ptNode coords))) (fun f => ∀ c ∈ f, 0 ≤ c ∧ c < coords.length)]
  · split
    · simp [polyVol, List.map_map, Function.comp_def, ok_bind]
    · rfl
  · intro f _
    rw [nodePts_char]
    simp only [le_refl, List.take_length, true_and]
    split
    · rfl
    · rfl

end
end MC
