import Verif.BoxProps

/-!
# Ranges in compact format (C42) – proofs
-/

namespace MC

/-- Ranges with `first ≤ second` on each axis. -/
def WfPart (part : List (Int × Int)) : Prop := ∀ r ∈ part, r.1 ≤ r.2

/-- The position shifted. -/
def shiftPos (t q : List Int) : List Int := List.zipWith (· + ·) q t

theorem mapM_cons_ok {α β : Type} {f : α → M β} {a : α} {l : List α} {r : List β} (h : (a :: l).mapM f = .ok r) :
    ∃ b t, f a = .ok b ∧ l.mapM f = .ok t ∧ r = b :: t := by
  rw [List.mapM_cons] at h
  cases ha : f a with
  | error e => rw [ha] at h; cases h
  | ok b =>
    rw [ha, ok_bind] at h
    cases ht : l.mapM f with
    | error e => rw [ht] at h; cases h
    | ok t =>
      rw [ht, ok_bind] at h
      cases h
      exact ⟨b, t, rfl, rfl, rfl⟩

/-- **C42** When `IntersectRanges` gives a result, the positions of the result are exactly the common positions, and the result is well formed. -/
theorem C42_intersectRanges {r1 r2 r : List (Int × Int)} (h : intersectRanges r1 r2 = .ok r) :
    WfPart r1 ∧ WfPart r2 ∧ WfPart r ∧ r.length = r1.length ∧ r1.length = r2.length ∧ ∀ q, InBox r q ↔ InBox r1 q ∧ InBox r2 q := by
  unfold intersectRanges at h
  by_cases hl : r1.length = r2.length
  swap
  · rw [if_pos hl] at h; cases h
  rw [if_neg (by simp [hl])] at h
  induction r1 generalizing r2 r with
  | nil =>
    cases r2 with
    | nil =>
      cases h
      exact ⟨by simp [WfPart], by simp [WfPart], by simp [WfPart], rfl, rfl, fun q => by simp⟩
    | cons => simp at hl
  | cons a r1 ih =>
    cases r2 with
    | nil => simp at hl
    | cons b r2 =>
      rw [List.zip_cons_cons] at h
      obtain ⟨c, t, h1, h2, rfl⟩ := mapM_cons_ok h
      obtain ⟨w1, w2, w3, w4, _, w5⟩ := ih h2 (by simpa using hl)
      simp only [intersectRange] at h1
      by_cases c1 : a.1 > a.2
      · rw [if_pos c1] at h1; cases h1
      rw [if_neg c1] at h1
      by_cases c2 : b.1 > b.2
      · rw [if_pos c2] at h1; cases h1
      rw [if_neg c2] at h1
      by_cases c3 : max a.1 b.1 > min a.2 b.2
      · rw [if_pos c3] at h1; cases h1
      rw [if_neg c3] at h1
      cases h1
      refine ⟨?_, ?_, ?_, by simp [w4], hl, fun q => ?_⟩
      · intro x hx; rcases List.mem_cons.mp hx with rfl | hx
        · omega
        · exact w1 x hx
      · intro x hx; rcases List.mem_cons.mp hx with rfl | hx
        · omega
        · exact w2 x hx
      · intro x hx; rcases List.mem_cons.mp hx with rfl | hx
        · simp only; omega
        · exact w3 x hx
      · constructor
        · intro hq
          cases hq with
          | cons hx hs =>
            obtain ⟨y1, y2⟩ := (w5 _).mp hs
            simp only at hx
            exact ⟨.cons (by omega) y1, .cons (by omega) y2⟩
        · rintro ⟨x1, x2⟩
          cases x1 with
          | cons hx hs =>
            cases x2 with
            | cons hx' hs' => exact .cons (by simp only; omega) ((w5 _).mpr ⟨hs, hs'⟩)

/-- **C42** When `IntersectRanges` throws on well formed ranges of the same dimension, there is no common position. -/
theorem C42_intersectRanges_throws {r1 r2 : List (Int × Int)} (hl : r1.length = r2.length) (hw1 : WfPart r1) (hw2 : WfPart r2) :
    (∃ r, intersectRanges r1 r2 = .ok r) ∨ (intersectRanges r1 r2 = .error .exn ∧ ¬ ∃ q, InBox r1 q ∧ InBox r2 q) := by
  unfold intersectRanges
  rw [if_neg (by simp [hl])]
  induction r1 generalizing r2 with
  | nil => cases r2 with
    | nil => exact Or.inl ⟨[], rfl⟩
    | cons => simp at hl
  | cons a r1 ih =>
    cases r2 with
    | nil => simp at hl
    | cons b r2 =>
      have ha := hw1 a (by simp)
      have hb := hw2 b (by simp)
      have ih := ih (r2 := r2) (by simpa using hl) (fun x hx => hw1 x (by simp [hx])) (fun x hx => hw2 x (by simp [hx]))
      rw [List.zip_cons_cons, List.mapM_cons]
      simp only [intersectRange]
      rw [if_neg (by omega), if_neg (by omega)]
      by_cases c3 : max a.1 b.1 > min a.2 b.2
      · rw [if_pos c3]
        refine Or.inr ⟨rfl, ?_⟩
        rintro ⟨q, x1, x2⟩
        cases x1 with
        | cons hx hs => cases x2 with
          | cons hx' hs' => omega
      · rw [if_neg c3, ok_bind]
        rcases ih with ⟨r, hr⟩ | ⟨hr, hno⟩
        · exact Or.inl ⟨_ :: r, by
            simp only [intersectRange] at hr
            rw [hr]; rfl⟩
        · refine Or.inr ⟨by
            simp only [intersectRange] at hr
            rw [hr]; rfl, ?_⟩
          rintro ⟨q, x1, x2⟩
          cases x1 with
          | cons hx hs => cases x2 with
            | cons hx' hs' => exact hno ⟨_, hs, hs'⟩

/-- **C42** `AreRangesIntersect` on ranges with at least one element on each axis: true exactly when they have a common position. -/
theorem C42_areRangesIntersect {r1 r2 : List (Int × Int)} (hl : r1.length = r2.length) (hn1 : ∀ r ∈ r1, r.1 < r.2) (hn2 : ∀ r ∈ r2, r.1 < r.2) :
    ∃ b, areRangesIntersect r1 r2 = .ok b ∧ (b = true ↔ ∃ q, InBox r1 q ∧ InBox r2 q) := by
  unfold areRangesIntersect
  rw [if_neg (by simp [hl])]
  induction r1 generalizing r2 with
  | nil => cases r2 with
    | nil => exact ⟨true, rfl, fun _ => ⟨[], .nil, .nil⟩, fun _ => rfl⟩
    | cons => simp at hl
  | cons a r1 ih =>
    cases r2 with
    | nil => simp at hl
    | cons b r2 =>
      have ha := hn1 a (by simp)
      have hb := hn2 b (by simp)
      obtain ⟨c, e1, e2⟩ := ih (r2 := r2) (by simpa using hl) (fun x hx => hn1 x (by simp [hx])) (fun x hx => hn2 x (by simp [hx]))
      rw [List.zip_cons_cons, areRangesLoop, if_neg (by omega), if_neg (by omega)]
      have no : (a.2 ≤ b.1 ∨ a.1 ≥ b.2) → ¬ ∃ q, InBox (a :: r1) q ∧ InBox (b :: r2) q := by
        rintro hd ⟨q, x1, x2⟩
        cases x1 with
        | cons hx hs => cases x2 with
          | cons hx' hs' => omega
      by_cases c1 : a.2 ≤ b.1
      · rw [if_pos c1]
        exact ⟨false, rfl, by simpa using no (Or.inl c1)⟩
      rw [if_neg c1]
      by_cases c2 : a.1 ≥ b.2
      · rw [if_pos c2]
        exact ⟨false, rfl, by simpa using no (Or.inr c2)⟩
      rw [if_neg c2]
      refine ⟨c, e1, ?_⟩
      rw [e2]
      constructor
      · rintro ⟨q, x1, x2⟩
        exact ⟨max a.1 b.1 :: q, .cons (by omega) x1, .cons (by omega) x2⟩
      · rintro ⟨q, x1, x2⟩
        cases x1 with
        | cons hx hs => cases x2 with
          | cons hx' hs' => exact ⟨_, hs, hs'⟩

/-- Finding: an empty range strictly inside another one "intersects" it, though they have no position in common. -/
theorem C42_empty_intersects : areRangesIntersect [(2, 2)] [(0, 5)] = .ok true ∧ areRangesIntersect [(0, 0)] [(0, 5)] = .ok false ∧
    ¬ ∃ q, InBox [(2, 2)] q ∧ InBox [(0, 5)] q := by
  refine ⟨rfl, rfl, ?_⟩
  rintro ⟨q, x1, _⟩
  cases x1 with
  | cons hx hs => simp only at hx; omega

/-- `part` lies inside `big` and begins inside it, on each axis. -/
def PartInside (big part : List (Int × Int)) : Prop :=
  List.Forall₂ (fun (b p : Int × Int) => b.1 ≤ p.1 ∧ p.1 < b.2 ∧ p.1 ≤ p.2 ∧ p.2 ≤ b.2) big part

theorem forall₂_zip {R : Int × Int → Int × Int → Prop} : ∀ {a b : List (Int × Int)}, a.length = b.length →
    ((∀ x ∈ List.zip a b, R x.1 x.2) ↔ List.Forall₂ R a b)
  | [], [], _ => ⟨fun _ => .nil, fun _ => by simp⟩
  | [], _ :: _, h => by simp at h
  | _ :: _, [], h => by simp at h
  | x :: a, y :: b, h => by
    simp only [List.zip_cons_cons, List.mem_cons, List.forall₂_cons]
    rw [← forall₂_zip (R := R) (a := a) (b := b) (by simpa using h)]
    simp

/-- **C42** `ChangeReferenceFromGlobalOfCompactFrmt` with check: refused exactly when the part is not inside the big range; the result describes the
same positions relatively to the beginning of the big range. -/
theorem C42_fromGlobal (big part : List (Int × Int)) :
    (PartInside big part → ∃ r, changeReferenceFromGlobal big part true = .ok r ∧
      (∀ q, InBox part q ↔ ∃ q', InBox r q' ∧ q = shiftPos (big.map (·.1)) q') ∧ changeReferenceToGlobal big r true = .ok part) ∧
    (¬ PartInside big part → changeReferenceFromGlobal big part true = .error .exn) := by
  have chk := mapM_check (fun bp : (Int × Int) × (Int × Int) =>
      if true = true ∧ bp.1.1 > bp.1.2 then throwX
      else if true = true ∧ (bp.2.1 < bp.1.1 ∨ bp.2.1 ≥ bp.1.2) then throwX
      else if true = true ∧ (bp.2.2 < bp.2.1 ∨ bp.2.2 > bp.1.2) then throwX
      else .ok (bp.2.1 - bp.1.1, bp.2.2 - bp.1.1)) (fun bp => (bp.2.1 - bp.1.1, bp.2.2 - bp.1.1))
      (fun bp => bp.1.1 ≤ bp.2.1 ∧ bp.2.1 < bp.1.2 ∧ bp.2.1 ≤ bp.2.2 ∧ bp.2.2 ≤ bp.1.2)
      (fun a ha => by rw [if_neg (by omega), if_neg (by omega), if_neg (by omega)])
      (fun a ha => by
        by_cases h1 : true = true ∧ a.1.1 > a.1.2
        · rw [if_pos h1]; rfl
        · by_cases h2 : true = true ∧ (a.2.1 < a.1.1 ∨ a.2.1 ≥ a.1.2)
          · rw [if_neg h1, if_pos h2]; rfl
          · rw [if_neg h1, if_neg h2, if_pos (by simp only [true_and] at h1 h2 ⊢; omega)]; rfl) (List.zip big part)
  unfold changeReferenceFromGlobal
  by_cases hl : big.length = part.length
  swap
  · rw [if_pos hl]
    exact ⟨fun h => absurd h.length_eq hl, fun _ => rfl⟩
  rw [if_neg (by simp [hl])]
  rw [forall₂_zip (R := fun (b p : Int × Int) => b.1 ≤ p.1 ∧ p.1 < b.2 ∧ p.1 ≤ p.2 ∧ p.2 ≤ b.2) hl] at chk
  refine ⟨fun h => ⟨_, chk.1 h, ?_⟩, chk.2⟩
  clear chk
  induction h with
  | nil =>
    refine ⟨fun q => ⟨fun h => ?_, ?_⟩, rfl⟩
    · cases h; exact ⟨[], .nil, rfl⟩
    · rintro ⟨q', h, rfl⟩; cases h; exact .nil
  | cons h hs ih =>
    rename_i b p big part
    obtain ⟨ih1, ih2⟩ := ih (by simpa using hl)
    constructor
    · intro q
      constructor
      · intro hq
        cases hq with
        | cons hx hs =>
          rename_i x q
          obtain ⟨q', w1, w2⟩ := (ih1 q).mp hs
          refine ⟨(x - b.1) :: q', .cons (by simp only; omega) w1, ?_⟩
          simp only [shiftPos, List.map_cons, List.zipWith_cons_cons]
          rw [w2]
          congr 1; omega
      · rintro ⟨q', hq, rfl⟩
        rw [List.zip_cons_cons, List.map_cons] at hq
        cases hq with
        | cons hx hs =>
          simp only [shiftPos, List.map_cons, List.zipWith_cons_cons]
          simp only at hx
          exact .cons (by omega) ((ih1 _).mpr ⟨_, hs, rfl⟩)
    · unfold changeReferenceToGlobal at ih2 ⊢
      have hl' : big.length = (List.map (fun bp : (Int × Int) × (Int × Int) => (bp.2.1 - bp.1.1, bp.2.2 - bp.1.1)) (List.zip big part)).length := by
        simp only [List.length_cons] at hl
        simp; omega
      rw [if_neg (by simp [hl'.symm])] at ih2
      rw [if_neg (by simp only [List.zip_cons_cons, List.map_cons, List.length_cons]; omega)]
      rw [List.zip_cons_cons, List.map_cons, List.zip_cons_cons, List.mapM_cons, ih2]
      simp only
      rw [if_neg (by omega), if_neg (by omega), if_neg (by omega)]
      have : (p.1 - b.1 + b.1, p.2 - b.1 + b.1) = p := by
        obtain ⟨p1, p2⟩ := p
        simp
      rw [this]
      rfl

theorem inBox_translate : ∀ {part : List (Int × Int)} {t : List Int}, t.length = part.length → ∀ q,
    InBox (List.zipWith (fun (r : Int × Int) d => (r.1 + d, r.2 + d)) part t) q ↔ ∃ q', InBox part q' ∧ q = shiftPos t q'
  | [], t, h, q => by
    constructor
    · intro h; cases h; exact ⟨[], .nil, by simp [shiftPos]⟩
    · rintro ⟨q', h, rfl⟩; cases h; simp [shiftPos]; exact .nil
  | _ :: _, [], h, _ => by simp at h
  | r :: part, d :: t, h, q => by
    have ih := inBox_translate (part := part) (t := t) (by simpa using h)
    rw [List.zipWith_cons_cons]
    constructor
    · intro hq
      cases hq with
      | cons hx hs =>
        rename_i x q
        obtain ⟨q', w1, rfl⟩ := (ih q).mp hs
        refine ⟨(x - d) :: q', .cons (by simp only at hx; omega) w1, ?_⟩
        simp only [shiftPos, List.zipWith_cons_cons]
        congr 1; omega
    · rintro ⟨q', hq, rfl⟩
      cases hq with
      | cons hx hs =>
        simp only [shiftPos, List.zipWith_cons_cons]
        exact .cons (by simp only; omega) ((ih _).mpr ⟨_, hs, rfl⟩)

/-- **C42** `TranslateCompactFrmt` moves exactly the positions of the part by the vector. -/
theorem C42_translate {part : List (Int × Int)} {t : List Int} (h : t.length = part.length) :
    ∃ r, translateCompactFrmt part t = .ok r ∧ ∀ q, InBox r q ↔ ∃ q', InBox part q' ∧ q = shiftPos t q' := by
  refine ⟨_, ?_, inBox_translate h⟩
  unfold translateCompactFrmt
  rw [if_neg (by simp [h])]

/-- **C42** `FindTranslationFrom` finds the vector which brings one part on another of the same dimensions. -/
theorem C42_findTranslation {a b : List (Int × Int)} (h : boxDims a = boxDims b) :
    ∃ t, findTranslationFrom a b = .ok t ∧ translateCompactFrmt a t = .ok b := by
  have hl : a.length = b.length := by simpa [boxDims] using congrArg List.length h
  refine ⟨_, by unfold findTranslationFrom; rw [if_neg (by simp [hl])], ?_⟩
  unfold translateCompactFrmt
  rw [if_neg (by simp [hl])]
  congr 1
  induction a generalizing b with
  | nil =>
    cases b with
    | nil => rfl
    | cons => simp at hl
  | cons x a ih =>
    cases b with
    | nil => simp at hl
    | cons y b =>
      simp only [boxDims, List.map_cons, List.cons.injEq] at h
      simp only [List.zipWith_cons_cons]
      rw [ih h.2 (by simpa using hl)]
      congr 1
      obtain ⟨y1, y2⟩ := y
      simp only [Prod.mk.injEq] at h ⊢
      omega

/-- **C42** `PutInGhostFormat`: accepted exactly for parts inside the structure; the new part holds the same positions moved by the width of the
ghost layer and stays that far from the border of the new structure. -/
theorem C42_ghost {g : Int} (hg : 0 ≤ g) (st : List Int) (part : List (Int × Int)) :
    (BoxIn st part → ∃ st' part', putInGhostFormat g st part = .ok (st', part') ∧ st' = st.map (· + 2 * g) ∧
      (∀ q, InBox part' q ↔ ∃ q', InBox part q' ∧ q = q'.map (· + g)) ∧
      List.Forall₂ (fun (r : Int × Int) n => g ≤ r.1 ∧ r.1 ≤ r.2 ∧ r.2 ≤ n - g) part' st') ∧
    (¬ BoxIn st part → putInGhostFormat g st part = .error .exn) := by
  unfold putInGhostFormat
  rw [if_neg (by omega)]
  constructor
  · intro h
    rw [if_neg (by simp [h.length_eq]), if_neg]
    · simp only [applyGhost]
      rw [if_neg (by omega), ok_bind]
      refine ⟨_, _, rfl, rfl, ?_, ?_⟩
      · intro q
        clear h
        induction part generalizing q with
        | nil =>
          constructor
          · intro h; cases h; exact ⟨[], .nil, rfl⟩
          · rintro ⟨q', h, rfl⟩; cases h; exact .nil
        | cons r part ih =>
          rw [List.map_cons]
          constructor
          · intro hq
            cases hq with
            | cons hx hs =>
              rename_i x q
              obtain ⟨q', w1, rfl⟩ := (ih q).mp hs
              refine ⟨(x - g) :: q', .cons (by simp only at hx; omega) w1, ?_⟩
              rw [List.map_cons]
              congr 1; omega
          · rintro ⟨q', hq, rfl⟩
            cases hq with
            | cons hx hs =>
              rw [List.map_cons]
              exact .cons (by simp only; omega) ((ih _).mpr ⟨_, hs, rfl⟩)
      · induction h with
        | nil => exact .nil
        | cons h hs ih => exact .cons (by simp only; omega) ih
    · simp only [List.any_eq_true, decide_eq_true_eq, not_exists, not_and]
      rintro ⟨r, n⟩ hm
      have := (zip_all_iff h.length_eq.symm (fun (r : Int × Int) n => 0 ≤ r.1 ∧ r.1 ≤ r.2 ∧ r.2 ≤ n)).mpr h (r, n) hm
      simp only at this ⊢
      omega
  · intro h
    by_cases hl : st.length = part.length
    · rw [if_neg (by simp [hl]), if_pos]
      · rfl
      · simp only [List.any_eq_true, decide_eq_true_eq]
        by_contra hc
        apply h
        refine (zip_all_iff hl (fun (r : Int × Int) n => 0 ≤ r.1 ∧ r.1 ≤ r.2 ∧ r.2 ≤ n)).mp fun rn hm => ?_
        by_contra hn
        exact hc ⟨rn, hm, by omega⟩
    · rw [if_pos hl]; rfl

example : intersectRanges [(0, 3), (1, 5)] [(2, 6), (0, 2)] = .ok [(2, 3), (1, 2)] ∧ intersectRanges [(0, 3)] [(4, 6)] = .error .exn ∧
    areRangesIntersect [(0, 3), (1, 5)] [(2, 6), (0, 2)] = .ok true ∧
    changeReferenceFromGlobal [(10, 20), (5, 9)] [(12, 15), (5, 9)] true = .ok [(2, 5), (0, 4)] ∧
    putInGhostFormat 2 [10, 8] [(1, 4), (0, 8)] = .ok ([14, 12], [(3, 6), (2, 10)]) ∧
    findTranslationFrom [(0, 3), (1, 5)] [(2, 5), (0, 4)] = .ok [2, -1] := ⟨rfl, rfl, rfl, rfl, rfl, rfl⟩

end MC
