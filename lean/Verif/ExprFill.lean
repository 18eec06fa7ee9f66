import Verif.ExprParse

/-!
# The numbers of a well written text are replaced by their ranks
-/

namespace MC
variable {V : Type}

/-! ## Searching in a text -/

theorem findFromPos_at {p : Char → Bool} {u w z : List Char} {c : Char} (hw : ∀ x ∈ w, p x = false) (hc : p c = true) :
    findFromPos p (u ++ (w ++ c :: z)) u.length = some (u.length + w.length) := by
  have h := findFromPos_first (p := p) (u := w) (r := z) (c := c) hw hc
  unfold findFromPos at h ⊢
  rw [List.drop_left]
  rw [List.drop_zero] at h
  split at h
  · rw [if_pos (by assumption)]
    simp only [Option.some.injEq, Nat.zero_add] at h
    rw [h]
  · simp at h

theorem findFromPos_end {p : Char → Bool} {u w : List Char} (hw : ∀ x ∈ w, p x = false) : findFromPos p (u ++ w) u.length = none := by
  unfold findFromPos
  rw [List.drop_left, any_false hw]; rfl

theorem findFromPos_skip {p : Char → Bool} {u w r : List Char} (hw : ∀ x ∈ w, p x = false) :
    findFromPos p (u ++ (w ++ r)) u.length = findFromPos p (u ++ (w ++ r)) (u ++ w).length := by
  unfold findFromPos
  rw [List.drop_left, show u ++ (w ++ r) = (u ++ w) ++ r by simp, List.drop_left, List.any_append, any_false hw]
  simp only [Bool.false_or]
  split
  · congr 1
    rw [List.findIdx_append]
    have : ¬ w.findIdx p < w.length := by
      rw [List.findIdx_lt_length]; rintro ⟨x, hx, hx'⟩; simp [hw x hx] at hx'
    rw [if_neg this, List.length_append]; omega
  · rfl

theorem getElem?_at (u z : List Char) (c : Char) : (u ++ c :: z)[u.length]? = some c := by simp

/-! ## Reading a number -/

theorem IsNumber.head {l : List Char} (h : IsNumber l) : ∃ c r, l = c :: r ∧ isFig c = true := by
  obtain ⟨d1, pt, ex, rfl, hne, hd, _⟩ := h
  obtain ⟨c, r, rfl⟩ := List.exists_cons_of_ne_nil hne
  exact ⟨c, r ++ pt ++ ex, by simp, hd c (by simp)⟩

theorem fig_ne {c : Char} (h : isFig c = true) : c ≠ '.' ∧ c ≠ 'e' ∧ c ≠ 'E' ∧ c ≠ '+' ∧ c ≠ '-' := by
  refine ⟨?_, ?_, ?_, ?_, ?_⟩ <;> (rintro rfl; revert h; decide)

theorem takeWhile_run {p : Char → Bool} {d r : List Char} (hd : ∀ c ∈ d, p c = true) (hr : ∀ c, r.head? = some c → p c = false) :
    (d ++ r).takeWhile p = d ∧ (d ++ r).dropWhile p = r := by
  rw [List.takeWhile_append_of_pos hd, List.dropWhile_append_of_pos hd, takeWhile_stop hr, dropWhile_stop hr]
  simp

theorem readDouble_number {l : List Char} (h : IsNumber l) : readDouble l = some (true, l) := by
  obtain ⟨d1, pt, ex, rfl, hne, hd, hpt, hex⟩ := h
  obtain ⟨c, r, hcr⟩ := List.exists_cons_of_ne_nil hne
  have hcf : isFig c = true := hd c (by rw [hcr]; simp)
  have hhead : (d1 ++ pt ++ ex).head? = some c := by rw [hcr]; simp
  have h1 : (d1 ++ pt ++ ex).dropWhile Char.isWhitespace = d1 ++ pt ++ ex :=
    dropWhile_stop (by rw [hhead]; rintro _ ⟨⟩; exact fig_not_white hcf)
  have h2 : (d1 ++ pt ++ ex).takeWhile isSign = [] :=
    takeWhile_stop (by rw [hhead]; rintro _ ⟨⟩; exact fig_not_sign hcf)
  have hexh : ∀ x, ex.head? = some x → isFig x = false ∧ x ≠ '.' := by
    rcases hex with rfl | ⟨e, sg, d3, rfl, he, _⟩
    · simp
    · rintro x ⟨⟩
      rcases he with rfl | rfl <;> decide
  have h3 := takeWhile_run (p := isFig) (d := d1) (r := pt ++ ex) hd (by
    rcases hpt with rfl | ⟨d2, rfl, _⟩
    · intro x hx; exact (hexh x hx).1
    · rintro x ⟨⟩; decide)
  rw [← List.append_assoc] at h3
  have hend : ∀ q : List Char, readExp q ex = some (true, q ++ ex) := by
    intro q
    unfold readExp
    rcases hex with rfl | ⟨e, sg, d3, rfl, he, hsg, hd3, hf3⟩
    · simp
    · obtain ⟨f, r3, hfr⟩ := List.exists_cons_of_ne_nil hd3
      have hff : isFig f = true := hf3 f (by rw [hfr]; simp)
      have ht : ((sg ++ d3).takeWhile isSign).take 1 = sg := by
        rcases hsg with rfl | rfl | rfl
        · rw [List.nil_append, takeWhile_stop (by rw [hfr]; rintro _ ⟨⟩; exact fig_not_sign hff)]; rfl
        · rw [List.singleton_append, List.takeWhile_cons]; simp [isSign]
        · rw [List.singleton_append, List.takeWhile_cons]; simp [isSign]
      simp only [he, if_true, ht, List.drop_left, takeWhile_all hf3, dropWhile_all hf3, hd3, if_false]
      simp
  have hpoint : ∃ p2, pt = (readPoint (pt ++ ex)).1 ++ p2 ∧ readPoint (pt ++ ex) = ((readPoint (pt ++ ex)).1, p2, ex) := by
    rcases hpt with rfl | ⟨d2, rfl, hd2⟩
    · refine ⟨[], ?_⟩
      have : readPoint ex = ([], [], ex) := by
        unfold readPoint
        split
        · exact absurd rfl (hexh '.' rfl).2
        · rfl
      simp [this]
    · have h4 := takeWhile_run (p := isFig) (d := d2) (r := ex) hd2 (fun x hx => (hexh x hx).1)
      exact ⟨d2, by simp [readPoint, h4.1], by simp [readPoint, h4.1, h4.2]⟩
  obtain ⟨p2, hp1, hp2⟩ := hpoint
  unfold readDouble
  simp only [h1, h2, List.take_nil, List.length_nil, List.drop_zero, h3.1, h3.2, List.nil_append]
  rw [hp2]
  simp only [hne, false_and, if_false, hend]
  conv => rhs; rw [hp1]
  simp

/-! ## The loop -/

section
variable (A : Arith V) (lgth : Nat)

/-- the text goes on with a character which ends a number -/
def Stop (r : List Char) : Prop := ∀ c, r.head? = some c → isFig c = false ∧ c ≠ '.' ∧ c ≠ 'e' ∧ c ≠ 'E'

/-- the text before a number -/
def Ready (pre : List Char) : Prop := ∀ c, pre.getLast? = some c → isOther c = true

variable {A lgth}

theorem fillEnd_eq {pre l rest : List Char} {vals : List V} {id : Nat} {e : Option Nat} {stop : Bool} (hl : IsNumber l)
    (hlong : (Nat.toDigits 10 id).length ≤ l.length)
    (he : (e = some (pre ++ l).length ∧ rest ≠ [] ∧ stop = false) ∨ (e = none ∧ rest = [])) :
    fillEnd A (pre ++ (l ++ rest)) vals id pre.length e stop =
      .ok (pre ++ (Nat.toDigits 10 id ++ rest), vals ++ [A.lit l], id + 1,
        if rest = [] then none else some (pre ++ Nat.toDigits 10 id).length) := by
  have htmp : cutText (pre ++ (l ++ rest)) pre.length e = l := by
    rcases he with ⟨rfl, _⟩ | ⟨rfl, rfl⟩
    · simp [cutText]
    · simp [cutText]
  have h1 : (pre ++ (l ++ rest)).take pre.length = pre := by simp
  have h2 : (pre ++ (l ++ rest)).drop (pre.length + l.length) = rest := by
    rw [← List.append_assoc, ← List.length_append, List.drop_left]
  unfold fillEnd replaceAndTraduce
  simp only [htmp, readDouble_number hl, h1, h2]
  rcases he with ⟨rfl, hr, rfl⟩ | ⟨rfl, rfl⟩
  · rw [if_neg hr]
    simp only [posAdd, Bool.false_eq_true, if_false, List.length_append, List.append_assoc]
    have : ((↑(pre.length + l.length) : Int) + ((Nat.toDigits 10 id).length - l.length)).toNat = pre.length + (Nat.toDigits 10 id).length := by omega
    rw [this]
  · have hd : ¬ (0 : Int) < ((Nat.toDigits 10 id).length : Int) - l.length := by omega
    rw [if_pos rfl]
    simp only [posAdd, hd, if_false, ite_self, List.append_assoc]

theorem notFig_false {d : List Char} (h : ∀ c ∈ d, isFig c = true) : ∀ c ∈ d, (!isFig c) = false := fun c hc => by simp [h c hc]

/-- the exponent, from the position of its letter -/
theorem fill_exponent {s u rest : List Char} {vals : List V} {id pos2 : Nat} {e : Char} {sg d3 : List Char} (hs : s = u ++ (e :: (sg ++ d3)) ++ rest)
    (he : e = 'e' ∨ e = 'E') (hsg : sg = [] ∨ sg = ['+'] ∨ sg = ['-']) (hd3 : d3 ≠ []) (hf3 : ∀ c ∈ d3, isFig c = true) (hst : Stop rest)
    (hlen : s.length ≤ lgth) :
    (if s[u.length]? ≠ some 'e' ∧ s[u.length]? ≠ some 'E' then fillEnd A s vals id pos2 (some u.length) false
      else
        let pos4 := u.length + 1
        if pos4 < lgth then
          let pos4 := if s[pos4]?.any isSign then pos4 + 1 else pos4
          if pos4 ≥ lgth then throwX
          else
            let pos5 := findFromPos (fun c => !isFig c) s pos4
            if pos5 = some pos4 then throwX else fillEnd A s vals id pos2 pos5 false
        else throwX) =
    fillEnd A s vals id pos2 (if rest = [] then none else some (u ++ (e :: (sg ++ d3))).length) false := by
  obtain ⟨f, r3, hfr⟩ := List.exists_cons_of_ne_nil hd3
  have hff : isFig f = true := hf3 f (by rw [hfr]; simp)
  have hd3l := List.length_pos_iff.2 hd3
  have hi : s[u.length]? = some e := by
    rw [hs, List.append_assoc, List.cons_append]; exact getElem?_at _ _ _
  have hne : ¬ (s[u.length]? ≠ some 'e' ∧ s[u.length]? ≠ some 'E') := by
    rw [hi]; rcases he with rfl | rfl <;> simp
  have hl : s.length = u.length + 1 + sg.length + d3.length + rest.length := by
    rw [hs]; simp only [List.length_append, List.length_cons]; omega
  have hpos : (if s[u.length + 1]?.any isSign = true then u.length + 1 + 1 else u.length + 1) = (u ++ e :: sg).length := by
    have hx : s = (u ++ [e]) ++ (sg ++ (d3 ++ rest)) := by rw [hs]; simp
    have hl' : u.length + 1 = (u ++ [e]).length := by simp
    rw [hx, hl']
    rcases hsg with rfl | rfl | rfl
    · rw [hfr, List.nil_append, List.cons_append, getElem?_at]
      simp [fig_not_sign hff]
    · rw [List.singleton_append, getElem?_at]
      simp [isSign]
    · rw [List.singleton_append, getElem?_at]
      simp [isSign]
  have hx : s = (u ++ e :: sg) ++ (d3 ++ rest) := by rw [hs]; simp
  have hfind : findFromPos (fun c => !isFig c) s (u ++ e :: sg).length = if rest = [] then none else some (u ++ (e :: (sg ++ d3))).length := by
    rw [hx]
    cases rest with
    | nil => rw [List.append_nil, findFromPos_end (notFig_false hf3)]; rfl
    | cons c r =>
      rw [findFromPos_at (notFig_false hf3) (by simp [(hst c rfl).1])]
      simp; omega
  have hne2 : ¬ ((if rest = [] then none else some (u ++ (e :: (sg ++ d3))).length) = some (u ++ e :: sg).length) := by
    split
    · simp
    · simp only [Option.some.injEq, List.length_append, List.length_cons]; omega
  rw [if_neg hne]
  simp only
  rw [if_pos (by omega), hpos, if_neg (by simp only [List.length_append, List.length_cons]; omega), hfind, if_neg hne2]

theorem fillStep_number {pre l rest : List Char} {vals : List V} {id : Nat} (hl : IsNumber l) (hp : Ready pre) (hst : Stop rest)
    (hlen : (pre ++ (l ++ rest)).length ≤ lgth) (hlong : (Nat.toDigits 10 id).length ≤ l.length) :
    fillStep A lgth (pre ++ (l ++ rest)) vals id pre.length =
      .ok (pre ++ (Nat.toDigits 10 id ++ rest), vals ++ [A.lit l], id + 1,
        if rest = [] then none else some (pre ++ Nat.toDigits 10 id).length) := by
  obtain ⟨c0, r0, hc0, hf0⟩ := hl.head
  have hend : ∀ (e : Option Nat) (stop : Bool), (e = some (pre ++ l).length ∧ rest ≠ [] ∧ stop = false) ∨ (e = none ∧ rest = []) →
      fillEnd A (pre ++ (l ++ rest)) vals id pre.length e stop = _ := fun e stop he => fillEnd_eq hl hlong he
  have hfind : findFromPos isFig (pre ++ (l ++ rest)) pre.length = some pre.length := by
    have := findFromPos_at (p := isFig) (u := pre) (w := []) (z := r0 ++ rest) (c := c0) (by simp) hf0
    rw [hc0]; simpa using this
  have hprev : ¬ (0 < pre.length ∧ ¬ ((pre ++ (l ++ rest))[pre.length - 1]?.any isOther = true)) := by
    rintro ⟨h0, h1⟩
    apply h1
    rw [List.getElem?_append_left (by omega), ← List.getLast?_eq_getElem?]
    cases hg : pre.getLast? with
    | none => simp at hg; subst hg; simp at h0
    | some c => simp [hp c hg]
  obtain ⟨s, hs⟩ : ∃ s, s = pre ++ (l ++ rest) := ⟨_, rfl⟩
  rw [← hs] at hfind hprev hend hlen ⊢
  unfold fillStep
  rw [hfind]
  simp only
  rw [if_neg hprev]
  obtain ⟨d1, pt, ex, rfl, hne, hd, hpt, hex⟩ := hl
  have hd1 := List.length_pos_iff.2 hne
  have hsl : s.length = pre.length + d1.length + pt.length + ex.length + rest.length := by
    rw [hs]; simp only [List.length_append]; omega
  have hexh : ∀ x, ex.head? = some x → isFig x = false ∧ x ≠ '.' := by
    rcases hex with rfl | ⟨e, sg, d3, rfl, he, _⟩
    · simp
    · rintro x ⟨⟩
      rcases he with rfl | rfl <;> decide
  -- from the end of the figures and of the point
  have hlast : ∀ u : List Char, u = pre ++ d1 ++ pt → ex ++ rest ≠ [] →
      (if s[u.length]? ≠ some 'e' ∧ s[u.length]? ≠ some 'E' then fillEnd A s vals id pre.length (some u.length) false
      else
        let pos4 := u.length + 1
        if pos4 < lgth then
          let pos4 := if s[pos4]?.any isSign then pos4 + 1 else pos4
          if pos4 ≥ lgth then throwX
          else
            let pos5 := findFromPos (fun c => !isFig c) s pos4
            if pos5 = some pos4 then throwX else fillEnd A s vals id pre.length pos5 false
        else throwX) = .ok (pre ++ (Nat.toDigits 10 id ++ rest), vals ++ [A.lit (d1 ++ pt ++ ex)], id + 1,
        if rest = [] then none else some (pre ++ Nat.toDigits 10 id).length) := by
    intro u hu hnil
    rcases hex with rfl | ⟨e, sg, d3, rfl, he, hsg, hd3, hf3⟩
    · rw [List.nil_append] at hnil
      obtain ⟨c, r, rfl⟩ := List.exists_cons_of_ne_nil hnil
      obtain ⟨s1, s2, s3, s4⟩ := hst c rfl
      have hi : s[u.length]? = some c := by
        rw [hs, show pre ++ (d1 ++ pt ++ [] ++ c :: r) = u ++ c :: r by rw [hu]; simp]; exact getElem?_at _ _ _
      rw [if_pos (by rw [hi]; simp [s3, s4])]
      exact hend _ _ (Or.inl ⟨by rw [hu]; simp, by simp, rfl⟩)
    · rw [fill_exponent (rest := rest) (by rw [hs, hu]; simp) he hsg hd3 hf3 hst hlen]
      refine hend _ _ ?_
      by_cases hr : rest = []
      · rw [if_pos hr]; exact Or.inr ⟨rfl, hr⟩
      · rw [if_neg hr]; exact Or.inl ⟨by rw [hu]; simp, hr, rfl⟩
  rcases hpt with rfl | ⟨d2, rfl, hd2⟩
  · cases htail : ex ++ rest with
    | nil =>
      obtain ⟨h1, h2⟩ := List.append_eq_nil_iff.1 htail
      have hf : findFromPos (fun c => !isFig c) s pre.length = none := by
        rw [hs, h1, h2]; simp only [List.append_nil]; exact findFromPos_end (notFig_false hd)
      rw [hf]
      exact hend _ _ (Or.inr ⟨rfl, h2⟩)
    | cons c r =>
      have hc : isFig c = false ∧ c ≠ '.' := by
        rcases hex with rfl | ⟨e, sg, d3, rfl, he, _⟩
        · exact ⟨(hst c (by rw [List.nil_append] at htail; rw [htail]; rfl)).1, (hst c (by rw [List.nil_append] at htail; rw [htail]; rfl)).2.1⟩
        · simp only [List.cons_append, List.cons.injEq] at htail
          rw [← htail.1]
          exact hexh e rfl
      have hx : s = pre ++ (d1 ++ c :: r) := by rw [hs, ← htail]; simp
      have hf : findFromPos (fun c => !isFig c) s pre.length = some (pre ++ d1).length := by
        rw [hx, findFromPos_at (notFig_false hd) (by simp [hc.1])]; simp
      have hi : s[(pre ++ d1).length]? = some c := by
        rw [hx, ← List.append_assoc]; exact getElem?_at _ _ _
      have hf2 : findFromPos (fun c => !isFig c) s (pre ++ d1).length = some (pre ++ d1).length := by
        have := findFromPos_at (p := fun c => !isFig c) (u := pre ++ d1) (w := []) (z := r) (c := c) (by simp) (by simp [hc.1])
        rw [hx]; simpa using this
      have hn : ¬ (s[(pre ++ d1).length]? = some '.') := by rw [hi]; simp [hc.2]
      have hlt : (pre ++ d1).length < lgth := by
        have : s.length = (pre ++ d1).length + (r.length + 1) := by rw [hx]; simp; omega
        omega
      rw [hf]
      simp only [if_neg hn, hlt, if_true, hf2]
      exact hlast (pre ++ d1) (by simp) (by rw [htail]; simp)
  · have hx : s = pre ++ (d1 ++ '.' :: (d2 ++ (ex ++ rest))) := by rw [hs]; simp
    have hf : findFromPos (fun c => !isFig c) s pre.length = some (pre ++ d1).length := by
      rw [hx, findFromPos_at (notFig_false hd) (by decide)]; simp
    have hi : s[(pre ++ d1).length]? = some '.' := by
      rw [hx, ← List.append_assoc]; exact getElem?_at _ _ _
    have hl1 : (pre ++ d1).length + 1 = (pre ++ d1 ++ ['.']).length := by simp; omega
    have hx2 : s = (pre ++ d1 ++ ['.']) ++ (d2 ++ (ex ++ rest)) := by rw [hx]; simp
    rw [hf]
    simp only [hi, if_true, hl1]
    cases htail : ex ++ rest with
    | nil =>
      obtain ⟨h1, h2⟩ := List.append_eq_nil_iff.1 htail
      have hf2 : findFromPos (fun c => !isFig c) s (pre ++ d1 ++ ['.']).length = none := by
        rw [hx2, htail, List.append_nil, findFromPos_end (notFig_false hd2)]
      rw [hf2]
      simp only
      rw [ite_self]
      exact hend _ _ (Or.inr ⟨rfl, h2⟩)
    | cons c r =>
      have hc : isFig c = false := by
        rcases hex with rfl | ⟨e, sg, d3, rfl, he, _⟩
        · exact (hst c (by rw [List.nil_append] at htail; rw [htail]; rfl)).1
        · simp only [List.cons_append, List.cons.injEq] at htail
          rw [← htail.1]
          exact (hexh e rfl).1
      have hf2 : findFromPos (fun c => !isFig c) s (pre ++ d1 ++ ['.']).length = some (pre ++ d1 ++ '.' :: d2).length := by
        rw [hx2, htail, findFromPos_at (notFig_false hd2) (by simp [hc])]; simp; omega
      have hlt : (pre ++ d1 ++ ['.']).length < lgth := by
        have : s.length = (pre ++ d1 ++ ['.']).length + (d2.length + (r.length + 1)) := by rw [hx2, htail]; simp; omega
        omega
      rw [if_pos hlt, hf2]
      exact hlast (pre ++ d1 ++ '.' :: d2) rfl (by rw [htail]; simp)

/-! ### Going through a text -/

theorem mem_takeWhile' {p : Char → Bool} {l : List Char} {c : Char} (h : c ∈ l.takeWhile p) : p c = true := by
  induction l with
  | nil => simp at h
  | cons a l ih =>
    rw [List.takeWhile_cons] at h
    split at h
    · rcases List.mem_cons.1 h with rfl | h
      · assumption
      · exact ih h
    · simp at h

theorem dropWhile_nil' {p : Char → Bool} {l : List Char} (h : l.dropWhile p = []) : ∀ c ∈ l, p c = true := by
  induction l with
  | nil => simp
  | cons a l ih =>
    rw [List.dropWhile_cons] at h
    split at h
    · intro c hc
      rcases List.mem_cons.1 hc with rfl | hc
      · assumption
      · exact ih h c hc
    · simp at h

theorem fillLoop_skip (n : Nat) {pre w rest : List Char} {vals : List V} {id : Nat} (hw : ∀ c ∈ w, isFig c = false) :
    fillLoop A lgth n (pre ++ (w ++ rest)) vals id (some pre.length) = fillLoop A lgth n (pre ++ (w ++ rest)) vals id (some (pre ++ w).length) := by
  cases n with
  | zero => rfl
  | succ n =>
    have h := findFromPos_skip (u := pre) (r := rest) hw
    unfold fillLoop fillStep
    rw [h]

theorem fillLoop_done (n : Nat) {s : List Char} {vals : List V} {id : Nat} (hn : 1 ≤ n) :
    fillLoop A lgth n s vals id (some s.length) = .ok (s, vals) := by
  obtain ⟨n, rfl⟩ : ∃ m, n = m + 1 := ⟨n - 1, by omega⟩
  have h := findFromPos_end (p := isFig) (u := s) (w := []) (by simp)
  rw [List.append_nil] at h
  unfold fillLoop fillStep
  rw [h]
  simp only [ok_bind]
  unfold fillLoop
  rfl

theorem fillLoop_none (n : Nat) (s : List Char) (vals : List V) (id : Nat) : fillLoop A lgth n s vals id none = .ok (s, vals) := by
  unfold fillLoop; rfl

/-- a name -/
theorem fillLoop_word (m : Nat) : ∀ (x pre rest : List Char) (vals : List V) (id n : Nat), x.length ≤ m → (∀ c ∈ x, isNameChar c = true) →
    (∀ c, x.head? = some c → isFig c = false) → Stop rest → x.length + rest.length + 1 ≤ n →
    ∃ n', rest.length + 1 ≤ n' ∧ fillLoop A lgth n (pre ++ (x ++ rest)) vals id (some pre.length) =
      fillLoop A lgth n' (pre ++ (x ++ rest)) vals id (some (pre ++ x).length) := by
  induction m with
  | zero =>
    intro x pre rest vals id n hx _ _ _ hn
    have : x = [] := List.length_eq_zero_iff.1 (by omega)
    subst this
    exact ⟨n, by simp at hn; omega, by simp⟩
  | succ m ih =>
    intro x pre rest vals id n hx hname hhead hst hn
    by_cases hall : ∀ c ∈ x, isFig c = false
    · exact ⟨n, by omega, fillLoop_skip n hall⟩
    · -- the first figures
      obtain ⟨w, y, hxy, hw, hy⟩ : ∃ w y, x = w ++ y ∧ (∀ c ∈ w, isFig c = false) ∧ (∃ c y', y = c :: y' ∧ isFig c = true) := by
        refine ⟨x.takeWhile (fun c => !isFig c), x.dropWhile (fun c => !isFig c), (List.takeWhile_append_dropWhile).symm, ?_, ?_⟩
        · intro c hc
          have := mem_takeWhile' hc
          simpa using this
        · cases hd : x.dropWhile (fun c => !isFig c) with
          | nil =>
            exfalso; apply hall
            intro c hc
            simpa using dropWhile_nil' hd c hc
          | cons c y' =>
            refine ⟨c, y', rfl, ?_⟩
            have := List.head?_dropWhile_not (fun c => !isFig c) x
            rw [hd] at this
            simpa using this
      have hwne : w ≠ [] := by
        rintro rfl
        obtain ⟨c, y', rfl, hc⟩ := hy
        rw [hxy] at hhead
        have := hhead c rfl
        rw [hc] at this; simp at this
      obtain ⟨f, z, hyf, hf, hfne, hz⟩ : ∃ f z, y = f ++ z ∧ (∀ c ∈ f, isFig c = true) ∧ f ≠ [] ∧ (∀ c, z.head? = some c → isFig c = false) := by
        refine ⟨y.takeWhile isFig, y.dropWhile isFig, (List.takeWhile_append_dropWhile).symm, ?_, ?_, ?_⟩
        · intro c hc; exact mem_takeWhile' hc
        · obtain ⟨c, y', rfl, hc⟩ := hy
          rw [List.takeWhile_cons, if_pos hc]; simp
        · intro c hc
          have := List.head?_dropWhile_not isFig y
          rw [hc] at this
          simpa using this
      subst hyf
      have hxlen : x.length = w.length + f.length + z.length := by rw [hxy]; simp; omega
      have hfl := List.length_pos_iff.2 hfne
      have hwl := List.length_pos_iff.2 hwne
      obtain ⟨n, rfl⟩ : ∃ k, n = k + 1 := ⟨n - 1, by omega⟩
      obtain ⟨w', a, rfl⟩ : ∃ w' a, w = w' ++ [a] := ⟨w.dropLast, w.getLast hwne, (List.dropLast_concat_getLast hwne).symm⟩
      obtain ⟨f0, f1, rfl⟩ := List.exists_cons_of_ne_nil hfne
      obtain ⟨s, hs⟩ : ∃ s, s = pre ++ (x ++ rest) := ⟨_, rfl⟩
      have hx1 : s = pre ++ ((w' ++ [a]) ++ f0 :: (f1 ++ z ++ rest)) := by rw [hs, hxy]; simp
      have hx2 : s = (pre ++ w') ++ a :: (f0 :: (f1 ++ z ++ rest)) := by rw [hx1]; simp
      have hx3 : s = (pre ++ (w' ++ [a])) ++ ((f0 :: f1) ++ (z ++ rest)) := by rw [hx1]; simp
      have hfind : findFromPos isFig s pre.length = some (pre ++ (w' ++ [a])).length := by
        rw [hx1, findFromPos_at hw (hf f0 (by simp))]; simp
      have ha : isOther a = false := by
        have hn := hname a (by rw [hxy]; simp)
        have := name_ne hn
        simp [isOther, this]
      have hprev : 0 < (pre ++ (w' ++ [a])).length ∧ ¬ (s[(pre ++ (w' ++ [a])).length - 1]?.any isOther = true) := by
        refine ⟨by simp only [List.length_append, List.length_cons]; omega, ?_⟩
        have : (pre ++ (w' ++ [a])).length - 1 = (pre ++ w').length := by simp only [List.length_append, List.length_cons, List.length_nil]; omega
        rw [this, hx2, getElem?_at]; simp [ha]
      have hstep : fillStep A lgth s vals id pre.length =
          .ok (s, vals, id, findFromPos (fun c => !isFig c) s (pre ++ (w' ++ [a])).length) := by
        unfold fillStep
        rw [hfind]
        simp only
        rw [if_pos hprev]
      rw [← hs]
      have hloop : fillLoop A lgth (n + 1) s vals id (some pre.length) =
          fillLoop A lgth n s vals id (findFromPos (fun c => !isFig c) s (pre ++ (w' ++ [a])).length) := by
        conv => lhs; unfold fillLoop
        rw [hstep]; rfl
      rw [hloop]
      cases htail : z ++ rest with
      | nil =>
        obtain ⟨h1, h2⟩ := List.append_eq_nil_iff.1 htail
        subst h1 h2
        have : findFromPos (fun c => !isFig c) s (pre ++ (w' ++ [a])).length = none := by
          rw [hx3, htail, List.append_nil, findFromPos_end (notFig_false hf)]
        rw [this, fillLoop_none]
        refine ⟨1, by simp, ?_⟩
        have e : pre ++ x = s := by rw [hs]; simp
        rw [e, fillLoop_done 1 (by omega)]
      | cons c r =>
        have hc : isFig c = false := by
          cases z with
          | nil => exact (hst c (by rw [List.nil_append] at htail; rw [htail]; rfl)).1
          | cons c' z' =>
            simp only [List.cons_append, List.cons.injEq] at htail
            exact htail.1 ▸ hz c' rfl
        have : findFromPos (fun c => !isFig c) s (pre ++ (w' ++ [a])).length = some (pre ++ (w' ++ [a]) ++ (f0 :: f1)).length := by
          rw [hx3, htail, findFromPos_at (notFig_false hf) (by simp [hc])]; simp; omega
        rw [this]
        have hx4 : s = (pre ++ (w' ++ [a]) ++ (f0 :: f1)) ++ (z ++ rest) := by rw [hx3]; simp
        obtain ⟨n', hn', he⟩ := ih z (pre ++ (w' ++ [a]) ++ (f0 :: f1)) rest vals id n (by omega)
          (fun c hc => hname c (by rw [hxy]; simp [hc])) hz hst (by omega)
        refine ⟨n', hn', ?_⟩
        rw [← hx4] at he
        rw [he, hxy]
        congr 2
        simp

/-- a number -/
theorem fillLoop_number {pre l rest : List Char} {vals : List V} {id n : Nat} (hl : IsNumber l) (hp : Ready pre) (hst : Stop rest)
    (hlen : (pre ++ (l ++ rest)).length ≤ lgth) (hlong : (Nat.toDigits 10 id).length ≤ l.length) (hn : l.length + rest.length + 1 ≤ n) :
    ∃ n', rest.length + 1 ≤ n' ∧ fillLoop A lgth n (pre ++ (l ++ rest)) vals id (some pre.length) =
      fillLoop A lgth n' (pre ++ (Nat.toDigits 10 id ++ rest)) (vals ++ [A.lit l]) (id + 1) (some (pre ++ Nat.toDigits 10 id).length) := by
  obtain ⟨c0, r0, hc0, _⟩ := hl.head
  have hl1 : 0 < l.length := by rw [hc0]; simp
  obtain ⟨n, rfl⟩ : ∃ k, n = k + 1 := ⟨n - 1, by omega⟩
  refine ⟨n, by omega, ?_⟩
  conv => lhs; unfold fillLoop
  rw [fillStep_number hl hp hst hlen hlong, ok_bind]
  simp only
  by_cases hr : rest = []
  · subst hr
    rw [if_pos rfl, fillLoop_none, List.append_nil, fillLoop_done n (by omega)]
  · rw [if_neg hr]

/-! ### Expressions -/

/-- The expression with the numbers replaced by their ranks. -/
def Cst.relabel (k : Nat) : Cst → Cst
  | .num _ => .num (Nat.toDigits 10 k)
  | .var x => .var x
  | .sign sg e => .sign sg (e.relabel k)
  | .call f e => .call f (e.relabel k)
  | .call2 f a b => .call2 f (a.relabel k) (b.relabel (k + a.lits.length))
  | .callIf a b c => .callIf (a.relabel k) (b.relabel (k + a.lits.length)) (c.relabel (k + a.lits.length + b.lits.length))
  | .bin op a b => .bin op (a.relabel k) (b.relabel (k + a.lits.length))

theorem relabel_lvl (c : Cst) (k : Nat) : (c.relabel k).lvl = c.lvl := by cases c <;> rfl
theorem relabel_signs (c : Cst) (k : Nat) : (c.relabel k).leadSigns = c.leadSigns := by
  induction c generalizing k with
  | bin op a b iha _ => exact iha k
  | _ => rfl
theorem relabel_comma (c : Cst) (k : Nat) : (c.relabel k).hasComma = c.hasComma := by
  induction c generalizing k <;> simp_all [Cst.relabel, Cst.hasComma]
theorem relabel_cmp (c : Cst) (k : Nat) : (c.relabel k).hasCmp = c.hasCmp := by
  induction c generalizing k <;> simp_all [Cst.relabel, Cst.hasCmp]
theorem relabel_signable (c : Cst) (k : Nat) : (c.relabel k).signable = c.signable := by
  cases c with
  | call f e => cases f <;> rfl
  | _ => rfl

theorem digitChar_fig (d : Nat) (h : d < 10) : isFig (Nat.digitChar d) = true := by
  have : ∀ d : Fin 10, isFig (Nat.digitChar d.1) = true := by decide
  exact this ⟨d, h⟩

theorem toDigits_digits (k : Nat) : Digits (Nat.toDigits 10 k) := by
  constructor
  · exact Nat.toDigits_ne_nil
  · intro c hc
    obtain ⟨d, hd⟩ : ∃ d, d < 10 ∧ c = Nat.digitChar d := by
      have : ∀ (fuel n : Nat) (ds : List Char), (∀ c ∈ ds, ∃ d, d < 10 ∧ c = Nat.digitChar d) →
          ∀ c ∈ Nat.toDigitsCore 10 fuel n ds, ∃ d, d < 10 ∧ c = Nat.digitChar d := by
        intro fuel
        induction fuel with
        | zero => intro n ds h; simpa [Nat.toDigitsCore] using h
        | succ f ih =>
          intro n ds h
          have h' : ∀ c ∈ Nat.digitChar (n % 10) :: ds, ∃ d, d < 10 ∧ c = Nat.digitChar d := by
            intro c hc
            rcases List.mem_cons.1 hc with rfl | hc
            · exact ⟨n % 10, Nat.mod_lt _ (by decide), rfl⟩
            · exact h c hc
          rw [Nat.toDigitsCore]
          split
          · exact h'
          · exact ih _ _ h'
      exact this _ _ [] (by simp) c hc
    rw [hd.2]; exact digitChar_fig d hd.1

theorem relabel_WF (c : Cst) (k : Nat) (h : c.WF IsNumber) : (c.relabel k).WF Digits := by
  induction c generalizing k with
  | num l => exact toDigits_digits k
  | var x => exact h
  | sign sg e ih => exact ⟨h.1, h.2.1, by rw [relabel_signable]; exact h.2.2.1, ih k h.2.2.2⟩
  | call f e ih => exact ⟨h.1, h.2.1, by rw [relabel_comma]; exact h.2.2.1, ih k h.2.2.2⟩
  | call2 f a b iha ihb =>
    exact ⟨h.1, by rw [relabel_comma]; exact h.2.1, by rw [relabel_comma]; exact h.2.2.1, iha _ h.2.2.2.1, ihb _ h.2.2.2.2⟩
  | callIf a b c iha ihb ihc =>
    exact ⟨by rw [relabel_comma]; exact h.1, by rw [relabel_comma]; exact h.2.1, by rw [relabel_comma]; exact h.2.2.1, iha _ h.2.2.2.1,
      ihb _ h.2.2.2.2.1, ihc _ h.2.2.2.2.2⟩
  | bin op a b iha ihb =>
    obtain ⟨h1, h2, h3, h4, h5, h6, h7, ha, hb⟩ := h
    refine ⟨h1, ?_, ?_, ?_, ?_, ?_, ?_, iha _ ha, ihb _ hb⟩ <;> simp only [relabel_lvl, relabel_signs, relabel_cmp] <;> assumption

theorem LongLits.append {k : Nat} {l r : List (List Char)} : LongLits k (l ++ r) ↔ LongLits k l ∧ LongLits (k + l.length) r := by
  induction l generalizing k with
  | nil => simp [LongLits]
  | cons a l ih =>
    simp only [List.cons_append, LongLits, ih, List.length_cons]
    rw [show k + 1 + l.length = k + (l.length + 1) by omega]
    constructor
    · rintro ⟨h1, h2, h3⟩; exact ⟨⟨h1, h2⟩, h3⟩
    · rintro ⟨⟨h1, h2⟩, h3⟩; exact ⟨h1, h2, h3⟩

theorem stop_cons {c : Char} {r : List Char} (h : isFig c = false ∧ c ≠ '.' ∧ c ≠ 'e' ∧ c ≠ 'E') : Stop (c :: r) := by
  rintro _ ⟨⟩; exact h

theorem ready_concat {c : Char} {r : List Char} (h : isOther c = true) : Ready (r ++ [c]) := by
  intro d hd
  rw [List.getLast?_concat] at hd
  obtain rfl := Option.some.inj hd
  exact h

/-- what is shown for each expression: the loop goes from its beginning to its end -/
def Passes (A : Arith V) (lgth : Nat) (c : Cst) : Prop :=
  ∀ (pre rest : List Char) (vals : List V) (id n : Nat), Ready pre → Stop rest → (pre ++ (c.str ++ rest)).length ≤ lgth → LongLits id c.lits →
    c.str.length + rest.length + 1 ≤ n →
    (pre ++ ((c.relabel id).str ++ rest)).length ≤ lgth ∧
    ∃ n', rest.length + 1 ≤ n' ∧ fillLoop A lgth n (pre ++ (c.str ++ rest)) vals id (some pre.length) =
      fillLoop A lgth n' (pre ++ ((c.relabel id).str ++ rest)) (vals ++ c.lits.map A.lit) (id + c.lits.length)
        (some (pre ++ (c.relabel id).str).length)

theorem repr1_head (f : Fn1) : ∀ c, f.repr.head? = some c → isFig c = false := by
  cases f <;> simp [Fn1.repr] <;> decide

theorem repr2_head (f : Fn2) : ∀ c, f.repr.head? = some c → isFig c = false := by
  cases f <;> simp [Fn2.repr] <;> decide

theorem word_then {A : Arith V} {lgth : Nat} {w pre rest : List Char} {vals : List V} {id n : Nat} (hw : ∀ c ∈ w, isNameChar c = true)
    (hh : ∀ c, w.head? = some c → isFig c = false) (hn : w.length + (rest.length + 1) + 1 ≤ n) :
    ∃ n', rest.length + 1 ≤ n' ∧ fillLoop A lgth n (pre ++ (w ++ '(' :: rest)) vals id (some pre.length) =
      fillLoop A lgth n' (pre ++ (w ++ '(' :: rest)) vals id (some (pre ++ w ++ ['(']).length) := by
  obtain ⟨n1, hn1, e1⟩ := fillLoop_word (A := A) (lgth := lgth) w.length w pre ('(' :: rest) vals id n (Nat.le_refl _) hw hh
    (stop_cons (by decide)) (by simp; omega)
  refine ⟨n1, by simp at hn1; omega, ?_⟩
  rw [e1]
  have := fillLoop_skip (A := A) (lgth := lgth) n1 (pre := pre ++ w) (w := ['(']) (rest := rest) (vals := vals) (id := id) (by decide)
  simpa using this

theorem skip_one {A : Arith V} {lgth : Nat} {pre rest : List Char} {c : Char} {vals : List V} {id n : Nat} (hc : isFig c = false) :
    fillLoop A lgth n (pre ++ c :: rest) vals id (some pre.length) = fillLoop A lgth n (pre ++ c :: rest) vals id (some (pre ++ [c]).length) :=
  fillLoop_skip (A := A) (lgth := lgth) n (pre := pre) (w := [c]) (rest := rest) (vals := vals) (id := id) (by simpa using hc)

theorem passes (c : Cst) (h : c.WF IsNumber) : Passes A lgth c := by
  induction c with
  | num l =>
    intro pre rest vals id n hp hst hlen hlong hn
    have hl : (Nat.toDigits 10 id).length ≤ l.length := hlong.1
    obtain ⟨n', hn', e⟩ := fillLoop_number (A := A) (lgth := lgth) (vals := vals) (id := id) (n := n) (show IsNumber l from h) hp hst hlen hl hn
    refine ⟨?_, n', hn', e⟩
    simp only [Cst.relabel, Cst.str, List.length_append] at hlen ⊢; omega
  | var x =>
    intro pre rest vals id n hp hst hlen _ hn
    have hx : IsName x := h
    obtain ⟨n', hn', e⟩ := fillLoop_word (A := A) (lgth := lgth) x.length x pre rest vals id n (Nat.le_refl _) hx.chars (by
      obtain ⟨c, r, rfl, hc, _⟩ := hx
      rintro _ ⟨⟩; exact (alpha_not hc).2.2.1) hst hn
    exact ⟨hlen, n', hn', by simpa [Cst.lits, Cst.relabel, Cst.str] using e⟩
  | sign sg e ih =>
    obtain ⟨hne, hsg, _, he⟩ := h
    intro pre rest vals id n hp hst hlen hlong hn
    have hr : Ready (pre ++ sg) := by
      obtain ⟨w', a, rfl⟩ : ∃ w' a, sg = w' ++ [a] := ⟨sg.dropLast, sg.getLast hne, (List.dropLast_concat_getLast hne).symm⟩
      rw [← List.append_assoc]
      refine ready_concat ?_
      rcases sign_cases (hsg a (by simp)) with rfl | rfl <;> decide
    have e0 := fillLoop_skip (A := A) (lgth := lgth) n (pre := pre) (w := sg) (rest := e.str ++ rest) (vals := vals) (id := id) (by
      intro c hc; rcases sign_cases (hsg c hc) with rfl | rfl <;> decide)
    obtain ⟨hl', n', hn', e1⟩ := ih he (pre ++ sg) rest vals id n hr hst (by simpa [Cst.str] using hlen) hlong
      (by simp only [Cst.str, List.length_append] at hn; omega)
    refine ⟨by simpa [Cst.str, Cst.relabel] using hl', n', hn', ?_⟩
    simp only [Cst.str, Cst.relabel, Cst.lits, List.append_assoc] at e0 e1 ⊢
    rw [e0, e1]
  | call f e ih =>
    obtain ⟨h1, h2, _, he⟩ := h
    intro pre rest vals id n hp hst hlen hlong hn
    have es : (Cst.call f e).str ++ rest = f.repr ++ '(' :: (e.str ++ ')' :: rest) := by simp [Cst.str]
    have er : ((Cst.call f e).relabel id).str ++ rest = f.repr ++ '(' :: ((e.relabel id).str ++ ')' :: rest) := by simp [Cst.str, Cst.relabel]
    have hlen1 := congrArg List.length es
    simp only [List.length_append, List.length_cons] at hlen1 hlen
    obtain ⟨n1, hn1, e1⟩ := word_then (A := A) (lgth := lgth) (w := f.repr) (pre := pre) (rest := e.str ++ ')' :: rest) (vals := vals) (id := id) (n := n)
      (repr1_name f h1 h2) (repr1_head f) (by simp only [List.length_append, List.length_cons]; omega)
    obtain ⟨hl', n', hn', e2⟩ := ih he (pre ++ f.repr ++ ['(']) (')' :: rest) vals id n1 (ready_concat (by decide)) (stop_cons (by decide))
      (by simp only [List.length_append, List.length_cons, List.length_nil]; omega) hlong
      (by simp only [List.length_append, List.length_cons] at hn1; simp only [List.length_cons]; omega)
    simp only [List.length_cons] at hn'
    refine ⟨by rw [er]; simpa using hl', n', by omega, ?_⟩
    have e3 := skip_one (A := A) (lgth := lgth) (pre := pre ++ f.repr ++ ['('] ++ (e.relabel id).str) (rest := rest) (c := ')')
      (vals := vals ++ e.lits.map A.lit) (id := id + e.lits.length) (n := n') (by decide)
    rw [es, er]
    simp only [List.append_assoc, List.nil_append, List.cons_append] at e1 e2 e3 ⊢
    rw [e1, e2, e3]
    simp [Cst.lits, Cst.relabel, Cst.str]
  | call2 f a b iha ihb =>
    obtain ⟨h1, _, _, ha, hb⟩ := h
    intro pre rest vals id n hp hst hlen hlong hn
    have hlong := LongLits.append.1 hlong
    have es : (Cst.call2 f a b).str ++ rest = f.repr ++ '(' :: (a.str ++ ',' :: (b.str ++ ')' :: rest)) := by simp [Cst.str]
    have er : ((Cst.call2 f a b).relabel id).str ++ rest =
      f.repr ++ '(' :: ((a.relabel id).str ++ ',' :: ((b.relabel (id + a.lits.length)).str ++ ')' :: rest)) := by simp [Cst.str, Cst.relabel]
    have hlen1 := congrArg List.length es
    simp only [List.length_append, List.length_cons] at hlen1 hlen
    obtain ⟨n1, hn1, e1⟩ := word_then (A := A) (lgth := lgth) (w := f.repr) (pre := pre) (rest := a.str ++ ',' :: (b.str ++ ')' :: rest)) (vals := vals) (id := id) (n := n)
      (repr2_name f h1) (repr2_head f) (by simp only [List.length_append, List.length_cons]; omega)
    simp only [List.length_append, List.length_cons] at hn1
    obtain ⟨hl2, n2, hn2, e2⟩ := iha ha (pre ++ f.repr ++ ['(']) (',' :: (b.str ++ ')' :: rest)) vals id n1 (ready_concat (by decide)) (stop_cons (by decide))
      (by simp only [List.length_append, List.length_cons, List.length_nil]; omega) hlong.1
      (by simp only [List.length_append, List.length_cons]; omega)
    simp only [List.length_append, List.length_cons, List.length_nil] at hn2 hl2
    have e3 := skip_one (A := A) (lgth := lgth) (pre := pre ++ f.repr ++ ['('] ++ (a.relabel id).str) (rest := b.str ++ ')' :: rest) (c := ',')
      (vals := vals ++ a.lits.map A.lit) (id := id + a.lits.length) (n := n2) (by decide)
    obtain ⟨hl4, n4, hn4, e4⟩ := ihb hb (pre ++ f.repr ++ ['('] ++ (a.relabel id).str ++ [',']) (')' :: rest) (vals ++ a.lits.map A.lit)
      (id + a.lits.length) n2 (ready_concat (by decide)) (stop_cons (by decide))
      (by simp only [List.length_append, List.length_cons, List.length_nil]; omega) hlong.2
      (by simp only [List.length_cons]; omega)
    simp only [List.length_cons] at hn4
    refine ⟨by rw [er]; simpa using hl4, n4, by omega, ?_⟩
    have e5 := skip_one (A := A) (lgth := lgth) (pre := pre ++ f.repr ++ ['('] ++ (a.relabel id).str ++ [','] ++ (b.relabel (id + a.lits.length)).str)
      (rest := rest) (c := ')')
      (vals := vals ++ a.lits.map A.lit ++ b.lits.map A.lit) (id := id + a.lits.length + b.lits.length) (n := n4) (by decide)
    rw [es, er]
    simp only [List.append_assoc, List.nil_append, List.cons_append] at e1 e2 e3 e4 e5 ⊢
    rw [e1, e2, e3, e4, e5]
    simp [Cst.lits, Cst.relabel, Cst.str, Nat.add_assoc]
  | callIf a b c iha ihb ihc =>
    obtain ⟨_, _, _, ha, hb, hc⟩ := h
    intro pre rest vals id n hp hst hlen hlong hn
    simp only [Cst.lits, List.append_assoc] at hlong
    have hlong := LongLits.append.1 hlong
    have hlong2 := LongLits.append.1 hlong.2
    have es : (Cst.callIf a b c).str ++ rest = ['i', 'f'] ++ '(' :: (a.str ++ ',' :: (b.str ++ ',' :: (c.str ++ ')' :: rest))) := by simp [Cst.str]
    have er : ((Cst.callIf a b c).relabel id).str ++ rest =
      ['i', 'f'] ++ '(' :: ((a.relabel id).str ++ ',' :: ((b.relabel (id + a.lits.length)).str ++ ',' ::
        ((c.relabel (id + a.lits.length + b.lits.length)).str ++ ')' :: rest))) := by simp [Cst.str, Cst.relabel]
    have hlen1 := congrArg List.length es
    simp only [List.length_append, List.length_cons, List.length_nil] at hlen1 hlen
    obtain ⟨n1, hn1, e1⟩ := word_then (A := A) (lgth := lgth) (w := ['i', 'f']) (pre := pre) (rest := a.str ++ ',' :: (b.str ++ ',' :: (c.str ++ ')' :: rest))) (vals := vals) (id := id) (n := n)
      (by decide) (by rintro _ ⟨⟩; decide) (by simp only [List.length_append, List.length_cons, List.length_nil]; omega)
    simp only [List.length_append, List.length_cons] at hn1
    obtain ⟨hl2, n2, hn2, e2⟩ := iha ha (pre ++ ['i', 'f'] ++ ['(']) (',' :: (b.str ++ ',' :: (c.str ++ ')' :: rest))) vals id n1 (ready_concat (by decide)) (stop_cons (by decide))
      (by simp only [List.length_append, List.length_cons, List.length_nil]; omega) hlong.1
      (by simp only [List.length_append, List.length_cons]; omega)
    simp only [List.length_append, List.length_cons, List.length_nil] at hn2 hl2
    have e3 := skip_one (A := A) (lgth := lgth) (pre := pre ++ ['i', 'f'] ++ ['('] ++ (a.relabel id).str) (rest := b.str ++ ',' :: (c.str ++ ')' :: rest)) (c := ',')
      (vals := vals ++ a.lits.map A.lit) (id := id + a.lits.length) (n := n2) (by decide)
    obtain ⟨hl4, n4, hn4, e4⟩ := ihb hb (pre ++ ['i', 'f'] ++ ['('] ++ (a.relabel id).str ++ [',']) (',' :: (c.str ++ ')' :: rest)) (vals ++ a.lits.map A.lit)
      (id + a.lits.length) n2 (ready_concat (by decide)) (stop_cons (by decide))
      (by simp only [List.length_append, List.length_cons, List.length_nil]; omega) hlong2.1
      (by simp only [List.length_append, List.length_cons]; omega)
    simp only [List.length_append, List.length_cons, List.length_nil] at hn4 hl4
    have e5 := skip_one (A := A) (lgth := lgth) (pre := pre ++ ['i', 'f'] ++ ['('] ++ (a.relabel id).str ++ [','] ++ (b.relabel (id + a.lits.length)).str)
      (rest := c.str ++ ')' :: rest) (c := ',')
      (vals := vals ++ a.lits.map A.lit ++ b.lits.map A.lit) (id := id + a.lits.length + b.lits.length) (n := n4) (by decide)
    obtain ⟨hl6, n6, hn6, e6⟩ := ihc hc (pre ++ ['i', 'f'] ++ ['('] ++ (a.relabel id).str ++ [','] ++ (b.relabel (id + a.lits.length)).str ++ [','])
      (')' :: rest) (vals ++ a.lits.map A.lit ++ b.lits.map A.lit)
      (id + a.lits.length + b.lits.length) n4 (ready_concat (by decide)) (stop_cons (by decide))
      (by simp only [List.length_append, List.length_cons, List.length_nil]; omega) hlong2.2
      (by simp only [List.length_cons]; omega)
    simp only [List.length_cons] at hn6
    refine ⟨by rw [er]; simpa using hl6, n6, by omega, ?_⟩
    have e7 := skip_one (A := A) (lgth := lgth) (pre := pre ++ ['i', 'f'] ++ ['('] ++ (a.relabel id).str ++ [','] ++ (b.relabel (id + a.lits.length)).str ++ [','] ++
        (c.relabel (id + a.lits.length + b.lits.length)).str)
      (rest := rest) (c := ')')
      (vals := vals ++ a.lits.map A.lit ++ b.lits.map A.lit ++ c.lits.map A.lit) (id := id + a.lits.length + b.lits.length + c.lits.length) (n := n6) (by decide)
    rw [es, er]
    simp only [List.append_assoc, List.nil_append, List.cons_append] at e1 e2 e3 e4 e5 e6 e7 ⊢
    rw [e1, e2, e3, e4, e5, e6, e7]
    simp [Cst.lits, Cst.relabel, Cst.str, Nat.add_assoc]
  | bin op a b iha ihb =>
    obtain ⟨hop, _, _, _, _, _, _, ha, hb⟩ := h
    intro pre rest vals id n hp hst hlen hlong hn
    have hlong := LongLits.append.1 hlong
    obtain ⟨o, ho, ho1, ho2⟩ : ∃ o, op.repr = [o] ∧ (isFig o = false ∧ o ≠ '.' ∧ o ≠ 'e' ∧ o ≠ 'E') ∧ isOther o = true := by
      rcases bin_repr hop with ⟨_, h2, _⟩ | ⟨_, h2, _⟩ | ⟨_, h2, _⟩ | ⟨_, h2, _⟩ | ⟨_, h2, _⟩ | ⟨_, h2, _⟩ | ⟨_, h2, _⟩ <;>
        exact ⟨_, h2, by decide, by decide⟩
    have es : (Cst.bin op a b).str ++ rest = a.str ++ o :: (b.str ++ rest) := by simp [Cst.str, ho]
    have er : ((Cst.bin op a b).relabel id).str ++ rest = (a.relabel id).str ++ o :: ((b.relabel (id + a.lits.length)).str ++ rest) := by
      simp [Cst.str, Cst.relabel, ho]
    have hlen1 := congrArg List.length es
    simp only [List.length_append, List.length_cons] at hlen1 hlen
    obtain ⟨hl2, n2, hn2, e2⟩ := iha ha pre (o :: (b.str ++ rest)) vals id n hp (stop_cons ho1)
      (by simp only [List.length_append, List.length_cons]; omega) hlong.1
      (by simp only [List.length_append, List.length_cons]; omega)
    simp only [List.length_append, List.length_cons, List.length_nil] at hn2 hl2
    have e3 := skip_one (A := A) (lgth := lgth) (pre := pre ++ (a.relabel id).str) (rest := b.str ++ rest) (c := o)
      (vals := vals ++ a.lits.map A.lit) (id := id + a.lits.length) (n := n2) ho1.1
    obtain ⟨hl4, n4, hn4, e4⟩ := ihb hb (pre ++ (a.relabel id).str ++ [o]) rest (vals ++ a.lits.map A.lit)
      (id + a.lits.length) n2 (ready_concat ho2) hst
      (by simp only [List.length_append, List.length_cons, List.length_nil]; omega) hlong.2 (by omega)
    refine ⟨by rw [er]; simpa using hl4, n4, by omega, ?_⟩
    rw [es, er]
    simp only [List.append_assoc, List.nil_append, List.cons_append] at e2 e3 e4 ⊢
    rw [e2, e3, e4]
    simp [Cst.lits, Cst.relabel, Cst.str, Nat.add_assoc, ho]

/-- Each number is replaced by its rank, the values are stored in the order of the text. -/
theorem fillValues_eq (A : Arith V) (c : Cst) (h : c.WF IsNumber) (hl : LongLits 0 c.lits) :
    fillValues A c.str = .ok ((c.relabel 0).str, c.lits.map A.lit) := by
  obtain ⟨_, n', hn', e⟩ := passes (A := A) (lgth := c.str.length) c h [] [] [] 0 (c.str.length + 1) (by intro c hc; simp at hc)
    (by intro c hc; simp at hc) (by simp) hl (by simp)
  unfold fillValues
  simp only [List.nil_append, List.append_nil, List.length_nil, Nat.zero_add] at e
  rw [e, fillLoop_done n' (by omega)]

end
end MC
