import Verif.SkyLine
import Verif.CellModelProps

/-!
# Skyline arrays: moves in memory and offsets
-/

namespace MC

/-! ## Moves -/

theorem rd_mid {α : Type} {A B : List α} {x : α} {i : Int} (hi : i = A.length) : rd (A ++ x :: B) i = .ok x := by
  subst hi
  exact rd_of_getElem? (by omega) (by simp)

theorem wr_mid {α : Type} {A B : List α} {x y : α} {i : Int} (hi : i = A.length) : wr (A ++ x :: B) i y = .ok (A ++ y :: B) := by
  subst hi
  rw [wr_natCast (by simp)]
  simp

theorem moveIn_down {P D S T : List Int} {a b c : Int} (ha : a = P.length + D.length) (hb : b = P.length + D.length + S.length)
    (hc : c = P.length) : ∃ W, W.length = D.length ∧ moveIn (P ++ D ++ S ++ T) a b c = .ok (P ++ S ++ W ++ T) := by
  refine ⟨(D ++ S).drop S.length, by simp, ?_⟩
  rw [moveIn, if_pos (by simp; omega)]
  subst ha hb hc
  congr 1
  have e1 : (P ++ D ++ S ++ T).take ((P.length : Int)).toNat = P := by simp
  have e2 : (((P ++ D ++ S ++ T).drop ((P.length : Int) + D.length).toNat).take ((P.length : Int) + D.length + S.length - (P.length + D.length)).toNat) = S := by
    have h1 : ((P.length : Int) + D.length).toNat = (P ++ D).length := by simp; omega
    have h2 : ((P.length : Int) + D.length + S.length - (P.length + D.length)).toNat = S.length := by omega
    rw [h1, h2, List.append_assoc (P ++ D), List.drop_left, List.take_left]
  have e3 : (P ++ D ++ S ++ T).drop ((P.length : Int) + (P.length + D.length + S.length - (P.length + D.length))).toNat = (D ++ S).drop S.length ++ T := by
    have h2 : ((P.length : Int) + (P.length + D.length + S.length - (P.length + D.length))).toNat = P.length + S.length := by omega
    rw [h2, List.append_assoc P, List.append_assoc P, ← List.drop_drop, List.drop_left, List.drop_append_of_le_length (by simp)]
  rw [e1, e2, e3]
  simp

theorem moveIn_up {P S J : List Int} {a b c : Int} (ha : a = P.length) (hb : b = P.length + S.length) (hc : c = P.length + J.length) :
    ∃ W, W.length = J.length ∧ moveIn (P ++ S ++ J) a b c = .ok (P ++ W ++ S) := by
  refine ⟨(S ++ J).take J.length, by simp, ?_⟩
  rw [moveIn, if_pos (by simp; omega)]
  subst ha hb hc
  congr 1
  have h1 : ((P.length : Int) + J.length).toNat = P.length + J.length := by omega
  have h2 : ((P.length : Int) + S.length - P.length).toNat = S.length := by omega
  have h3 : ((P.length : Int) + J.length + (P.length + S.length - P.length)).toNat = (P ++ S ++ J).length := by simp; omega
  rw [h1, h2, h3, List.drop_length, List.append_nil, Int.toNat_natCast, List.append_assoc, List.drop_left, List.take_left, List.take_length_add_append]

theorem copyTo_mid {P W S p : List Int} {c : Int} (hc : c = P.length) (hw : W.length = p.length) :
    copyTo p (P ++ W ++ S) c = .ok (P ++ p ++ S) := by
  subst hc
  rw [copyTo, if_pos (by simp; omega)]
  have h2 : ((P.length : Int) + p.length).toNat = (P ++ W).length := by simp; omega
  rw [h2, List.drop_left, Int.toNat_natCast, List.append_assoc P W, List.take_left]

theorem readIn_mid {P S T : List Int} {a b : Int} (ha : a = P.length) (hb : b = P.length + S.length) :
    readIn (P ++ S ++ T) a b = .ok S := by
  subst ha hb
  rw [readIn, if_pos (by simp)]
  have h2 : ((P.length : Int) + S.length - P.length).toNat = S.length := by omega
  rw [h2, Int.toNat_natCast, List.append_assoc, List.drop_left, List.take_left]

theorem reAllocL_cut (junk : Nat → Int) {P W : List Int} {n : Int} (hn : n = P.length) : reAllocL junk (P ++ W) n = .ok P := by
  subst hn
  rw [reAllocL, if_neg (by omega)]
  simp

theorem reAllocL_grow (junk : Nat → Int) {P : List Int} {n : Int} (k : Nat) (hn : n = P.length + k) :
    ∃ J, J.length = k ∧ reAllocL junk P n = .ok (P ++ J) := by
  subst hn
  refine ⟨(List.range k).map junk, by simp, ?_⟩
  rw [reAllocL, if_neg (by omega)]
  have : ((P.length : Int) + k).toNat = P.length + k := by omega
  rw [this, List.take_of_length_le (by omega), Nat.add_sub_cancel_left]

theorem addRange_aux (A B C : List Int) (d : Int) : ∀ n, n ≤ B.length →
    loop n (A ++ B ++ C) (fun k v => do
      let x ← rd v ((A.length : Int) + k)
      wr v ((A.length : Int) + k) (x + d)) = .ok (A ++ (B.take n).map (· + d) ++ B.drop n ++ C) := by
  intro n
  induction n with
  | zero => intro _; simp [loop]
  | succ n ih =>
    intro hn
    rw [loop_succ, ih (by omega), ok_bind, List.drop_eq_getElem_cons (by omega)]
    have e : A ++ (B.take n).map (· + d) ++ (B[n] :: B.drop (n + 1)) ++ C = (A ++ (B.take n).map (· + d)) ++ B[n] :: (B.drop (n + 1) ++ C) := by
      rw [List.append_assoc, List.cons_append]
    rw [e, rd_mid (by simp; omega), ok_bind, wr_mid (by simp; omega), List.take_succ_eq_append_getElem (by omega), List.map_append]
    simp only [List.map_cons, List.map_nil, List.append_assoc, List.cons_append, List.nil_append]

theorem addRange_mid {A B C : List Int} {a b d : Int} (ha : a = A.length) (hb : b = A.length + B.length) :
    addRange (A ++ B ++ C) a b d = .ok (A ++ B.map (· + d) ++ C) := by
  subst ha hb
  rw [addRange]
  have : ((A.length : Int) + B.length - A.length).toNat = B.length := by omega
  rw [this, addRange_aux A B C d _ (Nat.le_refl _)]
  simp

/-! ## Offsets -/

section
variable {α : Type}

/-- The offsets of the groups, without the last one -/
def preIdx (g : List (List α)) : List Int := (skyIdx g).take g.length

@[simp] theorem preIdx_length (g : List (List α)) : (preIdx g).length = g.length := by simp [preIdx]

theorem skyIdx_cons (p : List α) (B : List (List α)) : skyIdx (p :: B) = 0 :: (skyIdx B).map (· + (p.length : Int)) := by
  simp only [skyIdx, List.length_cons, List.range_succ_eq_map (n := B.length + 1), List.map_cons, List.map_map]
  congr 1
  apply List.map_congr_left
  intro k _
  simp [Int.add_comm]

theorem skyIdx_nil : skyIdx ([] : List (List α)) = [0] := rfl

@[simp] theorem preIdx_nil : preIdx ([] : List (List α)) = [] := rfl

theorem preIdx_cons (p : List α) (B : List (List α)) : preIdx (p :: B) = 0 :: (preIdx B).map (· + (p.length : Int)) := by
  simp [preIdx, skyIdx_cons]

theorem skyIdx_app (A B : List (List α)) : skyIdx (A ++ B) = preIdx A ++ (skyIdx B).map (· + (A.flatten.length : Int)) := by
  induction A with
  | nil => simp
  | cons p A ih =>
    rw [List.cons_append, skyIdx_cons, ih, preIdx_cons]
    simp only [List.map_append, List.map_map, List.cons_append, List.flatten_cons, List.length_append]
    congr 2
    apply List.map_congr_left
    intro x _
    simp
    omega

theorem preIdx_append (A B : List (List α)) : preIdx (A ++ B) = preIdx A ++ (preIdx B).map (· + (A.flatten.length : Int)) := by
  rw [preIdx, skyIdx_app, List.length_append]
  have : A.length + B.length = (preIdx A).length + B.length := by simp
  rw [this, List.take_length_add_append, ← List.map_take]
  rfl

theorem skyIdx_head (A : List (List α)) : ∃ T, skyIdx A = 0 :: T ∧ T.length = A.length := by
  cases A with
  | nil => exact ⟨[], rfl, rfl⟩
  | cons p B => exact ⟨_, skyIdx_cons p B, by simp⟩

/-- the offsets around one group -/
theorem skyIdx_mid (A : List (List α)) (p : List α) (B : List (List α)) :
    skyIdx (A ++ p :: B) = preIdx A ++ (A.flatten.length : Int) :: (skyIdx B).map (· + ((A.flatten.length : Int) + p.length)) := by
  rw [skyIdx_app, skyIdx_cons]
  simp only [List.map_cons, List.map_map, Int.zero_add]
  congr 2
  apply List.map_congr_left
  intro x _
  simp
  omega

theorem rd_sky_mid (A : List (List α)) (p : List α) (B : List (List α)) {i : Int} (hi : i = A.length) :
    rd (skyIdx (A ++ p :: B)) i = .ok (A.flatten.length : Int) := by
  rw [skyIdx_mid]
  exact rd_mid (by simp [hi])

theorem rd_sky_next (A : List (List α)) (p : List α) (B : List (List α)) {i : Int} (hi : i = A.length + 1) :
    rd (skyIdx (A ++ p :: B)) i = .ok ((A.flatten.length : Int) + p.length) := by
  rw [skyIdx_mid]
  obtain ⟨T, hT, _⟩ := skyIdx_head B
  rw [hT, List.map_cons]
  have e : preIdx A ++ (A.flatten.length : Int) :: ((0 + ((A.flatten.length : Int) + p.length)) :: T.map (· + ((A.flatten.length : Int) + p.length)))
      = (preIdx A ++ [(A.flatten.length : Int)]) ++ (0 + ((A.flatten.length : Int) + p.length)) :: T.map (· + ((A.flatten.length : Int) + p.length)) := by simp
  rw [e, rd_mid (by simp [hi])]
  simp

theorem rd_sky_end (A B : List (List α)) {i : Int} (hi : i = A.length) : rd (skyIdx (A ++ B)) i = .ok (A.flatten.length : Int) := by
  rw [skyIdx_app]
  obtain ⟨T, hT, _⟩ := skyIdx_head B
  rw [hT, List.map_cons, rd_mid (by simp [hi])]
  simp

/-- changing by `d` the size of one group -/
theorem addRange_sky (A : List (List α)) (p q : List α) (B : List (List α)) {a b d : Int} (ha : a = A.length + 1)
    (hb : b = (skyIdx (A ++ p :: B)).length) (hd : d = (q.length : Int) - p.length) :
    addRange (skyIdx (A ++ p :: B)) a b d = .ok (skyIdx (A ++ q :: B)) := by
  rw [skyIdx_length] at hb
  rw [skyIdx_mid A p B, skyIdx_mid A q B]
  have e : preIdx A ++ (A.flatten.length : Int) :: (skyIdx B).map (· + ((A.flatten.length : Int) + p.length)) =
      (preIdx A ++ [(A.flatten.length : Int)]) ++ (skyIdx B).map (· + ((A.flatten.length : Int) + p.length)) ++ [] := by simp
  rw [e, addRange_mid (by simp [ha]) (by simp [hb]; omega)]
  simp only [List.map_map, List.append_nil, List.append_assoc, List.singleton_append]
  congr 3
  apply List.map_congr_left
  intro x _
  simp
  omega

end

/-! ## Packs of a skyline array -/

/-- the packs of the arrays, whatever the super index -/
def SkyL.Packs (s : SkyL) (ps : List (List Int)) : Prop := s.vals = ps.flatten ∧ s.idx = skyIdx ps

/-- the packs, grouped in super packs -/
def SkyL.Supers (s : SkyL) (g : List (List (List Int))) : Prop := s.si = skyIdx g ∧ s.Packs g.flatten

/-- values and index, one pack deleted -/
theorem delVals_ok (junk : Nat → Int) (A : List (List Int)) (p : List Int) (B : List (List Int)) {V : List Int} (hV : V = (A ++ p :: B).flatten)
    {start stop n : Int} (h1 : start = A.flatten.length) (h2 : stop = (A.flatten.length : Int) + p.length) (hn : n = (V.length : Int) - p.length) :
    ∃ v, moveIn V stop V.length start = .ok v ∧ reAllocL junk v n = .ok (A ++ B).flatten := by
  subst hV
  have e : (A ++ p :: B).flatten = A.flatten ++ p ++ B.flatten ++ [] := by simp
  obtain ⟨W, _, hW⟩ := moveIn_down (P := A.flatten) (D := p) (S := B.flatten) (T := []) (a := stop) (b := ((A ++ p :: B).flatten.length : Int)) (c := start)
    h2 (by simp; omega) h1
  refine ⟨_, by rw [e] at hW ⊢; exact hW, ?_⟩
  rw [List.append_nil]
  rw [reAllocL_cut junk (P := A.flatten ++ B.flatten) (W := W) (by rw [hn]; simp; omega)]
  simp

theorem delIdx_ok (A : List (List Int)) (p : List Int) (B : List (List Int)) {X : List Int} (hX : X = skyIdx (A ++ p :: B)) {i : Int} (hi : i = A.length) :
    ∃ w, moveIn X (i + 1) X.length i = .ok (preIdx A ++ (skyIdx B).map (· + ((A.flatten.length : Int) + p.length)) ++ [w]) := by
  subst hX
  obtain ⟨W, hl, hW⟩ := moveIn_down (P := preIdx A) (D := [(A.flatten.length : Int)]) (S := (skyIdx B).map (· + ((A.flatten.length : Int) + p.length))) (T := [])
    (a := i + 1) (b := ((skyIdx (A ++ p :: B)).length : Int)) (c := i) (by simp [hi]) (by simp; omega) (by simp [hi])
  obtain ⟨w, rfl⟩ := List.length_eq_one_iff.1 hl
  refine ⟨w, ?_⟩
  rw [List.append_nil, List.append_nil] at hW
  rw [skyIdx_mid] at hW ⊢
  rw [← hW]
  simp

theorem skyIdx_shift (A : List (List Int)) (p : List Int) (B : List (List Int)) :
    preIdx A ++ ((skyIdx B).map (· + ((A.flatten.length : Int) + p.length))).map (· + (-(p.length : Int))) = skyIdx (A ++ B) := by
  rw [skyIdx_app, List.map_map]
  congr 1
  apply List.map_congr_left
  intro x _
  simp
  omega

/-- one pack replaced -/
theorem replaceAt_ok (junk : Nat → Int) {s : SkyL} {A : List (List Int)} {p : List Int} {B : List (List Int)} (h : s.Packs (A ++ p :: B))
    {i : Int} (hi : i = A.length) (q : List Int) :
    s.replaceAt junk i q = .ok ⟨s.si, skyIdx (A ++ q :: B), (A ++ q :: B).flatten⟩ := by
  obtain ⟨hv, hx⟩ := h
  rw [SkyL.replaceAt, hx, rd_sky_mid A p B hi, ok_bind, rd_sky_next A p B (by omega), ok_bind]
  simp only
  have key : ∃ W, W.length = q.length ∧
      shiftTail junk s.vals ((A.flatten.length : Int) + p.length) ((q.length : Int) - ((A.flatten.length : Int) + p.length - A.flatten.length)) =
        .ok (A.flatten ++ W ++ B.flatten) := by
    rw [shiftTail]
    have e : s.vals = A.flatten ++ p ++ B.flatten := by rw [hv]; simp
    rcases Nat.lt_trichotomy q.length p.length with hlt | heq | hgt
    · obtain ⟨W, hWl, hW⟩ := moveIn_down (P := A.flatten ++ p.take q.length) (D := p.drop q.length) (S := B.flatten) (T := [])
        (a := (A.flatten.length : Int) + p.length) (b := (s.vals.length : Int))
        (c := (A.flatten.length : Int) + p.length + ((q.length : Int) - ((A.flatten.length : Int) + p.length - A.flatten.length)))
        (by simp; omega) (by rw [e]; simp; omega) (by simp; omega)
      refine ⟨p.take q.length, by simp; omega, ?_⟩
      rw [if_pos (by omega), growVals, if_neg (by omega), ok_bind]
      have e' : A.flatten ++ p.take q.length ++ p.drop q.length ++ B.flatten ++ [] = s.vals := by
        rw [e, List.append_nil, List.append_assoc A.flatten, List.take_append_drop]
      rw [e'] at hW
      simp only [hW, ok_bind]
      rw [shrinkVals, if_pos (by omega), List.append_nil, reAllocL_cut junk (by rw [e]; simp; omega)]
    · refine ⟨p, heq.symm, ?_⟩
      rw [if_neg (by omega), e]
    · obtain ⟨J, hJ, hr⟩ := reAllocL_grow junk (P := s.vals) (n := s.vals.length + ((q.length : Int) - ((A.flatten.length : Int) + p.length - A.flatten.length)))
        (q.length - p.length) (by omega)
      obtain ⟨W, hWl, hW⟩ := moveIn_up (P := A.flatten ++ p) (S := B.flatten) (J := J)
        (a := (A.flatten.length : Int) + p.length) (b := (s.vals.length : Int))
        (c := (A.flatten.length : Int) + p.length + ((q.length : Int) - ((A.flatten.length : Int) + p.length - A.flatten.length)))
        (by simp) (by rw [e]; simp; omega) (by simp [hJ]; omega)
      refine ⟨p ++ W, by simp [hWl, hJ]; omega, ?_⟩
      rw [if_pos (by omega), growVals, if_pos (by omega), hr, ok_bind]
      rw [← e] at hW
      simp only [hW, ok_bind]
      rw [shrinkVals, if_neg (by omega)]
      simp
  obtain ⟨W, hW, hk⟩ := key
  rw [hk, ok_bind, copyTo_mid rfl hW, ok_bind, addRange_sky A p q B (by omega) rfl (by omega), ok_bind]
  simp

end MC
