import Verif.DefTimeOrd

/-! # Serialization of time definitions -/

namespace MC

variable {K : Type} [Field K] [LinearOrder K]

omit [Field K] [LinearOrder K] in
theorem dtSliceUnser_ser (s : TSlice K) : dtSliceUnser s.ty.toInt s.tiI s.tiD = .ok s := by
  cases s <;> rfl

theorem subVec_mid {α : Type} (p x q : List α) (a n : Int) (ha : a = p.length) (hn : n = x.length) :
    subVec (p ++ (x ++ q)) a n = .ok x := by
  subst ha hn
  rw [subVec, if_pos (by simp only [List.length_append]; push_cast; omega)]
  simp

omit [Field K] [LinearOrder K] in
theorem dtUnser_loop (l : List (TSlice K)) (e : K) (n : Nat) (hn : n ≤ l.length) :
    loop n ([], 0, 1) (dtUnserStep
      ([(l.length : Int), ((l.map TSlice.tiI).flatten.length : Int)] ++ l.map (fun s => s.ty.toInt)
        ++ l.map (fun s => (s.tiI.length : Int)) ++ l.map (fun s => (s.tiD.length : Int)) ++ (l.map TSlice.tiI).flatten)
      (e :: (l.map TSlice.tiD).flatten) l.length)
    = .ok (l.take n, (((l.take n).map TSlice.tiI).flatten.length : Int), 1 + (((l.take n).map TSlice.tiD).flatten.length : Int)) := by
  induction n with
  | zero => rfl
  | succ n ih =>
    rw [loop, ih (by omega), ok_bind]
    have hn' : n < l.length := by omega
    generalize hI : ([(l.length : Int), ((l.map TSlice.tiI).flatten.length : Int)] ++ l.map (fun s => s.ty.toInt)
        ++ l.map (fun s => (s.tiI.length : Int)) ++ l.map (fun s => (s.tiD.length : Int)) ++ (l.map TSlice.tiI).flatten) = I
    have hl : l = l.take n ++ (l[n] :: l.drop (n + 1)) := by
      rw [← List.drop_eq_getElem_cons hn', List.take_append_drop]
    have r1 : rd I ((n : Int) + 2) = .ok (l[n].ty.toInt) := by
      refine rd_of_getElem? (by omega) ?_
      have : ((n : Int) + 2).toNat = n + 2 := by omega
      rw [this, ← hI]
      simp [List.getElem?_append, hn']
    have r2 : rd I ((n : Int) + l.length + 2) = .ok (l[n].tiI.length : Int) := by
      refine rd_of_getElem? (by omega) ?_
      have : ((n : Int) + l.length + 2).toNat = n + l.length + 2 := by omega
      rw [this, ← hI]
      have h1 : n + l.length < l.length + l.length := by omega
      have h2 : ¬ n + l.length < l.length := by omega
      simp [List.getElem?_append, hn']
    have r3 : rd I ((n : Int) + 2 * l.length + 2) = .ok (l[n].tiD.length : Int) := by
      refine rd_of_getElem? (by omega) ?_
      have : ((n : Int) + 2 * l.length + 2).toNat = n + 2 * l.length + 2 := by omega
      rw [this, ← hI]
      have h1 : n + 2 * l.length < l.length + (l.length + l.length) := by omega
      have h2 : ¬ n + 2 * l.length < l.length := by omega
      have h3 : ¬ n + 2 * l.length < l.length + l.length := by omega
      have h4 : n + 2 * l.length - l.length - l.length = n := by omega
      simp [List.getElem?_append, hn', h2, h4]
      omega
    have s1 : subVec I (3 * (l.length : Int) + 2 + (((l.take n).map TSlice.tiI).flatten.length : Int)) (l[n].tiI.length : Int)
        = .ok l[n].tiI := by
      rw [← hI]
      have hf : (l.map TSlice.tiI).flatten = ((l.take n).map TSlice.tiI).flatten ++ (l[n].tiI ++ ((l.drop (n + 1)).map TSlice.tiI).flatten) := by
        have := congrArg (fun l => (l.map TSlice.tiI).flatten) hl
        simpa only [List.map_append, List.map_cons, List.flatten_append, List.flatten_cons] using this
      generalize ((l.map TSlice.tiI).flatten.length : Int) = c
      rw [hf, ← List.append_assoc]
      refine subVec_mid _ _ _ _ _ ?_ rfl
      simp only [List.length_append, List.length_cons, List.length_nil, List.length_map]
      push_cast
      omega
    have s2 : subVec (e :: (l.map TSlice.tiD).flatten) (1 + (((l.take n).map TSlice.tiD).flatten.length : Int)) (l[n].tiD.length : Int)
        = .ok l[n].tiD := by
      have hf : e :: (l.map TSlice.tiD).flatten
          = (e :: ((l.take n).map TSlice.tiD).flatten) ++ (l[n].tiD ++ ((l.drop (n + 1)).map TSlice.tiD).flatten) := by
        have := congrArg (fun l => e :: (l.map TSlice.tiD).flatten) hl
        simpa only [List.map_append, List.map_cons, List.flatten_append, List.flatten_cons, List.cons_append] using this
      rw [hf]
      refine subVec_mid _ _ _ _ _ ?_ rfl
      simp only [List.length_cons]
      push_cast
      omega
    simp only [dtUnserStep, r1, r2, r3, s1, s2, ok_bind, dtSliceUnser_ser, pure, Except.pure]
    have ht : l.take (n + 1) = l.take n ++ [l[n]] := by simp
    rw [ht]
    simp only [List.map_append, List.map_cons, List.map_nil, List.flatten_append, List.flatten_cons, List.flatten_nil, List.append_nil,
      List.length_append]
    push_cast
    rw [add_assoc]

omit [Field K] [LinearOrder K] in
/-- C106: a time definition which is serialized and read again is the same -/
theorem C106_serialized (d : DefTime K) (e : K) (he : d.eps = some e) :
    ∃ I D, dtSerialize d = .ok (I, D) ∧ dtUnserialize I D = .ok d := by
  obtain ⟨eps, l⟩ := d
  subst he
  refine ⟨_, _, rfl, ?_⟩
  rw [dtUnserialize]
  have h0 : rd ([(l.length : Int), ((l.map TSlice.tiI).flatten.length : Int)] ++ l.map (fun s => s.ty.toInt)
        ++ l.map (fun s => (s.tiI.length : Int)) ++ l.map (fun s => (s.tiD.length : Int)) ++ (l.map TSlice.tiI).flatten) 0
      = .ok (l.length : Int) := rfl
  have h1 : rd (e :: (l.map TSlice.tiD).flatten) 0 = .ok e := rfl
  simp only [h0, h1, ok_bind, Int.toNat_natCast, dtUnser_loop l e l.length (le_refl _)]
  simp [pure, Except.pure]

end MC
