import Verif.Layout
import Verif.StdAlg

/-! # C23 – theorems -/

namespace MC
variable {α : Type}

theorem grid_inj {m i j i' j' : Nat} (hj : j < m) (hj' : j' < m) (h : i * m + j = i' * m + j') : i = i' ∧ j = j' := by
  have hm : 0 < m := by omega
  have h1 : (i * m + j) / m = i := by rw [Nat.mul_comm, Nat.mul_add_div hm, Nat.div_eq_of_lt hj, Nat.add_zero]
  have h2 : (i' * m + j') / m = i' := by rw [Nat.mul_comm, Nat.mul_add_div hm, Nat.div_eq_of_lt hj', Nat.add_zero]
  have : i = i' := by rw [← h1, ← h2, h]
  subst this
  exact ⟨rfl, by omega⟩

theorem grid_lt {n m i j : Nat} (hi : i < n) (hj : j < m) : i * m + j < n * m := by
  have := Nat.mul_le_mul_right m (show i + 1 ≤ n from hi)
  rw [Nat.succ_mul] at this; omega

/-- Two nested loops writing consecutive cells. -/
theorem emit_grid {n m N : Nat} {g : Nat → Nat → M α} (hg : ∀ i j, i < n → j < m → ∃ v, g i j = .ok v) (hN : n * m ≤ N) :
    ∃ r : List α, loop n (newCur α N) (fun i w => loop m w fun j w => do let v ← g i j; emit w v) = .ok (filled r N) ∧
      r.length = n * m ∧ ∀ i j, i < n → j < m → ∃ v, r[i * m + j]? = some v ∧ g i j = .ok v := by
  have h : wp (loop n (newCur α N) (fun i w => loop m w fun j w => do let v ← g i j; emit w v))
      (fun s => ∃ r : List α, s = filled r N ∧ r.length = n * m ∧
        ∀ i j, i < n → j < m → ∃ v, r[i * m + j]? = some v ∧ g i j = .ok v) False := by
    refine wp_loop (fun k s => ∃ r : List α, s = filled r N ∧ r.length = k * m ∧
        ∀ i j, i < k → j < m → ∃ v, r[i * m + j]? = some v ∧ g i j = .ok v) ⟨[], newCur_eq N, by simp, by intro i j h; omega⟩ ?_
    rintro i hi s ⟨r, rfl, hrl, hr⟩
    refine wp_mono (wp_loop (fun k s => ∃ r' : List α, s = filled r' N ∧ r'.length = i * m + k ∧
        (∀ i' j, i' < i → j < m → ∃ v, r'[i' * m + j]? = some v ∧ g i' j = .ok v) ∧
        ∀ j, j < k → ∃ v, r'[i * m + j]? = some v ∧ g i j = .ok v) ?_ ?_) ?_ id
    · exact ⟨r, rfl, by omega, hr, by intro j h; omega⟩
    · rintro j hj s ⟨r', rfl, hl', h1, h2⟩
      obtain ⟨v, hv⟩ := hg i j hi hj
      simp only [hv, ok_bind]
      have := grid_lt hi hj
      rw [emit_filled (by omega), wp_ok]
      refine ⟨r' ++ [v], rfl, by simp [hl']; omega, ?_, ?_⟩
      · intro i' j' hi' hj'
        obtain ⟨u, hu, hg'⟩ := h1 i' j' hi' hj'
        exact ⟨u, by rw [List.getElem?_append_left (List.getElem?_eq_some_iff.mp hu).1, hu], hg'⟩
      · intro j' hj'
        rcases Nat.lt_succ_iff_lt_or_eq.mp hj' with hj' | rfl
        · obtain ⟨u, hu, hg'⟩ := h2 j' hj'
          exact ⟨u, by rw [List.getElem?_append_left (List.getElem?_eq_some_iff.mp hu).1, hu], hg'⟩
        · exact ⟨v, by rw [← hl']; simp, hv⟩
    · rintro s ⟨r', rfl, hl', h1, h2⟩
      refine ⟨r', rfl, by rw [hl', Nat.succ_mul], ?_⟩
      intro i' j hi' hj
      rcases Nat.lt_succ_iff_lt_or_eq.mp hi' with hi' | rfl
      · exact h1 i' j hi' hj
      · exact h2 j hj
  obtain ⟨s, hs, r, rfl, h1, h2⟩ := wp_exists h
  exact ⟨r, hs, h1, h2⟩

theorem rd_some {l : List α} {i : Nat} (h : i < l.length) : ∃ v, rd l (i : Int) = .ok v := ⟨_, rd_natCast h⟩

theorem rd_eq_ok {l : List α} {i : Nat} {v : α} (h : rd l (i : Int) = .ok v) : l[i]? = some v := by
  unfold rd at h
  rw [if_pos (by omega), Int.toNat_natCast] at h
  split at h
  · rename_i hh; injection h with h; rw [hh, h]
  · simp at h

/-- **C23 (`fromNoInterlace`).** Value `c` of tuple `t` of the result is value `t` of the `c`-th run of the argument. -/
theorem C23_fromNoInterlace (nt nc : Nat) (pt : List α) (hl : pt.length = nt * nc) (hnc : 0 < nc) :
    ∃ r : List α, fromNoInterlace nc pt = .ok (r.map some) ∧ r.length = nt * nc ∧
      ∀ t c, t < nt → c < nc → r[t * nc + c]? = pt[c * nt + t]? := by
  have hq : pt.length / nc = nt := by rw [hl, Nat.mul_div_cancel _ hnc]
  obtain ⟨r, h1, h2, h3⟩ := emit_grid (n := nt) (m := nc) (N := pt.length) (g := fun i j => rd pt ((j * nt + i : Nat) : Int))
    (fun i j hi hj => rd_some (by rw [hl, Nat.mul_comm nt]; exact grid_lt hj hi)) (by omega)
  refine ⟨r, ?_, h2, ?_⟩
  · unfold fromNoInterlace
    rw [if_neg (by omega), hq, h1]
    simp only [ok_bind]
    rw [filled_full (by omega)]
  · intro t c ht hc
    obtain ⟨v, hv, hg⟩ := h3 t c ht hc
    rw [hv, rd_eq_ok hg]

/-- **C23 (`toNoInterlace`).** -/
theorem C23_toNoInterlace (nt nc : Nat) (pt : List α) (hl : pt.length = nt * nc) (hnc : 0 < nc) :
    ∃ r : List α, toNoInterlace nc pt = .ok (r.map some) ∧ r.length = nt * nc ∧
      ∀ t c, t < nt → c < nc → r[c * nt + t]? = pt[t * nc + c]? := by
  have hq : pt.length / nc = nt := by rw [hl, Nat.mul_div_cancel _ hnc]
  obtain ⟨r, h1, h2, h3⟩ := emit_grid (n := nc) (m := nt) (N := pt.length) (g := fun i j => rd pt ((j * nc + i : Nat) : Int))
    (fun i j hi hj => rd_some (by rw [hl]; exact grid_lt hj hi)) (by rw [hl, Nat.mul_comm])
  refine ⟨r, ?_, by rw [h2, Nat.mul_comm], ?_⟩
  · unfold toNoInterlace
    rw [if_neg (by omega), hq, h1]
    simp only [ok_bind]
    rw [filled_full (by rw [h2, hl, Nat.mul_comm])]
  · intro t c ht hc
    obtain ⟨v, hv, hg⟩ := h3 c t hc ht
    rw [hv, rd_eq_ok hg]

/-- **C23 (round trip).** Going to the no-interlace layout and back gives the original values, in both orders. -/
theorem C23_interlace_round_trip (nt nc : Nat) (pt : List α) (hl : pt.length = nt * nc) (hnc : 0 < nc) :
    (∃ r : List α, toNoInterlace nc pt = .ok (r.map some) ∧ fromNoInterlace nc r = .ok (pt.map some)) ∧
    (∃ r : List α, fromNoInterlace nc pt = .ok (r.map some) ∧ toNoInterlace nc r = .ok (pt.map some)) := by
  have hext : ∀ {n m : Nat} {l l' : List α}, l.length = n * m → l'.length = n * m →
      (∀ i j, i < n → j < m → l[i * m + j]? = l'[i * m + j]?) → l = l' := by
    intro n m l l' h1 h2 h
    apply ext_tup h1 h2
    intro k hk
    apply List.ext_getElem?
    intro c
    rw [tup_getElem?, tup_getElem?]
    split
    · exact h k c hk ‹_›
    · rfl
  constructor
  · obtain ⟨r, h1, h2, h3⟩ := C23_toNoInterlace nt nc pt hl hnc
    obtain ⟨r', g1, g2, g3⟩ := C23_fromNoInterlace nt nc r h2 hnc
    refine ⟨r, h1, ?_⟩
    rw [g1, hext g2 hl]
    intro t c ht hc; rw [g3 t c ht hc, h3 t c ht hc]
  · obtain ⟨r, h1, h2, h3⟩ := C23_fromNoInterlace nt nc pt hl hnc
    obtain ⟨r', g1, g2, g3⟩ := C23_toNoInterlace nt nc r h2 hnc
    refine ⟨r, h1, ?_⟩
    rw [g1, hext (n := nc) (m := nt) (l := r') (l' := pt) (by rw [g2, Nat.mul_comm]) (by rw [hl, Nat.mul_comm])]
    intro c t hc ht; rw [g3 t c ht hc, h3 t c ht hc]

example : toNoInterlace 2 [1, 10, 2, 20, 3, 30] = .ok [some 1, some 2, some 3, some 10, some 20, some 30] ∧
    fromNoInterlace 2 [1, 2, 3, 10, 20, 30] = .ok [some 1, some 10, some 2, some 20, some 3, some 30] := ⟨rfl, rfl⟩

/-- **C23 (`rearrange`).** It succeeds exactly when the new number of components is positive and divides the number of values; the
values and their order never change. -/
theorem C23_rearrange (newNc : Nat) (a : DArr α) :
    (0 < newNc ∧ newNc ∣ a.data.length → ∃ r, rearrange newNc a = .ok r ∧ r.nc = newNc ∧ r.nt * newNc = a.data.length ∧ r.data = a.data) ∧
    (¬ (0 < newNc ∧ newNc ∣ a.data.length) → rearrange newNc a = .error Err.exn) := by
  unfold rearrange
  constructor
  · rintro ⟨h0, hd⟩
    rw [if_neg (by omega), dif_neg (by simpa using Nat.mod_eq_zero_of_dvd hd)]
    exact ⟨_, rfl, rfl, Nat.div_mul_cancel hd, rfl⟩
  · intro h
    by_cases h0 : newNc < 1
    · rw [if_pos h0]; rfl
    · rw [if_neg h0, dif_pos]
      · rfl
      · intro hc; exact h ⟨by omega, Nat.dvd_of_mod_eq_zero hc⟩

/-- **C23 (`transpose`).** The numbers of tuples and components are exchanged and the values stay; twice is the identity.  An array
without tuple is rejected. -/
theorem C23_transpose (a : DArr α) :
    (0 < a.nt → ∃ r, transpose a = .ok r ∧ r.nc = a.nt ∧ r.nt = a.nc ∧ r.data = a.data) ∧ (a.nt = 0 → transpose a = .error Err.exn) := by
  refine ⟨fun h => ?_, fun h => (C23_rearrange a.nt a).2 (by omega)⟩
  obtain ⟨r, h1, h2, h3, h4⟩ := (C23_rearrange a.nt a).1 ⟨h, by rw [a.wf]; exact Nat.dvd_mul_right _ _⟩
  refine ⟨r, h1, h2, ?_, h4⟩
  rw [a.wf, Nat.mul_comm] at h3
  exact Nat.eq_of_mul_eq_mul_left h h3

example : (transpose (⟨3, 2, [1, 2, 3, 4, 5, 6], rfl⟩ : DArr Nat)).map (fun r => (r.nt, r.nc)) = .ok (2, 3) := rfl

/-- **C23 (`changeNbOfComponents`).** The common components are kept, the new ones get the default value; every cell is written. -/
theorem C23_changeNbOfComponents (newNc : Nat) (dft : α) (a : DArr α) :
    ∃ r : List α, changeNbOfComponents newNc dft a = .ok (r.map some) ∧ r.length = a.nt * newNc ∧
      ∀ t c, t < a.nt → c < newNc → r[t * newNc + c]? = if c < a.nc then a.data[t * a.nc + c]? else some dft := by
  have hdl := a.wf
  let val : Nat → Nat → Option α := fun t c => if c < a.nc then a.data[t * a.nc + c]? else some dft
  have h : wp (changeNbOfComponents newNc dft a)
      (fun s => s.length = a.nt * newNc ∧ ∀ t c, t < a.nt → c < newNc → ∃ v, s[t * newNc + c]? = some (some v) ∧ val t c = some v) False := by
    unfold changeNbOfComponents
    refine wp_loop (fun k (s : List (Option α)) => s.length = a.nt * newNc ∧
        ∀ t c, t < k → c < newNc → ∃ v, s[t * newNc + c]? = some (some v) ∧ val t c = some v)
      ⟨by simp [mallocN], by intro t c h; omega⟩ ?_
    rintro i hi s ⟨hl, hs⟩
    have hstep : ∀ (s' : List (Option α)) (j : Nat) (v : α), j < newNc → s'.length = a.nt * newNc → val i j = some v →
        (∀ t c, t < i → c < newNc → ∃ v, s'[t * newNc + c]? = some (some v) ∧ val t c = some v) →
        (∀ c, c < j → ∃ v, s'[i * newNc + c]? = some (some v) ∧ val i c = some v) →
        wp (wr s' ((newNc * i + j : Nat) : Int) (some v)) (fun s'' => s''.length = a.nt * newNc ∧
          (∀ t c, t < i → c < newNc → ∃ v, s''[t * newNc + c]? = some (some v) ∧ val t c = some v) ∧
          (∀ c, c < j + 1 → ∃ v, s''[i * newNc + c]? = some (some v) ∧ val i c = some v)) False := by
      intro s' j v hj hl' hv h1 h2
      have hlt : i * newNc + j < s'.length := by rw [hl']; exact grid_lt hi hj
      rw [Nat.mul_comm newNc i, wr_natCast hlt, wp_ok]
      refine ⟨by simp [hl'], ?_, ?_⟩
      · intro t c ht hc
        obtain ⟨u, hu, hu'⟩ := h1 t c ht hc
        refine ⟨u, ?_, hu'⟩
        rw [List.getElem?_set, if_neg, hu]
        intro he; have := (grid_inj hj hc he).1; omega
      · intro c hc
        rcases Nat.lt_succ_iff_lt_or_eq.mp hc with hc | rfl
        · obtain ⟨u, hu, hu'⟩ := h2 c hc
          refine ⟨u, ?_, hu'⟩
          rw [List.getElem?_set, if_neg, hu]
          omega
        · exact ⟨v, by rw [List.getElem?_set, if_pos rfl, if_pos hlt], hv⟩
    rw [wp_bind]
    refine wp_mono (wp_loop (fun j (s' : List (Option α)) => s'.length = a.nt * newNc ∧
          (∀ t c, t < i → c < newNc → ∃ v, s'[t * newNc + c]? = some (some v) ∧ val t c = some v) ∧
          (∀ c, c < j → ∃ v, s'[i * newNc + c]? = some (some v) ∧ val i c = some v)) ⟨hl, hs, by intro c h; omega⟩ ?_) ?_ id
    · rintro j hj s' ⟨h1, h2, h3⟩
      have hlt : i * a.nc + j < a.data.length := by rw [hdl]; exact grid_lt hi (by omega)
      rw [rd_natCast hlt]
      simp only [ok_bind]
      refine hstep s' j _ (by omega) h1 ?_ h2 h3
      simp only [val]
      rw [if_pos (by omega), List.getElem?_eq_getElem hlt]
    · rintro s' ⟨h1, h2, h3⟩
      refine wp_mono (wp_loop (fun j (s' : List (Option α)) => s'.length = a.nt * newNc ∧
          (∀ t c, t < i → c < newNc → ∃ v, s'[t * newNc + c]? = some (some v) ∧ val t c = some v) ∧
          (∀ c, c < min a.nc newNc + j → ∃ v, s'[i * newNc + c]? = some (some v) ∧ val i c = some v)) ⟨h1, h2, h3⟩ ?_) ?_ id
      · rintro j hj s'' ⟨g1, g2, g3⟩
        refine hstep s'' (min a.nc newNc + j) dft (by omega) g1 ?_ g2 g3
        simp only [val]
        rw [if_neg (by omega)]
      · rintro s'' ⟨g1, g2, g3⟩
        refine ⟨g1, fun t c ht hc => ?_⟩
        rcases Nat.lt_succ_iff_lt_or_eq.mp ht with ht | rfl
        · exact g2 t c ht hc
        · exact g3 c (by omega)
  obtain ⟨s, hs, h1, h2⟩ := wp_exists h
  have hall : ∀ k, k < s.length → ∃ v, s[k]? = some (some v) := by
    intro k hk
    rw [h1] at hk
    have hpos : 0 < newNc := by
      rcases Nat.eq_zero_or_pos newNc with h | h
      · rw [h] at hk; simp at hk
      · exact h
    obtain ⟨v, hv, _⟩ := h2 (k / newNc) (k % newNc) (by rw [Nat.div_lt_iff_lt_mul hpos]; exact hk) (Nat.mod_lt _ hpos)
    rw [Nat.mul_comm, Nat.div_add_mod] at hv
    exact ⟨v, hv⟩
  have hsome : s = (s.filterMap id).map some := by
    clear h2 h1 hs h
    induction s with
    | nil => rfl
    | cons x s ih =>
      obtain ⟨v, hv⟩ := hall 0 (by simp)
      simp at hv; subst hv
      have := ih fun k hk => by
        obtain ⟨v, hv⟩ := hall (k + 1) (by simpa using hk)
        exact ⟨v, by simpa using hv⟩
      show some v :: s = some v :: (s.filterMap id).map some
      rw [← this]
  refine ⟨s.filterMap id, by rw [hs, ← hsome], ?_, ?_⟩
  · have := congrArg List.length hsome; rw [List.length_map] at this; omega
  · intro t c ht hc
    obtain ⟨v, hv, hval⟩ := h2 t c ht hc
    rw [hsome, List.getElem?_map] at hv
    have : (s.filterMap id)[t * newNc + c]? = some v := by
      cases hh : (s.filterMap id)[t * newNc + c]? with
      | none => rw [hh] at hv; simp at hv
      | some u => rw [hh] at hv; simp at hv; rw [hv]
    rw [this, ← hval]

example : changeNbOfComponents 3 0 (⟨2, 2, [1, 2, 3, 4], rfl⟩ : DArr Nat) = .ok [some 1, some 2, some 0, some 3, some 4, some 0] := rfl

/-- **C23 (`keepSelectedComponents`).** It throws exactly when an id is not a component; else component `j` of the result is component
`ids[j]`. -/
theorem C23_keepSelectedComponents (ids : List Nat) (a : DArr α) :
    ((∀ c ∈ ids, c < a.nc) → ∃ r : List α, keepSelectedComponents ids a = .ok (r.map some) ∧ r.length = a.nt * ids.length ∧
      ∀ (t j : Nat) (c : Nat), t < a.nt → ids[j]? = some c → r[t * ids.length + j]? = a.data[t * a.nc + c]?) ∧
    (¬ (∀ c ∈ ids, c < a.nc) → keepSelectedComponents ids a = .error Err.exn) := by
  unfold keepSelectedComponents
  constructor
  · intro hc
    rw [if_neg (by simpa using hc)]
    obtain ⟨r, h1, h2, h3⟩ := emit_grid (n := a.nt) (m := ids.length) (N := a.nt * ids.length)
      (g := fun i j => do let c ← rd ids (j : Int); rd a.data ((i * a.nc + c : Nat) : Int))
      (by
        intro i j hi hj
        simp only [rd_natCast hj, ok_bind]
        exact rd_some (by rw [a.wf]; exact grid_lt hi (hc _ (List.getElem_mem hj)))) (Nat.le_refl _)
    refine ⟨r, ?_, h2, ?_⟩
    · simp only [bind_assoc] at h1
      rw [h1]
      simp only [ok_bind]
      rw [filled_full h2]
    · intro t j c ht hj
      have hj' := (List.getElem?_eq_some_iff.mp hj)
      obtain ⟨v, hv, hg⟩ := h3 t j ht hj'.1
      simp only [rd_natCast hj'.1, ok_bind] at hg
      rw [hv, ← rd_eq_ok hg, hj'.2]
  · intro hc
    rw [if_pos]
    · rfl
    · push Not at hc
      obtain ⟨c, h1, h2⟩ := hc
      simp only [List.any_eq_true, decide_eq_true_eq]
      exact ⟨c, h1, h2⟩

example : keepSelectedComponents [1, 1, 0] (⟨2, 2, [1, 2, 3, 4], rfl⟩ : DArr Nat) = .ok [some 2, some 2, some 1, some 4, some 4, some 3] := rfl

/-! ### Reversal -/

theorem swapAt_spec {l : List α} {i j : Nat} (hi : i < l.length) (hj : j < l.length) :
    ∃ r, swapAt l i j = .ok r ∧ r.length = l.length ∧ ∀ k : Nat, r[k]? = if k = j then l[i]? else if k = i then l[j]? else l[k]? := by
  unfold swapAt
  rw [rd_natCast hi, ok_bind, rd_natCast hj, ok_bind, wr_natCast hi, ok_bind, wr_natCast (by simpa using hj)]
  refine ⟨_, rfl, by simp, ?_⟩
  intro k
  rw [List.getElem?_set, List.getElem?_set]
  by_cases h1 : k = j
  · subst h1; rw [if_pos rfl, if_pos rfl, if_pos (by simpa using hj), List.getElem?_eq_getElem hi]
  · rw [if_neg (Ne.symm h1), if_neg h1]
    by_cases h2 : k = i
    · subst h2; rw [if_pos rfl, if_pos rfl, if_pos hi, List.getElem?_eq_getElem hj]
    · rw [if_neg (Ne.symm h2), if_neg h2]

/-- **C23 (`reverse`).** Tuple `t` of the reversed array is tuple `nt-1-t` of the original one, component order kept. -/
theorem C23_reverse (nt nc : Nat) (l : List α) (hl : l.length = nt * nc) (hnc : 0 < nc) :
    ∃ r : List α, reverseTuples nc l = .ok r ∧ r.length = l.length ∧ ∀ t, t < nt → tup nc r t = tup nc l (nt - 1 - t) := by
  suffices h : ∃ r : List α, reverseTuples nc l = .ok r ∧ r.length = l.length ∧
      ∀ t c, t < nt → c < nc → r[t * nc + c]? = l[(nt - 1 - t) * nc + c]? by
    obtain ⟨r, h1, h2, h3⟩ := h
    refine ⟨r, h1, h2, fun t ht => ?_⟩
    apply List.ext_getElem?
    intro c
    rw [tup_getElem?, tup_getElem?]
    split
    · exact h3 t c ht ‹_›
    · rfl
  unfold reverseTuples
  rw [if_neg (by omega)]
  by_cases h1 : nc = 1
  · rw [if_pos h1]
    subst h1
    refine ⟨_, rfl, by simp, ?_⟩
    intro t c ht hc
    have : c = 0 := by omega
    subst this
    rw [List.getElem?_reverse (by omega)]
    congr 1; omega
  · rw [if_neg h1]
    have hq : l.length / nc = nt := by rw [hl, Nat.mul_div_cancel _ hnc]
    rw [hq]
    apply wp_exists
    refine wp_mono (wp_loop (fun i (r : List α) => r.length = l.length ∧ ∀ t c, t < nt → c < nc →
        r[t * nc + c]? = if t < i ∨ nt - i ≤ t then l[(nt - 1 - t) * nc + c]? else l[t * nc + c]?) ?_ ?_) ?_ id
    · refine ⟨rfl, fun t c ht _ => ?_⟩
      rw [if_neg (by omega)]
    · rintro i hi r ⟨hrl, hr⟩
      have hi2 : 2 * i + 2 ≤ nt := by omega
      refine wp_mono (wp_loop (fun j (r : List α) => r.length = l.length ∧ ∀ t c, t < nt → c < nc →
        r[t * nc + c]? = if t < i ∨ nt - i ≤ t ∨ ((t = i ∨ t = nt - 1 - i) ∧ c < j) then l[(nt - 1 - t) * nc + c]? else l[t * nc + c]?) ?_ ?_) ?_ id
      · refine ⟨hrl, fun t c ht hc => ?_⟩
        rw [hr t c ht hc]
        congr 1
        simp
      · rintro j hj r' ⟨hrl', hr'⟩
        have e1 : (nc : Int) * (i : Int) + (j : Int) = ((i * nc + j : Nat) : Int) := by push_cast; ring
        have e2 : (l.length : Int) - nc - nc * (i : Int) + (j : Int) = (((nt - 1 - i) * nc + j : Nat) : Int) := by
          rw [hl, Nat.sub_sub]
          push_cast [show 1 + i ≤ nt by omega]; ring
        rw [e1, e2]
        have p1 : i * nc + j < r'.length := by rw [hrl', hl]; exact grid_lt (by omega) hj
        have p2 : (nt - 1 - i) * nc + j < r'.length := by rw [hrl', hl]; exact grid_lt (by omega) hj
        obtain ⟨s, hs, hsl, hsk⟩ := swapAt_spec p1 p2
        rw [hs, wp_ok]
        refine ⟨by rw [hsl, hrl'], fun t c ht hc => ?_⟩
        rw [hsk]
        by_cases ha : t * nc + c = (nt - 1 - i) * nc + j
        · obtain ⟨ht', hc'⟩ := grid_inj hc hj ha
          subst ht' hc'
          rw [if_pos rfl, hr' i c (by omega) hc, if_neg (by omega), if_pos (by omega)]
          congr 2; congr 1; omega
        · rw [if_neg ha]
          by_cases hb : t * nc + c = i * nc + j
          · obtain ⟨ht', hc'⟩ := grid_inj hc hj hb
            subst ht' hc'
            rw [if_pos rfl, hr' (nt - 1 - t) c (by omega) hc, if_neg (by omega), if_pos (by omega)]
          · rw [if_neg hb, hr' t c ht hc]
            have : ¬ ((t = i ∨ t = nt - 1 - i) ∧ c = j) := by
              rintro ⟨h | h, h'⟩ <;> subst h h'
              · exact hb rfl
              · exact ha rfl
            congr 1
            apply propext
            constructor <;> intro h <;> omega
      · rintro r' ⟨h1, h2⟩
        refine ⟨h1, fun t c ht hc => ?_⟩
        rw [h2 t c ht hc]
        congr 1
        apply propext
        constructor <;> intro h <;> omega
    · rintro r ⟨h1, h2⟩
      refine ⟨h1, fun t c ht hc => ?_⟩
      rw [h2 t c ht hc]
      by_cases hmid : t < nt / 2 ∨ nt - nt / 2 ≤ t
      · rw [if_pos hmid]
      · rw [if_neg hmid]
        congr 2; congr 1; omega

example : reverseTuples 2 [1, 10, 2, 20, 3, 30] = .ok [3, 30, 2, 20, 1, 10] := rfl

/-- **C23 (`reversePerTuple`).** Inside every tuple the components (and their names) are reversed. -/
theorem C23_reversePerTuple {β : Type} (a : DArr α) (info : List β) (hinfo : info.length = a.nc) :
    ∃ r, reversePerTuple a info = .ok (r, info.reverse) ∧ r.length = a.data.length ∧
      ∀ t, t < a.nt → tup a.nc r t = (tup a.nc a.data t).reverse := by
  have hdl := a.wf
  unfold reversePerTuple
  by_cases h1 : a.nc ≤ 1
  · rw [if_pos h1]
    have hrev : ∀ {γ : Type} (l : List γ), l.length ≤ 1 → l.reverse = l := by
      intro γ l hl
      match l with
      | [] => rfl
      | [x] => rfl
      | _ :: _ :: _ => simp at hl
    refine ⟨a.data, by rw [hrev info (by omega)], rfl, fun t ht => ?_⟩
    rw [hrev]
    rw [tup_length hdl ht]; exact h1
  · rw [if_neg h1]
    have h : wp (loop a.nt a.data fun i l =>
      if (i + 1) * a.nc ≤ l.length then
        (.ok (l.take (i * a.nc) ++ (tup a.nc l i).reverse ++ l.drop ((i + 1) * a.nc)) : M (List α))
      else undef) (fun r => r.length = a.nt * a.nc ∧ ∀ t, t < a.nt → tup a.nc r t = if t < a.nt then (tup a.nc a.data t).reverse else tup a.nc a.data t) False := by
      refine wp_loop (fun i (r : List α) => r.length = a.nt * a.nc ∧ ∀ t, t < a.nt →
        tup a.nc r t = if t < i then (tup a.nc a.data t).reverse else tup a.nc a.data t) ⟨hdl, fun t _ => by simp⟩ ?_
      rintro i hi l ⟨hl, ht⟩
      have hb : (i + 1) * a.nc ≤ a.nt * a.nc := Nat.mul_le_mul_right _ hi
      have hb' := hb
      rw [Nat.succ_mul] at hb'
      rw [if_pos (by rw [hl]; exact hb), wp_ok]
      have hti := tup_length hl hi
      have hA : (l.take (i * a.nc)).length = i * a.nc := by rw [List.length_take, hl]; omega
      refine ⟨?_, ?_⟩
      · simp only [List.length_append, List.length_reverse, List.length_drop, hti, hA, hl, Nat.succ_mul]; omega
      · intro t hlt
        have htt := ht t hlt
        apply List.ext_getElem?
        intro c
        rw [tup_getElem?]
        by_cases hc : c < a.nc
        · rw [if_pos hc]
          have hlow : ∀ k, k < i * a.nc → (l.take (i * a.nc) ++ (tup a.nc l i).reverse ++ l.drop ((i + 1) * a.nc))[k]? = l[k]? := by
            intro k hk
            rw [List.append_assoc, List.getElem?_append_left (by omega), List.getElem?_take_of_lt hk]
          have hhigh : ∀ k, (i + 1) * a.nc ≤ k → (l.take (i * a.nc) ++ (tup a.nc l i).reverse ++ l.drop ((i + 1) * a.nc))[k]? = l[k]? := by
            intro k hk
            have e : (i + 1) * a.nc = i * a.nc + a.nc := Nat.succ_mul _ _
            rw [List.getElem?_append_right (by simp only [List.length_append, List.length_reverse, hti, hA]; omega), List.getElem?_drop]
            congr 1
            simp only [List.length_append, List.length_reverse, hti, hA]; omega
          have hold : l[t * a.nc + c]? = (tup a.nc l t)[c]? := by rw [tup_getElem?, if_pos hc]
          rcases Nat.lt_trichotomy t i with h | h | h
          · have : t * a.nc + c < i * a.nc := grid_lt h hc
            rw [hlow _ this, hold, htt, if_pos h, if_pos (by omega)]
          · subst h
            rw [List.append_assoc, List.getElem?_append_right (by omega), List.getElem?_append_left (by rw [List.length_reverse, hti]; omega), hA,
              htt, if_neg (by omega), if_pos (by omega)]
            congr 1; omega
          · have : (i + 1) * a.nc ≤ t * a.nc + c := by
              have := Nat.mul_le_mul_right a.nc (show i + 1 ≤ t from h); omega
            rw [hhigh _ this, hold, htt, if_neg (by omega), if_neg (by omega)]
        · rw [if_neg hc, List.getElem?_eq_none]
          have := tup_length hdl hlt
          split <;> simp <;> omega
    obtain ⟨r, hr, h2, h3⟩ := wp_exists h
    refine ⟨r, ?_, by rw [h2, hdl], fun t ht => by rw [h3 t ht, if_pos ht]⟩
    rw [hr]; rfl

example : reversePerTuple (⟨2, 3, [1, 2, 3, 4, 5, 6], rfl⟩ : DArr Nat) ["x", "y", "z"] = .ok ([3, 2, 1, 6, 5, 4], ["z", "y", "x"]) := rfl

/-! ### Rotation -/

theorem effectiveCircPerm_spec {n : Int} (hn : 0 < n) (shift : Int) :
    ∃ e, effectiveCircPerm shift n = .ok e ∧ 0 ≤ e ∧ e ≤ n ∧ e % n = shift % n := by
  unfold effectiveCircPerm
  rw [if_neg (by omega)]
  by_cases h : shift ≥ 0
  · rw [if_pos h, Int.tmod_eq_emod_of_nonneg h]
    exact ⟨_, rfl, Int.emod_nonneg _ (by omega), by have := Int.emod_lt_of_pos shift hn; omega, by simp⟩
  · rw [if_neg h, Int.tmod_eq_emod_of_nonneg (by omega)]
    have h1 := Int.emod_nonneg (-shift) (show n ≠ 0 by omega)
    have h2 := Int.emod_lt_of_pos (-shift) hn
    refine ⟨_, rfl, by omega, by omega, ?_⟩
    rw [Int.emod_def (-shift) n, show n - (-shift - n * (-shift / n)) = shift + n * (1 + -shift / n) by ring, Int.add_mul_emod_self_left]

theorem copyInto_spec {src dst : List α} {a b c : Int} (ha : 0 ≤ a) (hab : a ≤ b) (hb : b ≤ src.length) (hc : 0 ≤ c)
    (hd : c + (b - a) ≤ dst.length) :
    ∃ r, copyInto src a b dst c = .ok r ∧ r.length = dst.length ∧
      ∀ k : Nat, r[k]? = if c ≤ k ∧ (k : Int) < c + (b - a) then src[(a + (k - c)).toNat]? else dst[k]? := by
  refine ⟨_, if_pos ⟨ha, hab, hb, hc, hd⟩, ?_, ?_⟩
  · simp only [List.length_append, List.length_take, List.length_drop]; omega
  · intro k
    by_cases h1 : (k : Int) < c
    · rw [if_neg (by omega), List.append_assoc, List.getElem?_append_left
        (by simp only [List.length_take]; omega), List.getElem?_take_of_lt (by omega)]
    · by_cases h2 : (k : Int) < c + (b - a)
      · rw [if_pos ⟨by omega, h2⟩, List.append_assoc, List.getElem?_append_right
          (by simp only [List.length_take]; omega)]
        rw [List.getElem?_append_left
          (by simp only [List.length_take, List.length_drop]; omega)]
        simp only [List.length_take]
        rw [List.getElem?_take_of_lt (by omega), List.getElem?_drop]
        congr 1; omega
      · rw [if_neg (by omega), List.getElem?_append_right (by
            simp only [List.length_append, List.length_take, List.length_drop]; omega)]
        rw [List.getElem?_drop]
        simp only [List.length_append, List.length_take, List.length_drop]
        congr 1; omega

/-- The three copies rotate the window by `eff` to the left and leave the rest; with the strict reading of `std::copy` this is only
guaranteed when `2 * eff ≤ n`. -/
theorem rotateWindow_spec {strict : Bool} {l : List α} {base eff n : Int} (hb : 0 ≤ base) (he : 0 ≤ eff) (hen : eff ≤ n)
    (hl : base + n ≤ l.length) (hs : strict = true → 2 * eff ≤ n ∧ 0 < eff) :
    ∃ r, rotateWindow strict l base eff n = .ok r ∧ r.length = l.length ∧
      ∀ k : Nat, r[k]? = if base ≤ k ∧ (k : Int) < base + n then
        (if (k : Int) - base < n - eff then l[(k + eff).toNat]? else l[(k + eff - n).toNat]?) else l[k]? := by
  unfold rotateWindow
  have hsl : ∀ {x y : Int}, 0 ≤ x → x ≤ y → y ≤ l.length → ((slice l x y).length : Int) = y - x ∧
      ∀ i : Nat, (i : Int) < y - x → (slice l x y)[i]? = l[(x + i).toNat]? := by
    intro x y h1 h2 h3
    refine ⟨slice_length h1 h2 h3, fun i hi => ?_⟩
    unfold slice
    rw [List.getElem?_take_of_lt (by omega), List.getElem?_drop]
    congr 1; omega
  by_cases h : eff < n - eff
  · rw [if_pos h]
    simp only [copyWithin]
    rw [if_neg (by rintro ⟨h1, h2, h3⟩; have := hs h1; omega)]
    obtain ⟨r1, g1, g2, g3⟩ := copyInto_spec (src := l) (dst := l) (a := base + eff) (b := base + n) (c := base) (by omega) (by omega) (by omega) hb (by omega)
    rw [g1, ok_bind]
    obtain ⟨s1, s2⟩ := hsl (x := base) (y := base + eff) (by omega) (by omega) (by omega)
    obtain ⟨r2, k1, k2, k3⟩ := copyInto_spec (src := slice l base (base + eff)) (dst := r1) (a := 0) (b := eff) (c := base + (n - eff))
      (by omega) (by omega) (by omega) (by omega) (by omega)
    refine ⟨r2, k1, by omega, fun k => ?_⟩
    rw [k3]
    by_cases c1 : base + (n - eff) ≤ k ∧ (k : Int) < base + (n - eff) + (eff - 0)
    · rw [if_pos c1, s2 _ (by omega), if_pos (by omega), if_neg (by omega)]
      congr 1; omega
    · rw [if_neg c1, g3]
      by_cases c2 : base ≤ k ∧ (k : Int) < base + (base + n - (base + eff))
      · rw [if_pos c2, if_pos (by omega), if_pos (by omega)]; congr 1; omega
      · rw [if_neg c2, if_neg (by omega)]
  · rw [if_neg h]
    simp only [copyWithin]
    rw [if_neg (by rintro ⟨h1, h2, h3⟩; have := hs h1; omega)]
    obtain ⟨r1, g1, g2, g3⟩ := copyInto_spec (src := l) (dst := l) (a := base) (b := base + eff) (c := base + (n - eff)) (by omega) (by omega) (by omega) (by omega) (by omega)
    rw [g1, ok_bind]
    obtain ⟨s1, s2⟩ := hsl (x := base + eff) (y := base + n) (by omega) (by omega) (by omega)
    obtain ⟨r2, k1, k2, k3⟩ := copyInto_spec (src := slice l (base + eff) (base + n)) (dst := r1) (a := 0) (b := n - eff) (c := base)
      (by omega) (by omega) (by omega) (by omega) (by omega)
    refine ⟨r2, k1, by omega, fun k => ?_⟩
    rw [k3]
    by_cases c1 : base ≤ k ∧ (k : Int) < base + (n - eff - 0)
    · rw [if_pos c1, s2 _ (by omega), if_pos (by omega), if_pos (by omega)]
      congr 1; omega
    · rw [if_neg c1, g3]
      by_cases c2 : base + (n - eff) ≤ k ∧ (k : Int) < base + (n - eff) + (base + eff - base)
      · rw [if_pos c2, if_pos (by omega), if_neg (by omega)]; congr 1; omega
      · rw [if_neg c2, if_neg (by omega)]

theorem rotate_index {n e : Int} {k : Int} (hk0 : 0 ≤ k) (hk : k < n) (he0 : 0 ≤ e) (hen : e ≤ n) {shift : Int} (hs : e % n = shift % n) :
    (k + shift) % n = if k < n - e then k + e else k + e - n := by
  rw [Int.add_emod, ← hs, ← Int.add_emod]
  split
  · exact Int.emod_eq_of_lt (by omega) (by omega)
  · rw [← Int.sub_emod_right]
    exact Int.emod_eq_of_lt (by omega) (by omega)

theorem circularPermutation_spec {strict : Bool} (shift : Int) (a : DArr α) (hnt : 0 < a.nt)
    (hs : strict = true → 0 < a.nc ∧ 2 * (shift % a.nt) ≤ a.nt ∧ (shift % a.nt = 0 → 0 ≤ shift)) :
    ∃ r, circularPermutation strict shift a = .ok r ∧ r.length = a.data.length ∧
      ∀ t : Nat, t < a.nt → tup a.nc r t = tup a.nc a.data (((t : Int) + shift) % a.nt).toNat := by
  have hdl := a.wf
  obtain ⟨e, he, he0, hen, hem⟩ := effectiveCircPerm_spec (n := a.nt) (by omega) shift
  unfold circularPermutation
  rw [he, ok_bind]
  by_cases hz : e = 0
  · rw [if_pos hz]
    refine ⟨_, rfl, rfl, fun t ht => ?_⟩
    rw [rotate_index (by omega) (by omega) he0 hen hem, if_pos (by omega)]
    congr 1; omega
  · rw [if_neg hz]
    have hnc0 : (0 : Int) ≤ a.nc := by omega
    obtain ⟨r, h1, h2, h3⟩ := rotateWindow_spec (strict := strict) (l := a.data) (base := 0) (eff := e * a.nc) (n := a.nt * a.nc) (by omega)
      (Int.mul_nonneg he0 hnc0) (Int.mul_le_mul_of_nonneg_right hen hnc0) (by rw [hdl]; push_cast; omega)
      (by
        intro hst
        obtain ⟨g1, g2, g3⟩ := hs hst
        have hlt : e < a.nt := by
          rcases Int.lt_or_eq_of_le hen with h | h
          · exact h
          · exfalso
            rw [h, Int.emod_self] at hem
            have h0 := g3 hem.symm
            unfold effectiveCircPerm at he
            rw [if_neg (by omega), if_pos h0, Int.tmod_eq_emod_of_nonneg h0, ← hem] at he
            injection he with he; omega
        rw [Int.emod_eq_of_lt he0 hlt] at hem
        refine ⟨?_, Int.mul_pos (by omega) (by omega)⟩
        rw [← Int.mul_assoc]
        exact Int.mul_le_mul_of_nonneg_right (by omega) hnc0)
    refine ⟨r, h1, h2, fun t ht => ?_⟩
    rw [rotate_index (by omega) (by omega) he0 hen hem]
    obtain ⟨e', rfl⟩ := Int.eq_ofNat_of_zero_le he0
    apply List.ext_getElem?
    intro c
    rw [tup_getElem?, tup_getElem?]
    by_cases hc : c < a.nc
    · have hlt := grid_lt ht hc
      rw [if_pos hc, if_pos hc, h3, if_pos (by constructor; omega; push_cast at hlt ⊢; exact_mod_cast (by omega : t * a.nc + c < 0 + a.nt * a.nc))]
      by_cases hh : (t : Int) < a.nt - e'
      · have : (t + e' + 1) * a.nc ≤ a.nt * a.nc := Nat.mul_le_mul_right _ (by omega)
        rw [Nat.add_mul, Nat.add_mul] at this
        rw [if_pos hh, if_pos]
        · congr 1
          rw [show ((t : Int) + e').toNat = t + e' by omega, Nat.add_mul]
          have : ((e' : Int) * a.nc) = ((e' * a.nc : Nat) : Int) := by push_cast; rfl
          rw [this]; omega
        · have e1 : ((e' : Int) * a.nc) = ((e' * a.nc : Nat) : Int) := by push_cast; rfl
          have e2 : ((a.nt : Int) * a.nc) = ((a.nt * a.nc : Nat) : Int) := by push_cast; rfl
          rw [e1, e2]; omega
      · have : a.nt * a.nc ≤ (t + e') * a.nc := Nat.mul_le_mul_right _ (by omega)
        rw [Nat.add_mul] at this
        have e1 : ((e' : Int) * a.nc) = ((e' * a.nc : Nat) : Int) := by push_cast; rfl
        have e2 : ((a.nt : Int) * a.nc) = ((a.nt * a.nc : Nat) : Int) := by push_cast; rfl
        rw [if_neg hh, if_neg (by rw [e1, e2]; omega), e1, e2]
        congr 1
        rw [show ((t : Int) + e' - a.nt).toNat = t + e' - a.nt by omega, Nat.sub_mul, Nat.add_mul]
        omega
    · rw [if_neg hc, if_neg hc]

/-- **C23 (`circularPermutation`).** Tuple `t` of the rotated array is tuple `(t + shift) mod nt` of the original one, for any shift,
positive or negative; an empty array is rejected.  (`std::copy` implemented by `memmove`.) -/
theorem C23_circularPermutation (shift : Int) (a : DArr α) :
    (0 < a.nt → ∃ r, circularPermutation false shift a = .ok r ∧ r.length = a.data.length ∧
      ∀ t : Nat, t < a.nt → tup a.nc r t = tup a.nc a.data (((t : Int) + shift) % a.nt).toNat) ∧
    (a.nt = 0 → circularPermutation false shift a = .error Err.exn) := by
  refine ⟨fun h => circularPermutation_spec shift a h (by simp), fun h => ?_⟩
  unfold circularPermutation effectiveCircPerm
  rw [if_pos (by omega)]; rfl

/-- **C23 (rotation, portable part).** With the guarantee of the standard only, the rotation is right for shifts to the left by at
most half of the array. -/
theorem C23_circularPermutation_portable (shift : Int) (a : DArr α) (hnt : 0 < a.nt) (hnc : 0 < a.nc)
    (h0 : 0 ≤ shift) (hs : 2 * (shift % a.nt) ≤ a.nt) :
    ∃ r, circularPermutation true shift a = .ok r ∧ r.length = a.data.length ∧
      ∀ t : Nat, t < a.nt → tup a.nc r t = tup a.nc a.data (((t : Int) + shift) % a.nt).toNat :=
  circularPermutation_spec shift a hnt fun _ => ⟨hnc, hs, fun _ => h0⟩

/-- **C23 (rotation, overlap).** For every shift to the left by more than half of the array, the "big shift" is a `std::copy` whose
destination begins inside the source range: undefined by the standard. -/
theorem C23_circularPermutation_overlap (shift : Int) (a : DArr α) (hnt : 0 < a.nt) (hnc : 0 < a.nc)
    (hs : (a.nt : Int) < 2 * (shift % a.nt)) : circularPermutation true shift a = .error Err.ub := by
  obtain ⟨e, he, he0, hen, hem⟩ := effectiveCircPerm_spec (n := a.nt) (by omega) shift
  have hlt : e < a.nt := by
    rcases Int.lt_or_eq_of_le hen with h | h
    · exact h
    · rw [h, Int.emod_self] at hem; omega
  rw [Int.emod_eq_of_lt he0 hlt] at hem
  unfold circularPermutation
  rw [he, ok_bind, if_neg (by omega)]
  have hpos : (0 : Int) < a.nc := by omega
  have h1 : (a.nt : Int) * a.nc < 2 * e * a.nc := Int.mul_lt_mul_of_pos_right (by omega) hpos
  have h2 : e * a.nc < (a.nt : Int) * a.nc := Int.mul_lt_mul_of_pos_right (by omega) hpos
  rw [Int.mul_assoc] at h1
  unfold rotateWindow
  rw [if_neg (by omega)]
  simp only [copyWithin]
  rw [if_pos ⟨trivial, by omega, by omega⟩]; rfl

example : circularPermutation false (-1) (⟨3, 2, [1, 10, 2, 20, 3, 30], rfl⟩ : DArr Nat) = .ok [3, 30, 1, 10, 2, 20] ∧
    circularPermutation true 1 (⟨3, 2, [1, 10, 2, 20, 3, 30], rfl⟩ : DArr Nat) = .ok [2, 20, 3, 30, 1, 10] ∧
    circularPermutation true 2 (⟨3, 2, [1, 10, 2, 20, 3, 30], rfl⟩ : DArr Nat) = .error Err.ub := ⟨rfl, rfl, rfl⟩

/-- **C23 (`circularPermutationPerTuple`).** Component `c` of every tuple, and its name, come from component `(c + shift) mod nc`. -/
theorem C23_circularPermutationPerTuple {β : Type} (shift : Int) (a : DArr α) (info : List β) (hinfo : info.length = a.nc) (hnc : 0 < a.nc) :
    ∃ r inf, circularPermutationPerTuple false shift a info = .ok (r, inf) ∧ r.length = a.data.length ∧ inf.length = a.nc ∧
      (∀ t c : Nat, t < a.nt → c < a.nc → r[t * a.nc + c]? = a.data[t * a.nc + (((c : Int) + shift) % a.nc).toNat]?) ∧
      ∀ c : Nat, c < a.nc → inf[c]? = info[(((c : Int) + shift) % a.nc).toNat]? := by
  have hdl := a.wf
  obtain ⟨e, he, he0, hen, hem⟩ := effectiveCircPerm_spec (n := a.nc) (by omega) shift
  unfold circularPermutationPerTuple
  rw [he, ok_bind]
  by_cases hz : e = 0
  · rw [if_pos hz]
    have hid : ∀ c : Nat, c < a.nc → (((c : Int) + shift) % a.nc).toNat = c := by
      intro c hc
      rw [rotate_index (by omega) (by omega) he0 hen hem, if_pos (by omega)]; omega
    exact ⟨_, _, rfl, rfl, hinfo, fun t c _ hc => by rw [hid c hc], fun c hc => by rw [hid c hc]⟩
  · rw [if_neg hz]
    have hloop : wp (loop a.nt a.data fun i l => rotateWindow false l ((i * a.nc : Nat) : Int) e a.nc)
        (fun r => r.length = a.data.length ∧ ∀ t c : Nat, t < a.nt → c < a.nc →
          r[t * a.nc + c]? = if t < a.nt then a.data[t * a.nc + (((c : Int) + shift) % a.nc).toNat]? else a.data[t * a.nc + c]?) False := by
      refine wp_loop (fun i (r : List α) => r.length = a.data.length ∧ ∀ t c : Nat, t < a.nt → c < a.nc →
          r[t * a.nc + c]? = if t < i then a.data[t * a.nc + (((c : Int) + shift) % a.nc).toNat]? else a.data[t * a.nc + c]?)
        ⟨rfl, fun t c _ _ => by simp⟩ ?_
      rintro i hi l ⟨hl, hlk⟩
      have hb : (i + 1) * a.nc ≤ a.nt * a.nc := Nat.mul_le_mul_right _ hi
      rw [Nat.succ_mul] at hb
      obtain ⟨r, h1, h2, h3⟩ := rotateWindow_spec (strict := false) (l := l) (base := ((i * a.nc : Nat) : Int)) (eff := e) (n := a.nc) (by omega)
        he0 hen (by omega) (by simp)
      rw [h1, wp_ok]
      refine ⟨by omega, fun t c ht hc => ?_⟩
      rw [h3]
      rcases Nat.lt_trichotomy t i with h | h | h
      · have := grid_lt h hc
        rw [if_neg (by omega), hlk t c ht hc, if_pos h, if_pos (by omega)]
      · subst h
        rw [if_pos (by omega), if_pos (show t < t + 1 by omega), rotate_index (by omega) (by omega) he0 hen hem]
        by_cases hh : (c : Int) < a.nc - e
        · rw [if_pos (by omega), if_pos hh, show (((t * a.nc + c : Nat) : Int) + e).toNat = t * a.nc + ((c : Int) + e).toNat by omega,
            hlk t _ ht (by omega), if_neg (by omega)]
        · rw [if_neg (by omega), if_neg hh, show (((t * a.nc + c : Nat) : Int) + e - a.nc).toNat = t * a.nc + ((c : Int) + e - a.nc).toNat by omega,
            hlk t _ ht (by omega), if_neg (by omega)]
      · have := Nat.mul_le_mul_right a.nc (show i + 1 ≤ t from h)
        rw [Nat.succ_mul] at this
        rw [if_neg (by omega), hlk t c ht hc, if_neg (by omega), if_neg (by omega)]
    obtain ⟨r, hr, hrl, hrk⟩ := wp_exists hloop
    rw [hr, ok_bind]
    have hmap : wp ((List.range a.nc).mapM fun i : Nat => rd info (((i : Int) + e).tmod a.nc))
        (fun sts => List.Forall₂ (fun (i : Nat) v => info[(((i : Int) + shift) % a.nc).toNat]? = some v) (List.range a.nc) sts) False := by
      apply wp_mapM
      intro i hi
      have hi' : i < a.nc := by simpa using hi
      have hr := Int.emod_nonneg ((i : Int) + shift) (show (a.nc : Int) ≠ 0 by omega)
      have hr2 := Int.emod_lt_of_pos ((i : Int) + shift) (show (0 : Int) < a.nc by omega)
      rw [Int.tmod_eq_emod_of_nonneg (by omega), Int.add_emod, hem, ← Int.add_emod]
      apply wp_rd hr (by omega)
      exact List.getElem?_eq_getElem _
    obtain ⟨sts, hsts, hf⟩ := wp_exists hmap
    rw [hsts]
    refine ⟨r, sts, rfl, hrl, by rw [← hf.length_eq]; simp, fun t c ht hc => by rw [hrk t c ht hc, if_pos ht], fun c hc => ?_⟩
    have hc' : c < sts.length := by rw [← hf.length_eq]; simpa using hc
    have := List.Forall₂.get hf (i := c) (by simpa using hc) hc'
    rw [List.getElem?_eq_getElem hc']
    simpa using this.symm

example : circularPermutationPerTuple false (-4) (⟨2, 3, [1, 2, 3, 4, 5, 6], rfl⟩ : DArr Nat) ["x", "y", "z"] =
    .ok ([3, 1, 2, 6, 4, 5], ["z", "x", "y"]) := rfl

end MC
