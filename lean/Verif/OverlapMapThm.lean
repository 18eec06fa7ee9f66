import Verif.OverlapMapProps

/-!
# The transfer of fields by `OverlapDEC`: theorems (C89)
-/

namespace MC
variable {K : Type} [Field K]

/-! ## Statement -/

/-- One value of the matrices, with the cells numbered as on their processors: the source cell `c` of processor `s` meets the target cell `t` with the value `m` -/
structure Contrib (K : Type) where
  s : Nat
  c : Nat
  t : Nat
  m : K

/-- The values of the matrix of a couple computed by processor `q`: rows and columns are numbered in the part of the mesh which has been sent to `q`, when the mesh is not the one
of `q` -/
def contribs (srcIds trgIds : Nat → Nat → List Nat) (mat : Couple → List (SRow K)) (q : Nat) (c : Couple) : List (Contrib K) :=
  ((mat c).zipIdx.map fun y => y.1.map fun e =>
    { s := c.src, c := if c.src = q then e.1 else (srcIds c.src q).getD e.1 0, t := if c.tgt = q then y.2 else (trgIds c.tgt q).getD y.2 0, m := e.2 }).flatten

/-- All values about the target mesh of processor `p`, whichever processor has computed them -/
def allContribs (todo : List (List Couple)) (srcIds trgIds : Nat → Nat → List Nat) (mat : Couple → List (SRow K)) (p : Nat) : List (Contrib K) :=
  (todo.zipIdx.map fun x => ((x.1.filter fun c => decide (c.tgt = p)).map (contribs srcIds trgIds mat x.2)).flatten).flatten

/-- The values on a target cell -/
def onCell (E : List (Contrib K)) (t : Nat) : List (Contrib K) := E.filter fun e => decide (e.t = t)

/-- What is asked: `ns`, `nt` are the numbers of source and target cells of the processors, `f` their fields of `nc` components -/
structure OvOk (N nc : Nat) (W : List Couple) (todo : List (List Couple)) (srcIds trgIds : Nat → Nat → List Nat) (mat : Couple → List (SRow K)) (ns nt : Nat → Nat) (f : Nat → List K) : Prop where
  pos : 0 < N
  comp : 0 < nc
  shared : Shared N W todo
  range : ∀ c ∈ W, c.src < N ∧ c.tgt < N
  sorted : ∀ c ∈ W, ∀ row ∈ mat c, StrictSorted (mapKeys row)
  rowsMine : ∀ (p : Nat) (l : List Couple) (c : Couple), todo[p]? = some l → c ∈ l → c.tgt = p → (mat c).length ≤ nt p
  rowsSent : ∀ (p : Nat) (l : List Couple) (c : Couple), todo[p]? = some l → c ∈ l → c.tgt ≠ p → (mat c).length ≤ (trgIds c.tgt p).length
  colsMine : ∀ (p : Nat) (l : List Couple) (c : Couple), todo[p]? = some l → c ∈ l → c.src = p → ∀ row ∈ mat c, ∀ a ∈ mapKeys row, a < ns p
  colsSent : ∀ (p : Nat) (l : List Couple) (c : Couple), todo[p]? = some l → c ∈ l → c.src ≠ p → ∀ row ∈ mat c, ∀ a ∈ mapKeys row, a < (srcIds c.src p).length
  srcIds : ∀ p q, ∀ i ∈ srcIds p q, i < ns p
  trgIds : ∀ p q, ∀ i ∈ trgIds p q, i < nt p
  field : ∀ p < N, (f p).length = ns p * nc

section proof
variable {N nc : Nat} {W : List Couple} {todo : List (List Couple)} {srcIds trgIds : Nat → Nat → List Nat} {mat : Couple → List (SRow K)} {ns nt : Nat → Nat} {f : Nat → List K}

theorem OvOk.todoOk (h : OvOk N nc W todo srcIds trgIds mat ns nt f) : TodoOk N todo :=
  ⟨h.shared.len, h.shared.sorted, fun p l c hl hc => ⟨h.range c (h.shared.own p l c hl hc).1, (h.shared.own p l c hl hc).2⟩⟩

theorem OvOk.get (h : OvOk N nc W todo srcIds trgIds mat ns nt f) {p : Nat} (hp : p < N) : todo[p]? = some (todo.getD p []) := by
  rw [List.getD_eq_getElem?_getD, List.getElem?_eq_getElem (by rw [h.shared.len]; exact hp)]; rfl

theorem OvOk.unique (h : OvOk N nc W todo srcIds trgIds mat ns nt f) {p q : Nat} (hp : p < N) (hq : q < N) {c : Couple} (h1 : c ∈ todo.getD p []) (h2 : c ∈ todo.getD q []) : p = q := by
  obtain ⟨r, _, _, _, hr⟩ := h.shared.once c (h.shared.own p _ c (h.get hp) h1).1
  rw [hr p _ (h.get hp) h1, hr q _ (h.get hq) h2]

/-- who has computed the couple of `s` and `p` -/
def ownerOf (todo : List (List Couple)) (p s : Nat) : Nat := if cpl s p ∈ todo.getD p [] then p else s

/-- the values in the order of the processor -/
def progContribs (todo : List (List Couple)) (srcIds trgIds : Nat → Nat → List Nat) (mat : Couple → List (SRow K)) (p : Nat) (L : List Nat) : List (Contrib K) :=
  (L.map fun s => contribs srcIds trgIds mat (ownerOf todo p s) (cpl s p)).flatten

theorem filter_single {α : Type} {a : α} [∀ l : List α, Decidable (a ∈ l)] {l : List α} (h : l.Nodup) {P : α → Bool} (hP : ∀ x ∈ l, P x = true ↔ x = a) : l.filter P = if a ∈ l then [a] else [] := by
  induction l with
  | nil => simp
  | cons b l ih =>
    have hn := List.nodup_cons.1 h
    have ih := ih hn.2 fun x hx => hP x (by simp [hx])
    by_cases hb : b = a
    · subst hb
      rw [List.filter_cons_of_pos ((hP b (by simp)).2 rfl), ih, if_neg hn.1, if_pos (by simp)]
    · rw [List.filter_cons_of_neg (by rw [hP b (by simp)]; exact hb), ih]
      have : a ∈ b :: l ↔ a ∈ l := by simp [Ne.symm hb]
      simp only [this]

theorem contribs_perm (h : OvOk N nc W todo srcIds trgIds mat ns nt f) {p : Nat} (hp : p < N) {m : OMap K} (hr : MapReady N todo srcIds trgIds mat p (todo.getD p []) m) :
    (allContribs todo srcIds trgIds mat p).Perm (progContribs todo srcIds trgIds mat p m.theSrc) := by
  let C := contribs srcIds trgIds mat
  let X : Nat → List (Contrib K) := fun q => if cpl q p ∈ todo.getD q [] then C q (cpl q p) else []
  let Y : Nat → List (Contrib K) := fun q => (((todo.getD q []).filter fun c => decide (c.tgt = p)).map (C q)).flatten
  let B : List (Contrib K) := (((todo.getD p []).filter fun c => decide (c.src ≠ p)).map (C p)).flatten
  have hY : allContribs todo srcIds trgIds mat p = cat N Y := by
    unfold allContribs cat
    rw [zipIdx_map_range todo (fun l i => ((l.filter fun c => decide (c.tgt = p)).map (contribs srcIds trgIds mat i)).flatten) [], h.shared.len]
  have hnd : ∀ q < N, (todo.getD q []).Nodup := fun q hq => StrictSorted.nodup (h.shared.sorted q _ (h.get hq))
  have hYq : ∀ q < N, q ≠ p → Y q = X q := by
    intro q hq hne
    have hf := filter_single (hnd q hq) (P := fun c => decide (c.tgt = p)) (a := cpl q p) (by
      intro c hc
      rw [decide_eq_true_eq]
      constructor
      · intro ht
        have := ((h.shared.own q _ c (h.get hq) hc).2).resolve_right (by rw [ht]; exact fun e => hne e.symm)
        exact couple_ext this ht
      · rintro rfl; rfl)
    show (List.map _ _).flatten = if _ then _ else _
    rw [hf]
    split <;> simp
  have hYp : (Y p).Perm (X p ++ B) := by
    have e1 : ((todo.getD p []).filter fun c => decide (c.tgt = p)).Perm ((if cpl p p ∈ todo.getD p [] then [cpl p p] else []) ++ (todo.getD p []).filter fun c => decide (c.src ≠ p)) := by
      have hperm := (List.filter_append_perm (fun c : Couple => decide (c.src = p)) ((todo.getD p []).filter fun c => decide (c.tgt = p))).symm
      rw [List.filter_filter, List.filter_filter] at hperm
      refine hperm.trans ?_
      have a1 : ((todo.getD p []).filter fun c => decide (c.src = p) && decide (c.tgt = p)) = if cpl p p ∈ todo.getD p [] then [cpl p p] else [] := by
        apply filter_single (a := cpl p p) (hnd p hp)
        intro c _
        simp only [Bool.and_eq_true, decide_eq_true_eq]
        constructor
        · rintro ⟨a, b⟩; exact couple_ext a b
        · rintro rfl; exact ⟨rfl, rfl⟩
      have a2 : ((todo.getD p []).filter fun c => (!decide (c.src = p)) && decide (c.tgt = p)) = (todo.getD p []).filter fun c => decide (c.src ≠ p) := by
        apply List.filter_congr
        intro c hc
        have := (h.shared.own p _ c (h.get hp) hc).2
        by_cases hs : c.src = p
        · simp [hs]
        · simp [hs, this.resolve_left hs]
      rw [a1, a2]
    have e2 := (e1.map (C p)).flatten
    rw [List.map_append, List.flatten_append] at e2
    refine e2.trans ?_
    show (_ ++ B).Perm (_ ++ B)
    apply List.Perm.of_eq
    congr 1
    show _ = if _ then _ else _
    split <;> simp
  have hcat : ∀ k, k ≤ N → (cat k Y).Perm (cat k X ++ if p < k then B else []) := by
    intro k
    induction k with
    | zero => intro _; simp
    | succ k ih =>
      intro hk
      rw [cat_succ, cat_succ]
      have ih := ih (by omega)
      by_cases hkp : k = p
      · subst hkp
        rw [if_neg (by omega), List.append_nil] at ih
        rw [if_pos (by omega), List.append_assoc]
        exact ih.append hYp
      · rw [hYq k (by omega) hkp]
        by_cases hlt : p < k
        · rw [if_pos hlt] at ih
          rw [if_pos (by omega)]
          refine (ih.append_right _).trans ?_
          rw [List.append_assoc, List.append_assoc]
          exact List.Perm.append_left _ List.perm_append_comm
        · rw [if_neg hlt, List.append_nil] at ih
          rw [if_neg (by omega), List.append_nil]
          exact ih.append_right _
  have h1 := hcat N le_rfl
  rw [if_pos hp] at h1
  rw [hY]
  refine h1.trans (List.Perm.of_eq ?_)
  unfold progContribs
  rw [hr.theSrc, List.map_append, List.flatten_append]
  congr 1
  · rw [← flatten_map_filter]
    unfold cat
    congr 1
    apply List.map_congr_left
    intro q hq
    have hq := List.mem_range.1 hq
    show (if _ then _ else _) = _
    by_cases hc : cpl q p ∈ todo.getD q []
    · rw [if_pos hc]
      have hs : sentMat todo mat q p = mat (cpl q p) := by unfold sentMat; rw [if_pos hc]
      rw [hs]
      by_cases hm : mat (cpl q p) = []
      · rw [if_neg (by simp [hm])]
        show contribs srcIds trgIds mat q (cpl q p) = []
        simp [contribs, hm]
      · rw [if_pos (by simp [hm])]
        have : ownerOf todo p q = q := by
          unfold ownerOf
          split
          · rename_i hc2
            exact h.unique hp hq hc2 hc
          · rfl
        rw [this]
    · rw [if_neg hc]
      have hs : sentMat todo mat q p = [] := by unfold sentMat; rw [if_neg hc]
      rw [hs]; simp
  · rw [List.map_map]
    show (List.map _ _).flatten = _
    congr 1
    apply List.map_congr_left
    intro c hc
    have h1 := List.mem_filter.1 hc
    have h2 : c.src ≠ p := by simpa using h1.2
    have h3 := ((h.shared.own p _ c (h.get hp) h1.1).2).resolve_left h2
    have hcc : cpl c.src p = c := by rw [← h3]; exact cpl_eta c
    show contribs srcIds trgIds mat p c = contribs srcIds trgIds mat (ownerOf todo p c.src) (cpl c.src p)
    unfold ownerOf
    rw [hcc, if_pos h1.1]

/-! ## The matrices on a processor -/

/-- the sources of a processor: who has the couple -/
theorem mem_theSrc (h : OvOk N nc W todo srcIds trgIds mat ns nt f) {p s : Nat} (hp : p < N) {m : OMap K} (hr : MapReady N todo srcIds trgIds mat p (todo.getD p []) m) :
    s ∈ m.theSrc ↔ s < N ∧ ((cpl s p ∈ todo.getD s [] ∧ mat (cpl s p) ≠ []) ∨ (s ≠ p ∧ cpl s p ∈ todo.getD p [])) := by
  rw [hr.theSrc, List.mem_append, List.mem_filter, List.mem_range, List.mem_map]
  have h1 : decide (sentMat todo mat s p ≠ []) = true ↔ cpl s p ∈ todo.getD s [] ∧ mat (cpl s p) ≠ [] := by
    rw [decide_eq_true_eq]
    unfold sentMat
    split
    · rename_i hc; exact ⟨fun h => ⟨hc, h⟩, fun h => h.2⟩
    · rename_i hc; exact ⟨fun h => absurd rfl h, fun h => absurd h.1 hc⟩
  rw [h1]
  have h2 : (∃ a, a ∈ (todo.getD p []).filter (fun c => decide (c.src ≠ p)) ∧ Couple.src a = s) ↔ s < N ∧ s ≠ p ∧ cpl s p ∈ todo.getD p [] := by
    constructor
    · rintro ⟨c, hc, rfl⟩
      have h3 := List.mem_filter.1 hc
      have h4 : c.src ≠ p := by simpa using h3.2
      have h5 := h.shared.own p _ c (h.get hp) h3.1
      have h6 := h5.2.resolve_left h4
      refine ⟨(h.range c h5.1).1, h4, ?_⟩
      rw [← h6, cpl_eta, h6]; exact h3.1
    · rintro ⟨_, h4, h5⟩
      exact ⟨cpl s p, List.mem_filter.2 ⟨h5, decide_eq_true h4⟩, rfl⟩
  rw [h2]
  tauto

/-- the owner has the couple in its list -/
theorem owner_mem (h : OvOk N nc W todo srcIds trgIds mat ns nt f) {p s : Nat} (hp : p < N) {m : OMap K} (hr : MapReady N todo srcIds trgIds mat p (todo.getD p []) m) (hs : s ∈ m.theSrc) :
    s < N ∧ ownerOf todo p s < N ∧ cpl s p ∈ todo.getD (ownerOf todo p s) [] ∧ (ownerOf todo p s = p ∨ ownerOf todo p s = s) := by
  obtain ⟨h1, h2⟩ := (mem_theSrc h hp hr).1 hs
  unfold ownerOf
  by_cases hc : cpl s p ∈ todo.getD p []
  · rw [if_pos hc]; exact ⟨h1, hp, hc, .inl rfl⟩
  · rw [if_neg hc]
    rcases h2 with h2 | h2
    · exact ⟨h1, h1, h2.1, .inr rfl⟩
    · exact absurd h2.2 hc

/-- the target cell of a row -/
def rowCell (todo : List (List Couple)) (trgIds : Nat → Nat → List Nat) (p s j : Nat) : Nat := if p = ownerOf todo p s then j else (trgIds p (ownerOf todo p s)).getD j 0

/-- the source cell of a column -/
def colCell (todo : List (List Couple)) (srcIds : Nat → Nat → List Nat) (p s a : Nat) : Nat := if s = ownerOf todo p s then a else (srcIds s (ownerOf todo p s)).getD a 0

theorem contribs_eq (p s : Nat) : contribs srcIds trgIds mat (ownerOf todo p s) (cpl s p) = ((mat (cpl s p)).zipIdx.map fun y => y.1.map fun e =>
    { s := s, c := colCell todo srcIds p s e.1, t := rowCell todo trgIds p s y.2, m := e.2 }).flatten := rfl

theorem rowCell_lt (h : OvOk N nc W todo srcIds trgIds mat ns nt f) {p s : Nat} (hp : p < N) {m : OMap K} (hr : MapReady N todo srcIds trgIds mat p (todo.getD p []) m) (hs : s ∈ m.theSrc)
    {j : Nat} (hj : j < (mat (cpl s p)).length) : rowCell todo trgIds p s j < nt p := by
  obtain ⟨_, h2, h3, _⟩ := owner_mem h hp hr hs
  unfold rowCell
  split
  · rename_i he
    have := h.rowsMine _ _ _ (h.get h2) h3 (show (cpl s p).tgt = _ from he)
    rw [← he] at this
    omega
  · rename_i he
    have := h.rowsSent _ _ _ (h.get h2) h3 (show (cpl s p).tgt ≠ _ from he)
    simp only [cpl_tgt] at this
    have hlt : j < (trgIds p (ownerOf todo p s)).length := by omega
    rw [List.getD_eq_getElem?_getD, List.getElem?_eq_getElem hlt]
    exact h.trgIds _ _ _ (List.getElem_mem _)

theorem trgRow_ok (h : OvOk N nc W todo srcIds trgIds mat ns nt f) {p s : Nat} (hp : p < N) {m : OMap K} (hr : MapReady N todo srcIds trgIds mat p (todo.getD p []) m) (hs : s ∈ m.theSrc)
    {j : Nat} (hj : j < (mat (cpl s p)).length) : m.trgRow p s j = .ok (rowCell todo trgIds p s j) := by
  obtain ⟨h1, h2, h3, h4⟩ := owner_mem h hp hr hs
  by_cases hsp : s = p
  · have : ownerOf todo p s = p := by
      rcases h4 with h4 | h4
      · exact h4
      · rw [h4, hsp]
    unfold OMap.trgRow rowCell
    rw [this, if_pos rfl]
    split
    · rfl
    · rw [if_pos hsp]
  · rcases h4 with h4 | h4
    · rw [h4] at h3
      have hno := hr.sentTrg_none s (by
        intro l hl hc
        have : l = todo.getD s [] := by rw [h.get h1] at hl; exact (Option.some.inj hl).symm
        rw [this] at hc
        exact hsp (h.unique h1 hp hc h3))
      unfold OMap.trgRow rowCell
      rw [hno, h4, if_pos rfl]
    · rw [h4] at h3
      have hsome := hr.sentTrg s _ (h.get h1) hsp h3
      have hlen := h.rowsSent _ _ _ (h.get h1) h3 (show (cpl s p).tgt ≠ s from fun e => hsp e.symm)
      simp only [cpl_tgt] at hlen
      unfold OMap.trgRow rowCell
      rw [hsome, h4, if_neg (fun e => hsp e.symm)]
      simp only [if_neg hsp]
      apply vget_ok
      rw [List.getD_eq_getElem?_getD, List.getElem?_eq_getElem (by omega)]; rfl

/-! ## The denominators -/

/-- the sum of the values on a target cell -/
def cellSum (E : List (Contrib K)) (t : Nat) : K := ((onCell E t).map (·.m)).sum

theorem onCell_append (E F : List (Contrib K)) (t : Nat) : onCell (E ++ F) t = onCell E t ++ onCell F t := List.filter_append ..

theorem onCell_single (e : Contrib K) (t : Nat) : onCell [e] t = if e.t = t then [e] else [] := by
  unfold onCell
  by_cases h : e.t = t <;> simp [h]

theorem flatten_singles {α β : Type} (g : α → β) (l : List α) : (l.map fun x => [g x]).flatten = l.map g := by
  induction l with
  | nil => rfl
  | cons a l ih => simp [ih]

theorem zip_self_map {α β : Type} (l : List α) (g : α → β) : l.zip (l.map g) = l.map fun x => (x, g x) := by
  induction l with
  | nil => rfl
  | cons a l ih => simp [ih]

theorem mem_zipIdx_lt {α : Type} {l : List α} {y : α × Nat} (h : y ∈ l.zipIdx) : y.2 < l.length ∧ y.1 ∈ l ∧ l[y.2]? = some y.1 := by
  obtain ⟨a, i⟩ := y
  have := List.mem_zipIdx_iff_getElem?.1 h
  exact ⟨(List.getElem?_eq_some_iff.1 this).1, List.mem_of_getElem? this, this⟩

theorem row_const (v : K) : ∀ (row acc : SRow K), StrictSorted (mapKeys row) → (∀ a ∈ acc, ∀ e ∈ row, a.1 < e.1) → row.foldl (fun r e => mapSet r e.1 v) acc = acc ++ row.map fun e => (e.1, v)
  | [], acc, _, _ => by simp
  | e :: row, acc, hs, h => by
    rw [List.foldl_cons, mapSet_append v fun a ha => h a ha e (by simp), row_const v row _ (List.Pairwise.of_cons hs)]
    · simp
    · intro a ha e' he'
      rcases List.mem_append.1 ha with ha | ha
      · exact h a ha e' (by simp [he'])
      · rw [List.mem_singleton.1 ha]
        exact List.rel_of_pairwise_cons hs (List.mem_map_of_mem he')

theorem foldlM_pure {σ α : Type} (f : σ → α → M σ) (g : σ → α → σ) : ∀ (l : List α) (s : σ), (∀ x ∈ l, ∀ s, f s x = .ok (g s x)) → l.foldlM f s = .ok (l.foldl g s)
  | [], _, _ => rfl
  | x :: l, s, h => by
    rw [List.foldlM_cons, h x (by simp), ok_bind, foldlM_pure f g l _ fun y hy => h y (by simp [hy])]
    rfl

/-- the denominators of a processor -/
def denoOf (todo : List (List Couple)) (trgIds : Nat → Nat → List Nat) (mat : Couple → List (SRow K)) (p : Nat) (D : Nat → K) (s : Nat) : List (SRow K) :=
  (mat (cpl s p)).zipIdx.map fun y => y.1.map fun e => (e.1, D (rowCell todo trgIds p s y.2))

theorem computeDeno_ok (h : OvOk N nc W todo srcIds trgIds mat ns nt f) {p : Nat} (hp : p < N) {m : OMap K} (hr : MapReady N todo srcIds trgIds mat p (todo.getD p []) m) :
    m.computeDeno p (nt p) = .ok { m with deno := m.theSrc.map (denoOf todo trgIds mat p (cellSum (progContribs todo srcIds trgIds mat p m.theSrc))) } := by
  have hz : m.theSrc.zip m.theMat = m.theSrc.map fun s => (s, mat (cpl s p)) := by rw [hr.theMat, zip_self_map]
  unfold OMap.computeDeno
  rw [hz, List.foldlM_map]
  let Inv : List (Contrib K) → List K → Prop := fun E d => d.length = nt p ∧ ∀ t < nt p, d[t]? = some (cellSum E t)
  obtain ⟨d, hd, hdl, hdv⟩ := foldlM_acc Inv (fun s => contribs srcIds trgIds mat (ownerOf todo p s) (cpl s p)) (fun deno s => (mat (cpl s p)).zipIdx.foldlM (fun deno y => y.1.foldlM (fun deno e => do
      let t ← m.trgRow p s y.2
      let d ← vget deno t
      vset deno t (d + e.2)) deno) deno) m.theSrc (by
    intro s hs E d hI
    rw [contribs_eq]
    apply foldlM_acc Inv _ _ _ _ E d hI
    intro y hy E d hI
    obtain ⟨hy1, _, _⟩ := mem_zipIdx_lt hy
    rw [← flatten_singles]
    apply foldlM_acc Inv _ _ _ _ E d hI
    intro e _ E d hI
    have hlt := rowCell_lt h hp hr hs hy1
    rw [trgRow_ok h hp hr hs hy1, ok_bind, vget_ok (hI.2 _ hlt), ok_bind, vset_ok (by rw [hI.1]; exact hlt)]
    refine ⟨_, rfl, by simp [hI.1], ?_⟩
    intro t ht
    rw [List.getElem?_set]
    unfold cellSum
    rw [onCell_append, onCell_single]
    by_cases he : rowCell todo trgIds p s y.2 = t
    · rw [if_pos he, if_pos (by rw [hI.1]; exact hlt), if_pos he, he]
      simp [cellSum]
    · rw [if_neg he, if_neg he, hI.2 t ht]
      simp [cellSum]) [] (List.replicate (nt p) 0) ⟨by simp, by
        intro t ht
        rw [List.getElem?_replicate, if_pos ht]; rfl⟩
  rw [List.nil_append] at hdv
  simp only
  rw [hd, ok_bind, List.mapM_map]
  rw [dec_mapM_ok (g := denoOf todo trgIds mat p (cellSum (progContribs todo srcIds trgIds mat p m.theSrc)))]
  · rfl
  · intro s hs
    unfold denoOf
    apply dec_mapM_ok
    intro y hy
    obtain ⟨hy1, hy2, _⟩ := mem_zipIdx_lt hy
    have hlt := rowCell_lt h hp hr hs hy1
    obtain ⟨_, o2, o3, _⟩ := owner_mem h hp hr hs
    have hsort := h.sorted _ (h.shared.own _ _ _ (h.get o2) o3).1 _ hy2
    rw [foldlM_pure _ (fun r e => mapSet r e.1 (cellSum (progContribs todo srcIds trgIds mat p m.theSrc) (rowCell todo trgIds p s y.2)))]
    · rw [row_const _ _ _ hsort (by simp), List.nil_append]
    · intro e _ r
      simp only [trgRow_ok h hp hr hs hy1, ok_bind, vget_ok (hdv _ hlt)]
      rfl

/-! ## The exchange of the values -/

theorem mem_colSet {mt : List (SRow K)} {a : Nat} : a ∈ colSet mt ↔ ∃ row ∈ mt, a ∈ mapKeys row := by
  have key : ∀ (mt : List (SRow K)) (s : List Nat), a ∈ mt.foldl (fun s row => setInsertAll s (row.map (·.1))) s ↔ a ∈ s ∨ ∃ row ∈ mt, a ∈ mapKeys row := by
    intro mt
    induction mt with
    | nil => simp
    | cons row mt ih =>
      intro s
      rw [List.foldl_cons, ih, mem_setInsertAll]
      simp only [List.mem_cons, exists_eq_or_imp, mapKeys]
      tauto
  unfold colSet
  rw [key]; simp

theorem colSet_sorted (mt : List (SRow K)) : StrictSorted (colSet mt) := by
  have key : ∀ (mt : List (SRow K)) (s : List Nat), StrictSorted s → StrictSorted (mt.foldl (fun s row => setInsertAll s (row.map (·.1))) s) := by
    intro mt
    induction mt with
    | nil => exact fun s h => h
    | cons row mt ih => exact fun s h => ih _ (sorted_setInsertAll h)
  exact key mt [] List.Pairwise.nil

/-- chosen tuples -/
def tuples (nc : Nat) (arr : List K) (ids : List Nat) : List K := (ids.map fun i => (arr.drop (i * nc)).take nc).flatten

theorem tuple_fits {nc n i len : Nat} (hl : len = n * nc) (hi : i < n) : i * nc + nc ≤ len := by
  rw [hl, ← Nat.succ_mul]
  exact Nat.mul_le_mul_right _ hi

theorem selectTuples_ok {nc n : Nat} {arr : List K} {ids : List Nat} (hl : arr.length = n * nc) (hi : ∀ i ∈ ids, i < n) : selectTuples nc arr ids = .ok (tuples nc arr ids) := by
  unfold selectTuples
  rw [dec_mapM_ok (g := fun i => (arr.drop (i * nc)).take nc) (fun i h => if_pos (tuple_fits hl (hi i h)))]
  rfl

theorem tuples_length {nc n : Nat} {arr : List K} {ids : List Nat} (hl : arr.length = n * nc) (hi : ∀ i ∈ ids, i < n) : (tuples nc arr ids).length = ids.length * nc := by
  unfold tuples
  induction ids with
  | nil => simp
  | cons i ids ih =>
    have := tuple_fits hl (hi i (by simp))
    rw [List.map_cons, List.flatten_cons, List.length_append, ih fun i h => hi i (by simp [h]), List.length_take, List.length_drop, List.length_cons, Nat.succ_mul]
    omega

theorem tuples_get {nc n : Nat} {arr : List K} {ids : List Nat} (hl : arr.length = n * nc) (hi : ∀ i ∈ ids, i < n) {j i k : Nat} (hj : ids[j]? = some i) (hk : k < nc) :
    (tuples nc arr ids)[j * nc + k]? = arr[i * nc + k]? := by
  unfold tuples
  rw [flatN_get nc _ j k ((arr.drop (i * nc)).take nc) _ (by rw [List.getElem?_map, hj]; rfl) hk, List.getElem?_take, if_pos hk, List.getElem?_drop]
  intro l hl2
  obtain ⟨i, hi2, rfl⟩ := List.mem_map.1 hl2
  have := tuple_fits hl (hi i hi2)
  rw [List.length_take, List.length_drop]; omega

/-- the values sent by `p` to `q` -/
def sentVals (nc : Nat) (todo : List (List Couple)) (srcIds : Nat → Nat → List Nat) (mat : Couple → List (SRow K)) (f : Nat → List K) (p q : Nat) : List K :=
  if q = p then [] else if cpl p q ∈ todo.getD p [] then tuples nc (f p) (colSet (mat (cpl p q)))
  else if cpl p q ∈ todo.getD q [] then tuples nc (f p) (srcIds p q) else []

theorem colSet_lt (h : OvOk N nc W todo srcIds trgIds mat ns nt f) {p q : Nat} (hp : p < N) (hc : cpl p q ∈ todo.getD p []) : ∀ i ∈ colSet (mat (cpl p q)), i < ns p := by
  intro i hi
  obtain ⟨row, h1, h2⟩ := mem_colSet.1 hi
  exact h.colsMine p _ _ (h.get hp) hc rfl row h1 i h2

theorem valuesToSend_ok (h : OvOk N nc W todo srcIds trgIds mat ns nt f) {p : Nat} (hp : p < N) {m : OMap K} (hr : MapReady N todo srcIds trgIds mat p (todo.getD p []) m) :
    m.valuesToSend N p nc (todo.getD p []) (f p) = .ok { buf := cat N fun q => (sentVals nc todo srcIds mat f p q).map some, counts := (List.range N).map fun q => ((sentVals nc todo srcIds mat f p q).map some).length, displs := (List.range N).map fun q => some (cat q fun q => (sentVals nc todo srcIds mat f p q).map some).length } := by
  unfold OMap.valuesToSend
  rw [mapM_range_ok (g := sentVals nc todo srcIds mat f p), ok_bind]
  · rw [show ((List.range N).map (sentVals nc todo srcIds mat f p)).map List.length = (List.range N).map fun q => ((sentVals nc todo srcIds mat f p q).map some).length by
      rw [List.map_map]; simp [Function.comp_def]]
    rw [worldDispls_ok h.pos, ok_bind]
    show Except.ok _ = Except.ok _
    congr 2
    · rw [List.map_flatten, List.map_map]; rfl
    · rw [List.map_map]
      apply List.map_congr_left
      intro q _
      show some (psum _ q) = _
      rw [psum_cat]
  · intro q hq
    unfold sentVals
    by_cases hqp : q = p
    · rw [if_pos hqp, if_pos hqp]; rfl
    · rw [if_neg hqp, if_neg hqp]
      have hmem : q ∈ m.toSend ↔ cpl p q ∈ todo.getD p [] ∨ cpl p q ∈ todo.getD q [] := by
        rw [hr.toSend]
        unfold procsToSendField
        simp only [List.mem_flatten, List.mem_map, List.mem_filter, decide_eq_true_eq]
        constructor
        · rintro ⟨_, ⟨l, hl, rfl⟩, hq2⟩
          obtain ⟨c, hc, hct⟩ := List.mem_map.1 hq2
          obtain ⟨hc1, hc2⟩ := List.mem_filter.1 hc
          have hc2 : c.src = p := by simpa using hc2
          have hcc : cpl p q = c := by rw [← hc2, ← hct]; rfl
          obtain ⟨r, hrl⟩ := List.mem_iff_getElem?.1 hl
          have hrN : r < N := by
            have := (List.getElem?_eq_some_iff.1 hrl).1
            rwa [h.shared.len] at this
          have hle : l = todo.getD r [] := by rw [h.get hrN] at hrl; exact (Option.some.inj hrl).symm
          rcases (h.shared.own r l c hrl hc1).2 with e | e
          · left; rw [hcc, ← hc2, e, ← hle]; exact hc1
          · right; rw [hcc, ← hct, e, ← hle]; exact hc1
        · have : ∀ r, r < N → cpl p q ∈ todo.getD r [] → ∃ l, (∃ a ∈ todo, List.map Couple.tgt (List.filter (fun c => decide (c.src = p)) a) = l) ∧ q ∈ l := by
            intro r hr2 hc
            exact ⟨_, ⟨_, List.mem_of_getElem? (h.get hr2), rfl⟩, List.mem_map.2 ⟨_, List.mem_filter.2 ⟨hc, by simp⟩, rfl⟩⟩
          rintro (hc | hc)
          · exact this p hp hc
          · exact this q hq hc
      by_cases h1 : cpl p q ∈ todo.getD p []
      · rw [if_pos (hmem.2 (.inl h1)), if_pos h1, if_pos h1, hr.zipComp q h1]
        exact selectTuples_ok (h.field p hp) (colSet_lt h hp h1)
      · by_cases h2 : cpl p q ∈ todo.getD q []
        · rw [if_pos (hmem.2 (.inr h2)), if_neg h1, if_neg h1, if_pos h2, hr.sentSrc q _ (h.get hq) hqp h2]
          exact selectTuples_ok (h.field p hp) (h.srcIds p q)
        · rw [if_neg (by rw [hmem]; tauto), if_neg h1, if_neg h2]; rfl

theorem sentVals_length (h : OvOk N nc W todo srcIds trgIds mat ns nt f) {p q : Nat} (hp : p < N) : (sentVals nc todo srcIds mat f p q).length =
    if q = p then 0 else if cpl p q ∈ todo.getD p [] then (colSet (mat (cpl p q))).length * nc else if cpl p q ∈ todo.getD q [] then (srcIds p q).length * nc else 0 := by
  unfold sentVals
  by_cases h0 : q = p
  · simp [h0]
  · rw [if_neg h0, if_neg h0]
    by_cases h1 : cpl p q ∈ todo.getD p []
    · rw [if_pos h1, if_pos h1, tuples_length (h.field p hp) (colSet_lt h hp h1)]
    · rw [if_neg h1, if_neg h1]
      by_cases h2 : cpl p q ∈ todo.getD q []
      · rw [if_pos h2, if_pos h2, tuples_length (h.field p hp) (h.srcIds p q)]
      · rw [if_neg h2, if_neg h2]; rfl

theorem valuesToRecv_ok (h : OvOk N nc W todo srcIds trgIds mat ns nt f) {p : Nat} (hp : p < N) {m : OMap K} (hr : MapReady N todo srcIds trgIds mat p (todo.getD p []) m) :
    m.valuesToRecv N p nc (todo.getD p []) = .ok { buf := List.replicate (cat N fun s => (sentVals nc todo srcIds mat f s p).map some).length none,
                                                   counts := (List.range N).map fun s => ((sentVals nc todo srcIds mat f s p).map some).length,
                                                   displs := (List.range N).map fun s => some (cat s fun s => (sentVals nc todo srcIds mat f s p).map some).length } := by
  have hN := h.pos
  unfold OMap.valuesToRecv
  rw [mapM_range_ok (g := fun s => ((sentVals nc todo srcIds mat f s p).map some).length), ok_bind]
  · rw [worldDispls_ok hN, ok_bind, vget_range N _ (by omega), ok_bind, vget_range N _ (by omega), ok_bind, ← psum_succ, Nat.sub_add_cancel hN, psum_cat]
    show Except.ok _ = Except.ok _
    congr 2
    rw [List.map_map]
    apply List.map_congr_left
    intro q _
    show some (psum _ q) = _
    rw [psum_cat]
  · intro s hs
    rw [List.length_map, sentVals_length h hs]
    by_cases hsp : s = p
    · rw [if_pos hsp, if_pos hsp.symm]; rfl
    · rw [if_neg hsp, if_neg (show ¬ p = s from fun e => hsp e.symm)]
      by_cases h1 : cpl s p ∈ todo.getD p []
      · have hno : cpl s p ∉ todo.getD s [] := fun hc => hsp (h.unique hs hp hc h1)
        rw [if_pos ((mem_theSrc h hp hr).2 ⟨hs, .inr ⟨hsp, h1⟩⟩), if_pos h1, hr.nbRcv s hsp h1, if_neg hno, if_pos h1]
        rfl
      · rw [if_neg h1]
        by_cases h2 : s ∈ m.theSrc
        · have h3 : cpl s p ∈ todo.getD s [] := by
            rcases ((mem_theSrc h hp hr).1 h2).2 with h3 | h3
            · exact h3.1
            · exact absurd h3.2 h1
          rw [if_pos h2, if_neg h1, hr.zipRecv s h2 hsp, if_pos h3]
          rfl
        · rw [if_neg h2]
          by_cases h3 : cpl s p ∈ todo.getD s []
          · have : mat (cpl s p) = [] := by
              by_contra hne
              exact h2 ((mem_theSrc h hp hr).2 ⟨hs, .inl ⟨h3, hne⟩⟩)
            rw [if_pos h3, this]
            simp [colSet]
            rfl
          · rw [if_neg h3, if_neg h1]; rfl

/-! ## The product -/

theorem tupIdx_inj {nc t k t' k' : Nat} (hk : k < nc) (hk' : k' < nc) : t * nc + k = t' * nc + k' ↔ t = t' ∧ k = k' := by
  constructor
  · intro h
    have h1 : (t * nc + k) / nc = t := by rw [Nat.mul_comm, Nat.mul_add_div (by omega), Nat.div_eq_of_lt hk]; rfl
    have h2 : (t' * nc + k') / nc = t' := by rw [Nat.mul_comm, Nat.mul_add_div (by omega), Nat.div_eq_of_lt hk']; rfl
    have : t = t' := by rw [← h1, ← h2, h]
    subst this
    exact ⟨rfl, by omega⟩
  · rintro ⟨rfl, rfl⟩; rfl

theorem tupIdx_lt {nc n t k : Nat} (ht : t < n) (hk : k < nc) : t * nc + k < n * nc := by
  have := tuple_fits (nc := nc) (n := n) rfl ht
  omega

/-- the state of the product after the values `E`; `V`: the value given by each -/
structure ProdInv (nc n : Nat) (V : Contrib K → Nat → K) (E : List (Contrib K)) (st : List K × List Bool) : Prop where
  len : st.1.length = n * nc
  hlen : st.2.length = n
  out : ∀ t k, t < n → k < nc → st.1[t * nc + k]? = some ((onCell E t).map fun e => V e k).sum
  hit : ∀ t, t < n → st.2[t]? = some (decide (onCell E t ≠ []))

theorem addTuple_ok {nc n : Nat} {V : Contrib K → Nat → K} {E : List (Contrib K)} {st : List K × List Bool} (h : ProdInv nc n V E st) {buf : List (Option K)} {start : Nat} {ratio : K}
    {e : Contrib K} (ht : e.t < n) (hb : ∀ k < nc, ∃ x, buf[start + k]? = some (some x) ∧ V e k = x * ratio) :
    ∃ st', addTuple nc buf start e.t ratio st = .ok st' ∧ ProdInv nc n V (E ++ [e]) st' := by
  have key : ∀ i, i ≤ nc → ∃ out, loop i st.1 (fun k out => do
      let x ← known (← vget buf (start + k))
      let y ← vget out (e.t * nc + k)
      vset out (e.t * nc + k) (y + x * ratio)) = .ok out ∧ out.length = n * nc ∧
      ∀ t k, t < n → k < nc → out[t * nc + k]? = some (((onCell E t).map fun e => V e k).sum + if e.t = t ∧ k < i then V e k else 0) := by
    intro i
    induction i with
    | zero =>
      intro _
      exact ⟨st.1, rfl, h.len, fun t k ht hk => by rw [h.out t k ht hk]; simp⟩
    | succ i ih =>
      intro hi
      obtain ⟨out, h1, h2, h3⟩ := ih (by omega)
      obtain ⟨x, hx, hv⟩ := hb i (by omega)
      have hlt : e.t * nc + i < out.length := by rw [h2]; exact tupIdx_lt ht (by omega)
      unfold loop
      rw [h1, ok_bind]
      simp only [vget_ok hx, ok_bind, known_some, vget_ok (h3 e.t i ht (by omega)), vset_ok hlt]
      refine ⟨_, rfl, by simp [h2], ?_⟩
      intro t k ht2 hk
      rw [List.getElem?_set]
      by_cases he : e.t = t ∧ i = k
      · obtain ⟨rfl, rfl⟩ := he
        rw [if_pos rfl, if_pos hlt, if_neg (by omega), if_pos ⟨rfl, by omega⟩, hv, add_zero]
      · rw [if_neg (by rw [tupIdx_inj (by omega) hk]; exact he), h3 t k ht2 hk]
        congr 2
        by_cases h4 : e.t = t ∧ k < i
        · rw [if_pos h4, if_pos ⟨h4.1, by omega⟩]
        · rw [if_neg h4, if_neg]
          rintro ⟨h5, h6⟩
          have : i = k ∨ k < i := by omega
          rcases this with h7 | h7
          · exact he ⟨h5, h7⟩
          · exact h4 ⟨h5, h7⟩
  obtain ⟨out, h1, h2, h3⟩ := key nc le_rfl
  unfold addTuple
  rw [h1, ok_bind, vset_ok (by rw [h.hlen]; exact ht), ok_bind]
  refine ⟨_, rfl, h2, by simp [h.hlen], ?_, ?_⟩
  · intro t k ht2 hk
    rw [h3 t k ht2 hk, onCell_append, onCell_single]
    by_cases he : e.t = t
    · simp [he, hk]
    · simp [he]
  · intro t ht2
    rw [List.getElem?_set, onCell_append, onCell_single]
    by_cases he : e.t = t
    · rw [if_pos he, if_pos (by rw [h.hlen]; exact ht), if_pos he]; simp
    · rw [if_neg he, if_neg he, h.hit t ht2, List.append_nil]

/-- the value given to the target by one value of the matrices -/
def share (nc : Nat) (f : Nat → List K) (D : Nat → K) (e : Contrib K) (k : Nat) : K := (f e.s).getD (e.c * nc + k) 0 * (e.m / D e.t)

theorem applyMat_ok (h : OvOk N nc W todo srcIds trgIds mat ns nt f) {p s : Nat} (hp : p < N) {m : OMap K} (hr : MapReady N todo srcIds trgIds mat p (todo.getD p []) m) (hs : s ∈ m.theSrc)
    (D : Nat → K) {buf : List (Option K)} {pos row : Nat → M Nat} (hrow : ∀ j < (mat (cpl s p)).length, row j = .ok (rowCell todo trgIds p s j))
    (hpos : ∀ rw ∈ mat (cpl s p), ∀ a ∈ mapKeys rw, ∃ P, pos a = .ok P ∧ ∀ k < nc, buf[P + k]? = some (some ((f s).getD (colCell todo srcIds p s a * nc + k) 0)))
    {E : List (Contrib K)} {st : List K × List Bool} (hI : ProdInv nc (nt p) (share nc f D) E st) :
    ∃ st', applyMat nc buf pos row (mat (cpl s p)) (denoOf todo trgIds mat p D s) st = .ok st' ∧
      ProdInv nc (nt p) (share nc f D) (E ++ contribs srcIds trgIds mat (ownerOf todo p s) (cpl s p)) st' := by
  unfold applyMat
  rw [contribs_eq]
  apply foldlM_acc (ProdInv nc (nt p) (share nc f D)) _ _ _ _ E st hI
  intro y hy E st hI
  obtain ⟨hy1, hy2, hy3⟩ := mem_zipIdx_lt hy
  have hd : vget (denoOf todo trgIds mat p D s) y.2 = .ok (y.1.map fun e => (e.1, D (rowCell todo trgIds p s y.2))) := by
    apply vget_ok
    unfold denoOf
    rw [List.getElem?_map, List.getElem?_zipIdx, hy3]; simp
  rw [hd, ok_bind]
  have hz : y.1.map (fun e => ({ s := s, c := colCell todo srcIds p s e.1, t := rowCell todo trgIds p s y.2, m := e.2 } : Contrib K)) =
      (y.1.zipIdx.map fun x => [({ s := s, c := colCell todo srcIds p s x.1.1, t := rowCell todo trgIds p s y.2, m := x.1.2 } : Contrib K)]).flatten := by
    rw [flatten_singles (fun x : (Nat × K) × Nat => ({ s := s, c := colCell todo srcIds p s x.1.1, t := rowCell todo trgIds p s y.2, m := x.1.2 } : Contrib K))]
    rw [show (fun x : (Nat × K) × Nat => ({ s := s, c := colCell todo srcIds p s x.1.1, t := rowCell todo trgIds p s y.2, m := x.1.2 } : Contrib K)) =
      (fun e : Nat × K => ({ s := s, c := colCell todo srcIds p s e.1, t := rowCell todo trgIds p s y.2, m := e.2 } : Contrib K)) ∘ Prod.fst from rfl, ← List.map_map, List.zipIdx_map_fst]
  rw [hz]
  apply foldlM_acc (ProdInv nc (nt p) (share nc f D)) _ _ _ _ E st hI
  intro x hx E st hI
  obtain ⟨hx1, hx2, hx3⟩ := mem_zipIdx_lt hx
  obtain ⟨P, hP1, hP2⟩ := hpos y.1 hy2 x.1.1 (List.mem_map_of_mem hx2)
  have hx4 : vget (y.1.map fun e => (e.1, D (rowCell todo trgIds p s y.2))) x.2 = .ok (x.1.1, D (rowCell todo trgIds p s y.2)) := by
    apply vget_ok
    rw [List.getElem?_map, hx3]; rfl
  rw [hrow y.2 hy1, ok_bind, hx4, ok_bind, hP1, ok_bind]
  exact addTuple_ok (e := { s := s, c := colCell todo srcIds p s x.1.1, t := rowCell todo trgIds p s y.2, m := x.1.2 }) hI (rowCell_lt h hp hr hs hy1) fun k hk => ⟨_, hP2 k hk, rfl⟩

theorem revert_find {vec : List Nat} (hs : StrictSorted vec) {a : Nat} (ha : a ∈ vec) : ∃ i : Nat, vec[i]? = some a ∧ mapFind (vec.zipIdx.foldl (fun r x => mapSet r x.1 x.2) ([] : List (Nat × Nat))) a = some i := by
  obtain ⟨i, hi⟩ := List.mem_iff_getElem?.1 ha
  refine ⟨i, hi, ?_⟩
  have hnd := StrictSorted.nodup hs
  have := mapSet_fold_find (α := Nat × Nat) (fun x => x ∈ vec.zipIdx) (fun x => x.1) (fun a => vec.idxOf a) (fun x => x.2) (by
    intro x hx
    obtain ⟨h1, h2, h3⟩ := mem_zipIdx_lt hx
    obtain ⟨h4, h5⟩ := List.getElem?_eq_some_iff.1 h3
    rw [← h5, hnd.idxOf_getElem]) a vec.zipIdx []
  have hcongr : ∀ (l : List (Nat × Nat)) (r : List (Nat × Nat)), (∀ x ∈ l, x ∈ vec.zipIdx) → l.foldl (fun r x => if x ∈ vec.zipIdx then mapSet r x.1 x.2 else r) r = l.foldl (fun r x => mapSet r x.1 x.2) r := by
    intro l
    induction l with
    | nil => intros; rfl
    | cons x l ih =>
      intro r hl
      rw [List.foldl_cons, List.foldl_cons, if_pos (hl x (by simp)), ih _ fun y hy => hl y (by simp [hy])]
  rw [hcongr _ _ fun x hx => hx] at this
  rw [this, if_pos ⟨(a, i), List.mem_zipIdx_iff_getElem?.2 hi, List.mem_zipIdx_iff_getElem?.2 hi, rfl⟩]
  obtain ⟨h4, h5⟩ := List.getElem?_eq_some_iff.1 hi
  rw [← h5, hnd.idxOf_getElem]

theorem getD_get {l : List K} {i : Nat} (h : i < l.length) : l[i]? = some (l.getD i 0) := by
  rw [List.getD_eq_getElem?_getD, List.getElem?_eq_getElem h]; rfl

theorem recv_get {s p i : Nat} (hs : s < N) (hi : i < (sentVals nc todo srcIds mat f s p).length) :
    (cat N fun s => (sentVals nc todo srcIds mat f s p).map some)[(cat s fun s => (sentVals nc todo srcIds mat f s p).map some).length + i]? = some ((sentVals nc todo srcIds mat f s p)[i]?) := by
  rw [cat_get (fun s => (sentVals nc todo srcIds mat f s p).map some) hs (by rw [List.length_map]; exact hi), List.getElem?_map, List.getElem?_eq_getElem hi]; rfl

/-- the default value in the cells not met -/
theorem fillDefault_ok {n : Nat} (hit : List Bool) (hh : hit.length = n) (dflt : K) (out : List K) (hl : out.length = n * nc) :
    ∃ r, (loop n out fun i out => do
      if ← vget hit i then return out
      else loop nc out fun k out => vset out (i * nc + k) dflt) = .ok r ∧ r.length = n * nc ∧
      ∀ t k, t < n → k < nc → r[t * nc + k]? = if hit[t]? = some true then out[t * nc + k]? else some dflt := by
  have key : ∀ j, j ≤ n → ∃ r, (loop j out fun i out => do
      if ← vget hit i then return out
      else loop nc out fun k out => vset out (i * nc + k) dflt) = .ok r ∧ r.length = n * nc ∧
      ∀ t k, t < n → k < nc → r[t * nc + k]? = if hit[t]? = some true ∨ j ≤ t then out[t * nc + k]? else some dflt := by
    intro j
    induction j with
    | zero => intro _; exact ⟨out, rfl, hl, fun t k _ _ => by simp⟩
    | succ j ih =>
      intro hj
      obtain ⟨r, h1, h2, h3⟩ := ih (by omega)
      unfold loop
      rw [h1, ok_bind]
      have hg : hit[j]? = some hit[j] := List.getElem?_eq_getElem (by omega)
      simp only [vget_ok hg, ok_bind]
      cases hb : hit[j]
      · simp only [Bool.false_eq_true, if_false]
        have inner : ∀ i, i ≤ nc → ∃ r', loop i r (fun k out => vset out (j * nc + k) dflt) = .ok r' ∧ r'.length = n * nc ∧
            ∀ t k, t < n → k < nc → r'[t * nc + k]? = if t = j ∧ k < i then some dflt else r[t * nc + k]? := by
          intro i
          induction i with
          | zero => intro _; exact ⟨r, rfl, h2, fun t k _ _ => by simp⟩
          | succ i ih2 =>
            intro hi
            obtain ⟨r', g1, g2, g3⟩ := ih2 (by omega)
            have hlt : j * nc + i < r'.length := by rw [g2]; exact tupIdx_lt (by omega) (by omega)
            unfold loop
            rw [g1, ok_bind]
            beta_reduce
            rw [vset_ok hlt]
            refine ⟨_, rfl, by simp [g2], ?_⟩
            intro t k ht hk
            rw [List.getElem?_set]
            by_cases he : j = t ∧ i = k
            · obtain ⟨rfl, rfl⟩ := he
              rw [if_pos rfl, if_pos hlt, if_pos ⟨rfl, by omega⟩]
            · rw [if_neg (by rw [tupIdx_inj (by omega) hk]; exact he), g3 t k ht hk]
              by_cases h4 : t = j ∧ k < i
              · rw [if_pos h4, if_pos ⟨h4.1, by omega⟩]
              · rw [if_neg h4, if_neg]
                rintro ⟨h5, h6⟩
                have : i = k ∨ k < i := by omega
                rcases this with h7 | h7
                · exact he ⟨h5.symm, h7⟩
                · exact h4 ⟨h5, h7⟩
        obtain ⟨r', g1, g2, g3⟩ := inner nc le_rfl
        refine ⟨r', g1, g2, ?_⟩
        intro t k ht hk
        rw [g3 t k ht hk, h3 t k ht hk]
        by_cases htj : t = j
        · subst htj
          rw [if_pos ⟨rfl, hk⟩, if_neg (by rw [hg, hb]; simp)]
        · rw [if_neg (by tauto)]
          have : (j ≤ t) ↔ (j + 1 ≤ t) := by omega
          simp only [this]
      · simp only [if_true]
        refine ⟨r, rfl, h2, ?_⟩
        intro t k ht hk
        rw [h3 t k ht hk]
        by_cases htj : t = j
        · subst htj
          rw [if_pos (by right; omega), if_pos (by left; rw [hg, hb])]
        · have : (j ≤ t) ↔ (j + 1 ≤ t) := by omega
          simp only [this]
  obtain ⟨r, h1, h2, h3⟩ := key n le_rfl
  refine ⟨r, h1, h2, ?_⟩
  intro t k ht hk
  rw [h3 t k ht hk]
  have : ¬ n ≤ t := by omega
  simp [this]

/-- the treatment of the matrix of one source: the body of the loop of `OMap.apply` -/
def applyStep (m : OMap K) (me nc : Nat) (mine : List Couple) (field : List K) (counts offs : List Nat) (recv : List (Option K)) (mat : Couple → List (SRow K)) (deno : Nat → List (SRow K)) (st : List K × List Bool) (s : Nat) :
    M (List K × List Bool) := do
  let st ← if s = me then applyMat nc (field.map some) (fun c => .ok (c * nc)) (fun j => .ok j) (mat (cpl s me)) (deno s) st else .ok st
  let n ← vget counts s
  if n = 0 then return st
  else do
    let o ← vget offs s
    if cpl s me ∉ mine then
      match mapFind m.zipRecv s with
      | none => throwX
      | some vec => do
        let revert : List (Nat × Nat) := vec.zipIdx.foldl (fun r x => mapSet r x.1 x.2) []
        match mapFind m.sentTrg s with
        | none => throwX
        | some ids => applyMat nc recv (fun c => match mapFind revert c with
            | none => throwX
            | some i => .ok (o + i * nc)) (fun j => vget ids j) (mat (cpl s me)) (deno s) st
    else applyMat nc recv (fun c => .ok (o + c * nc)) (fun j => .ok j) (mat (cpl s me)) (deno s) st

theorem foldlM_mem_congr {σ α : Type} {g g' : σ → α → M σ} : ∀ (l : List α) (st : σ), (∀ x ∈ l, ∀ st, g st x = g' st x) → l.foldlM g st = l.foldlM g' st
  | [], _, _ => rfl
  | x :: l, st, h => by
    rw [List.foldlM_cons, List.foldlM_cons, h x (by simp)]
    congr 1
    funext st'
    exact foldlM_mem_congr l st' fun y hy => h y (by simp [hy])

theorem foldlM_by_index {σ α : Type} (l : List α) (g : σ → Nat → M σ) (g' : σ → α → M σ) (st : σ) (h : ∀ i a, l[i]? = some a → ∀ st, g st i = g' st a) :
    (List.range l.length).foldlM g st = l.foldlM g' st := by
  have h1 : List.range l.length = l.zipIdx.map Prod.snd := by rw [List.zipIdx_map_snd, List.range_eq_range']
  have h2 : l.foldlM g' st = (l.zipIdx.map Prod.fst).foldlM g' st := by rw [List.zipIdx_map_fst]
  rw [h1, h2, List.foldlM_map, List.foldlM_map]
  apply foldlM_mem_congr
  intro x hx st
  obtain ⟨_, _, h3⟩ := mem_zipIdx_lt hx
  exact h _ _ h3 st

theorem apply_ok (h : OvOk N nc W todo srcIds trgIds mat ns nt f) {p : Nat} (hp : p < N) {m : OMap K} (hr : MapReady N todo srcIds trgIds mat p (todo.getD p []) m)
    (D : Nat → K) (hd : m.deno = m.theSrc.map (denoOf todo trgIds mat p D)) (dflt : K) :
    ∃ o, m.apply p nc (nt p) dflt (todo.getD p []) (f p) ((List.range N).map fun s => ((sentVals nc todo srcIds mat f s p).map some).length)
        ((List.range N).map fun s => (cat s fun s => (sentVals nc todo srcIds mat f s p).map some).length) (cat N fun s => (sentVals nc todo srcIds mat f s p).map some) = .ok o ∧
      o.length = nt p * nc ∧ ∀ t k, t < nt p → k < nc → o[t * nc + k]? = some (if onCell (progContribs todo srcIds trgIds mat p m.theSrc) t = [] then dflt
        else ((onCell (progContribs todo srcIds trgIds mat p m.theSrc) t).map fun e => share nc f D e k).sum) := by
  have hstep : ∀ s ∈ m.theSrc, ∀ E st, ProdInv nc (nt p) (share nc f D) E st → ∃ st', applyStep m p nc (todo.getD p []) (f p) ((List.range N).map fun s => ((sentVals nc todo srcIds mat f s p).map some).length)
        ((List.range N).map fun s => (cat s fun s => (sentVals nc todo srcIds mat f s p).map some).length) (cat N fun s => (sentVals nc todo srcIds mat f s p).map some) mat (denoOf todo trgIds mat p D) st s = .ok st' ∧
      ProdInv nc (nt p) (share nc f D) (E ++ contribs srcIds trgIds mat (ownerOf todo p s) (cpl s p)) st' := by
    intro s hs E st hI
    obtain ⟨hsN, ho, hmem, hown⟩ := owner_mem h hp hr hs
    by_cases hsp : s = p
    · have how : ownerOf todo p s = p := by
        rcases hown with h4 | h4
        · exact h4
        · rw [h4, hsp]
      rw [how] at hmem
      obtain ⟨st1, g1, g2⟩ := applyMat_ok h hp hr hs D (buf := (f p).map some) (pos := fun c => .ok (c * nc)) (row := fun j => .ok j)
        (by intro j _; unfold rowCell; rw [how, if_pos rfl]) (by
          intro rw hrw a ha
          refine ⟨a * nc, rfl, fun k hk => ?_⟩
          have hlt := h.colsMine p _ _ (h.get hp) hmem hsp rw hrw a ha
          have : colCell todo srcIds p s a = a := by unfold colCell; rw [how, if_pos hsp]
          rw [this, hsp, List.getElem?_map, getD_get (by rw [h.field p hp]; exact tupIdx_lt hlt hk)]; rfl) hI
      unfold applyStep
      rw [if_pos hsp, g1, ok_bind]
      beta_reduce
      rw [vget_range N _ hsN, ok_bind, if_pos (by rw [List.length_map, sentVals_length h hsN, if_pos hsp.symm])]
      exact ⟨st1, rfl, g2⟩
    · unfold applyStep
      rw [if_neg hsp, ok_bind]
      beta_reduce
      rw [vget_range N _ hsN, ok_bind, List.length_map]
      have hps : ¬ p = s := fun e => hsp e.symm
      rcases hown with how | how
      · -- the couple is computed here
        rw [how] at hmem
        have hno : cpl s p ∉ todo.getD s [] := fun hc => hsp (h.unique hsN hp hc hmem)
        have hlen : (sentVals nc todo srcIds mat f s p).length = (srcIds s p).length * nc := by rw [sentVals_length h hsN, if_neg hps, if_neg hno, if_pos hmem]
        have hval : sentVals nc todo srcIds mat f s p = tuples nc (f s) (srcIds s p) := by unfold sentVals; rw [if_neg hps, if_neg hno, if_pos hmem]
        have hcols := h.colsSent p _ _ (h.get hp) hmem (show (cpl s p).src ≠ p from hsp)
        simp only [cpl_src] at hcols
        by_cases h0 : (sentVals nc todo srcIds mat f s p).length = 0
        · rw [if_pos h0]
          have hz : (srcIds s p).length = 0 := by
            rw [hlen] at h0
            rcases Nat.mul_eq_zero.1 h0 with h1 | h1
            · exact h1
            · have := h.comp; omega
          refine ⟨st, rfl, ?_⟩
          have : contribs srcIds trgIds mat (ownerOf todo p s) (cpl s p) = [] := by
            rw [contribs_eq, List.flatten_eq_nil_iff]
            intro l hl
            obtain ⟨y, hy, rfl⟩ := List.mem_map.1 hl
            obtain ⟨_, hy2, _⟩ := mem_zipIdx_lt hy
            cases hrow : y.1 with
            | nil => rfl
            | cons e r =>
              have := hcols y.1 hy2 e.1 (by rw [hrow]; simp [mapKeys])
              omega
          rw [this, List.append_nil]
          exact hI
        · rw [if_neg h0, vget_range N _ hsN, ok_bind, if_neg (by simpa using hmem)]
          apply applyMat_ok h hp hr hs D _ _ hI
          · intro j _; unfold rowCell; rw [how, if_pos rfl]
          · intro rw hrw a ha
            refine ⟨_, rfl, fun k hk => ?_⟩
            have hlt := hcols rw hrw a ha
            have hg : (srcIds s p)[a]? = some (colCell todo srcIds p s a) := by
              unfold colCell
              rw [how, if_neg hsp, List.getD_eq_getElem?_getD, List.getElem?_eq_getElem hlt]; rfl
            rw [Nat.add_assoc, recv_get hsN (by rw [hlen]; exact tupIdx_lt hlt hk), hval, tuples_get (h.field s hsN) (h.srcIds s p) hg hk,
              getD_get (by rw [h.field s hsN]; exact tupIdx_lt (h.srcIds s p _ (List.mem_of_getElem? hg)) hk)]
      · -- the couple is computed by the source
        rw [how] at hmem
        have hno : cpl s p ∉ todo.getD p [] := fun hc => hsp (h.unique hsN hp hmem hc)
        have hlen : (sentVals nc todo srcIds mat f s p).length = (colSet (mat (cpl s p))).length * nc := by rw [sentVals_length h hsN, if_neg hps, if_pos hmem]
        have hval : sentVals nc todo srcIds mat f s p = tuples nc (f s) (colSet (mat (cpl s p))) := by unfold sentVals; rw [if_neg hps, if_pos hmem]
        by_cases h0 : (sentVals nc todo srcIds mat f s p).length = 0
        · rw [if_pos h0]
          have hz : (colSet (mat (cpl s p))).length = 0 := by
            rw [hlen] at h0
            rcases Nat.mul_eq_zero.1 h0 with h1 | h1
            · exact h1
            · have := h.comp; omega
          refine ⟨st, rfl, ?_⟩
          have : contribs srcIds trgIds mat (ownerOf todo p s) (cpl s p) = [] := by
            rw [contribs_eq, List.flatten_eq_nil_iff]
            intro l hl
            obtain ⟨y, hy, rfl⟩ := List.mem_map.1 hl
            obtain ⟨_, hy2, _⟩ := mem_zipIdx_lt hy
            cases hrow : y.1 with
            | nil => rfl
            | cons e r =>
              have : e.1 ∈ colSet (mat (cpl s p)) := mem_colSet.2 ⟨y.1, hy2, by rw [hrow]; simp [mapKeys]⟩
              rw [List.length_eq_zero_iff.1 hz] at this
              simp at this
          rw [this, List.append_nil]
          exact hI
        · rw [if_neg h0, vget_range N _ hsN, ok_bind, if_pos hno, hr.zipRecv s hs hsp]
          simp only [hr.sentTrg s _ (h.get hsN) hsp hmem]
          apply applyMat_ok h hp hr hs D _ _ hI
          · intro j hj
            have hlen := h.rowsSent _ _ _ (h.get hsN) hmem (show (cpl s p).tgt ≠ s from hps)
            simp only [cpl_tgt] at hlen
            apply vget_ok
            unfold rowCell
            rw [how, if_neg hps, List.getD_eq_getElem?_getD, List.getElem?_eq_getElem (by omega)]; rfl
          · intro rw hrw a ha
            have hac : a ∈ colSet (mat (cpl s p)) := mem_colSet.2 ⟨rw, hrw, ha⟩
            obtain ⟨i, hi1, hi2⟩ := revert_find (colSet_sorted _) hac
            simp only [hi2]
            refine ⟨_, rfl, fun k hk => ?_⟩
            have hcc : colCell todo srcIds p s a = a := by unfold colCell; rw [how, if_pos rfl]
            have hlt : i < (colSet (mat (cpl s p))).length := (List.getElem?_eq_some_iff.1 hi1).1
            rw [Nat.add_assoc, recv_get hsN (by rw [hlen]; exact tupIdx_lt hlt hk), hval, tuples_get (h.field s hsN) (colSet_lt h hsN hmem) hi1 hk, hcc,
              getD_get (by rw [h.field s hsN]; exact tupIdx_lt (colSet_lt h hsN hmem a hac) hk)]
  have hinit : ProdInv nc (nt p) (share nc f D) [] (List.replicate (nt p * nc) (0 : K), List.replicate (nt p) false) := by
    refine ⟨by simp, by simp, ?_, ?_⟩
    · intro t k ht hk
      show (List.replicate (nt p * nc) (0 : K))[_]? = _
      rw [List.getElem?_replicate, if_pos (tupIdx_lt ht hk)]; rfl
    · intro t ht
      show (List.replicate (nt p) false)[_]? = _
      rw [List.getElem?_replicate, if_pos ht]; rfl
  obtain ⟨st, h1, h2⟩ := foldlM_acc (ProdInv nc (nt p) (share nc f D)) (fun s => contribs srcIds trgIds mat (ownerOf todo p s) (cpl s p)) _ m.theSrc hstep [] _ hinit
  rw [List.nil_append] at h2
  have h2' : ProdInv nc (nt p) (share nc f D) (progContribs todo srcIds trgIds mat p m.theSrc) st := h2
  obtain ⟨o, g1, g2, g3⟩ := fillDefault_ok (nc := nc) st.2 h2'.hlen dflt st.1 h2'.len
  refine ⟨o, ?_, g2, ?_⟩
  · unfold OMap.apply
    rw [foldlM_by_index m.theSrc _ (applyStep m p nc (todo.getD p []) (f p) ((List.range N).map fun s => ((sentVals nc todo srcIds mat f s p).map some).length)
        ((List.range N).map fun s => (cat s fun s => (sentVals nc todo srcIds mat f s p).map some).length) (cat N fun s => (sentVals nc todo srcIds mat f s p).map some) mat (denoOf todo trgIds mat p D))]
    · rw [h1, ok_bind]
      exact g1
    · intro i s hs st
      rw [vget_ok hs, ok_bind, vget_ok (show m.theMat[i]? = some (mat (cpl s p)) by rw [hr.theMat, List.getElem?_map, hs]; rfl), ok_bind,
        vget_ok (show m.deno[i]? = some (denoOf todo trgIds mat p D s) by rw [hd, List.getElem?_map, hs]; rfl), ok_bind]
      rfl
  · intro t k ht hk
    rw [g3 t k ht hk, h2'.hit t ht, h2'.out t k ht hk]
    by_cases he : onCell (progContribs todo srcIds trgIds mat p m.theSrc) t = []
    · rw [if_pos he, if_neg (by simp [he])]
    · rw [if_neg he, if_pos (by simp [he])]

theorem MapReady.withDeno {p : Nat} {mine : List Couple} {m : OMap K} (hr : MapReady N todo srcIds trgIds mat p mine m) (d : List (List (SRow K))) : MapReady N todo srcIds trgIds mat p mine { m with deno := d } :=
  ⟨hr.theSrc, hr.theMat, hr.zipRecv, hr.toSend, hr.nbRcv, hr.zipComp, hr.sentSrc, hr.sentTrg, hr.sentTrg_none⟩

theorem mapM_range_ex {α : Type} {g : Nat → M α} {P : Nat → α → Prop} : ∀ {N : Nat}, (∀ i < N, ∃ a, g i = .ok a ∧ P i a) →
    ∃ l, (List.range N).mapM g = .ok l ∧ l.length = N ∧ ∀ i < N, ∃ a, l[i]? = some a ∧ P i a := by
  intro N h
  have hch : ∀ i, ∃ a : Option α, i < N → ∃ b, a = some b ∧ g i = .ok b ∧ P i b := by
    intro i
    by_cases hi : i < N
    · obtain ⟨a, h1, h2⟩ := h i hi
      exact ⟨some a, fun _ => ⟨a, rfl, h1, h2⟩⟩
    · exact ⟨none, fun hc => absurd hc hi⟩
  choose u hu using hch
  by_cases hN : N = 0
  · subst hN
    exact ⟨[], rfl, rfl, fun i hi => absurd hi (by omega)⟩
  · obtain ⟨b0, -, -, -⟩ := hu 0 (by omega)
    have : ∀ i < N, g i = .ok ((u i).getD b0) := by
      intro i hi
      obtain ⟨b, h1, h2, _⟩ := hu i hi
      rw [h1, h2]; rfl
    refine ⟨_, mapM_range_ok this, by simp, ?_⟩
    intro i hi
    obtain ⟨b, h1, _, h3⟩ := hu i hi
    refine ⟨b, ?_, h3⟩
    rw [range_map_get N _ hi, h1]; rfl

theorem allContribs_source (h : OvOk N nc W todo srcIds trgIds mat ns nt f) {p : Nat} {e : Contrib K} (he : e ∈ allContribs todo srcIds trgIds mat p) : e.s < N ∧ e.c < ns e.s := by
  unfold allContribs at he
  obtain ⟨l, hl, hel⟩ := List.mem_flatten.1 he
  obtain ⟨x, hx, rfl⟩ := List.mem_map.1 hl
  obtain ⟨_, _, hx3⟩ := mem_zipIdx_lt hx
  obtain ⟨l, hl, hel⟩ := List.mem_flatten.1 hel
  obtain ⟨c, hc, rfl⟩ := List.mem_map.1 hl
  have hc1 := (List.mem_filter.1 hc).1
  unfold contribs at hel
  obtain ⟨l, hl, hel⟩ := List.mem_flatten.1 hel
  obtain ⟨y, hy, rfl⟩ := List.mem_map.1 hl
  obtain ⟨a, ha, rfl⟩ := List.mem_map.1 hel
  obtain ⟨_, hy2, _⟩ := mem_zipIdx_lt hy
  refine ⟨(h.range c (h.shared.own _ _ _ hx3 hc1).1).1, ?_⟩
  show (if c.src = x.2 then a.1 else (srcIds c.src x.2).getD a.1 0) < ns c.src
  by_cases hcs : c.src = x.2
  · rw [if_pos hcs, hcs]
    exact h.colsMine _ _ _ hx3 hc1 hcs _ hy2 _ (List.mem_map_of_mem ha)
  · rw [if_neg hcs]
    have := h.colsSent _ _ _ hx3 hc1 hcs _ hy2 _ (List.mem_map_of_mem ha)
    rw [List.getD_eq_getElem?_getD, List.getElem?_eq_getElem this]
    exact h.srcIds _ _ _ (List.getElem_mem _)

/-- **C89**, the transfer: the run ends without error on all processors, and each target cell gets the mean of the values of the source cells it meets, on all processors, weighted by
the values of the matrices, or the default value when it meets none. -/
theorem C89_transfer (h : OvOk N nc W todo srcIds trgIds mat ns nt f) (dflt : K) :
    ∃ out, overlapRun nc dflt todo srcIds trgIds mat ((List.range N).map f) ((List.range N).map nt) = .ok out ∧ out.length = N ∧
      ∀ p < N, ∃ o, out[p]? = some o ∧ o.length = nt p * nc ∧ ∀ t k, t < nt p → k < nc → o[t * nc + k]? = some (
        if onCell (allContribs todo srcIds trgIds mat p) t = [] then dflt
        else ((onCell (allContribs todo srcIds trgIds mat p) t).map fun e => (f e.s).getD (e.c * nc + k) 0 * (e.m / ((onCell (allContribs todo srcIds trgIds mat p) t).map (·.m)).sum)).sum) := by
  obtain ⟨ms, hms, hready⟩ := prepareAll_ok (srcIds := srcIds) (trgIds := trgIds) (mat := mat) h.pos h.todoOk fun p l c hl hc row hrow => h.sorted c (h.shared.own p l c hl hc).1 row hrow
  let ms' : Nat → OMap K := fun p => { ms p with deno := (ms p).theSrc.map (denoOf todo trgIds mat p (cellSum (progContribs todo srcIds trgIds mat p (ms p).theSrc))) }
  have hready' : ∀ p < N, MapReady N todo srcIds trgIds mat p (todo.getD p []) (ms' p) := fun p hp => (hready p hp).withDeno _
  unfold overlapRun
  rw [h.shared.len]
  simp only
  rw [hms, ok_bind, mapM_range_ok (g := ms'), ok_bind]
  · unfold multiplyAll
    rw [mapM_range_ok (g := fun p => { buf := cat N fun q => (sentVals nc todo srcIds mat f p q).map some, counts := (List.range N).map fun q => ((sentVals nc todo srcIds mat f p q).map some).length, displs := (List.range N).map fun q => some (cat q fun q => (sentVals nc todo srcIds mat f p q).map some).length }), ok_bind]
    · rw [mapM_range_ok (g := fun p => { buf := List.replicate (cat N fun s => (sentVals nc todo srcIds mat f s p).map some).length none, counts := (List.range N).map fun s => ((sentVals nc todo srcIds mat f s p).map some).length, displs := (List.range N).map fun s => some (cat s fun s => (sentVals nc todo srcIds mat f s p).map some).length }), ok_bind]
      · rw [allToAllV_cat N (fun i q => (sentVals nc todo srcIds mat f i q).map some) _ _ rfl rfl, ok_bind]
        apply mapM_range_ex
        intro p hp
        obtain ⟨o, h1, h2, h3⟩ := apply_ok h hp (hready' p hp) _ rfl dflt
        refine ⟨o, ?_, h2, ?_⟩
        · rw [vget_range N _ hp, ok_bind, vget_range N _ hp, ok_bind, vget_range N _ hp, ok_bind, vget_ok (h.get hp), ok_bind, vget_range N _ hp, ok_bind, vget_range N _ hp, ok_bind]
          rw [List.map_map]
          exact h1
        · intro t k ht hk
          rw [h3 t k ht hk]
          have hperm := contribs_perm h hp (hready' p hp)
          have hcell : (onCell (allContribs todo srcIds trgIds mat p) t).Perm (onCell (progContribs todo srcIds trgIds mat p (ms' p).theSrc) t) := hperm.filter _
          by_cases he : onCell (allContribs todo srcIds trgIds mat p) t = []
          · rw [if_pos he, if_pos]
            rw [he] at hcell
            exact hcell.nil_eq.symm
          · rw [if_neg he, if_neg]
            · congr 1
              rw [← (hcell.map fun e => share nc f (cellSum (progContribs todo srcIds trgIds mat p (ms p).theSrc)) e k).sum_eq]
              congr 1
              apply List.map_congr_left
              intro e hee
              have het : e.t = t := by simpa using (List.mem_filter.1 hee).2
              unfold share cellSum
              rw [het, (hcell.map (·.m)).sum_eq]
            · intro hc
              rw [hc] at hcell
              exact he hcell.eq_nil
      · intro p hp
        rw [vget_range N _ hp, ok_bind, vget_ok (h.get hp), ok_bind, valuesToRecv_ok h hp (hready' p hp)]
    · intro p hp
      rw [vget_range N _ hp, ok_bind, vget_ok (h.get hp), ok_bind, vget_range N _ hp, ok_bind, valuesToSend_ok h hp (hready' p hp)]
  · intro p hp
    rw [vget_range N _ hp, ok_bind, vget_range N _ hp, ok_bind, computeDeno_ok h hp (hready p hp)]

theorem sum_map_mul_const {α : Type} (l : List α) (w : α → K) (x : K) : (l.map fun e => x * w e).sum = x * (l.map w).sum := by
  induction l with
  | nil => simp
  | cons a l ih => simp [ih, mul_add]

theorem sum_map_div_const {α : Type} (l : List α) (w : α → K) (x : K) : (l.map fun e => w e / x).sum = (l.map w).sum / x := by
  induction l with
  | nil => simp
  | cons a l ih => simp [ih, add_div]

/-- the constants of the source fields of all processors are kept on the cells which meet source cells, when the sum of the values of the matrices on the cell is not zero -/
theorem C89_constant (h : OvOk N nc W todo srcIds trgIds mat ns nt f) (dflt : K) (x : Nat → K) (hx : ∀ p < N, ∀ c k, c < ns p → k < nc → (f p)[c * nc + k]? = some (x k)) :
    ∃ out, overlapRun nc dflt todo srcIds trgIds mat ((List.range N).map f) ((List.range N).map nt) = .ok out ∧
      ∀ p < N, ∃ o, out[p]? = some o ∧ ∀ t k, t < nt p → k < nc → ((onCell (allContribs todo srcIds trgIds mat p) t).map (·.m)).sum ≠ 0 → o[t * nc + k]? = some (x k) := by
  obtain ⟨out, h1, _, h3⟩ := C89_transfer h dflt
  refine ⟨out, h1, ?_⟩
  intro p hp
  obtain ⟨o, g1, _, g3⟩ := h3 p hp
  refine ⟨o, g1, ?_⟩
  intro t k ht hk hs
  rw [g3 t k ht hk, if_neg (by intro hc; rw [hc] at hs; simp at hs)]
  have : ∀ e ∈ onCell (allContribs todo srcIds trgIds mat p) t, (f e.s).getD (e.c * nc + k) 0 = x k := by
    intro e he
    obtain ⟨e1, e2⟩ := allContribs_source h (List.mem_of_mem_filter he)
    rw [List.getD_eq_getElem?_getD, hx _ e1 _ _ e2 hk]; rfl
  rw [List.map_congr_left fun e he => by rw [this e he], sum_map_mul_const, sum_map_div_const, div_self hs, mul_one]

/-- the result does not depend on the sharing of the work: two sharings of the same pairs, with matrices and numbers which give the same values on the cells, give the same fields -/
theorem C89_sharing {W' : List Couple} {todo' : List (List Couple)} {srcIds' trgIds' : Nat → Nat → List Nat} {mat' : Couple → List (SRow K)} (h : OvOk N nc W todo srcIds trgIds mat ns nt f)
    (h' : OvOk N nc W' todo' srcIds' trgIds' mat' ns nt f) (dflt : K) (hsame : ∀ p < N, (allContribs todo srcIds trgIds mat p).Perm (allContribs todo' srcIds' trgIds' mat' p)) :
    overlapRun nc dflt todo srcIds trgIds mat ((List.range N).map f) ((List.range N).map nt) = overlapRun nc dflt todo' srcIds' trgIds' mat' ((List.range N).map f) ((List.range N).map nt) := by
  obtain ⟨out, h1, h2, h3⟩ := C89_transfer h dflt
  obtain ⟨out', h1', h2', h3'⟩ := C89_transfer h' dflt
  rw [h1, h1']
  congr 1
  apply List.ext_getElem?
  intro p
  by_cases hp : p < N
  · obtain ⟨o, g1, g2, g3⟩ := h3 p hp
    obtain ⟨o', g1', g2', g3'⟩ := h3' p hp
    rw [g1, g1']
    congr 1
    apply List.ext_getElem?
    intro i
    by_cases hi : i < nt p * nc
    · have ht : i / nc < nt p := by rw [Nat.div_lt_iff_lt_mul h.comp]; exact hi
      have hk := Nat.mod_lt i h.comp
      have hik : i = i / nc * nc + i % nc := by rw [Nat.mul_comm]; exact (Nat.div_add_mod i nc).symm
      have hcell : (onCell (allContribs todo srcIds trgIds mat p) (i / nc)).Perm (onCell (allContribs todo' srcIds' trgIds' mat' p) (i / nc)) := (hsame p hp).filter _
      rw [hik, g3 _ _ ht hk, g3' _ _ ht hk]
      congr 1
      by_cases he : onCell (allContribs todo srcIds trgIds mat p) (i / nc) = []
      · rw [if_pos he, if_pos]
        rw [he] at hcell
        exact hcell.nil_eq.symm
      · rw [if_neg he, if_neg]
        · rw [(hcell.map (·.m)).sum_eq]
          exact (hcell.map _).sum_eq
        · intro hc
          rw [hc] at hcell
          exact he hcell.eq_nil
    · rw [List.getElem?_eq_none (by omega), List.getElem?_eq_none (by omega)]
  · rw [List.getElem?_eq_none (by omega), List.getElem?_eq_none (by omega)]

end proof

/-- two processors, each with two source cells and two target cells; processor 1 has been sent the source cell 1 of processor 0 and processor 0 the source cell 1 of processor 1 -/
example : overlapRun (K := Rat) 1 (-5) [[cpl 0 0, cpl 1 0], [cpl 0 1, cpl 1 1]] (fun p _ => if p = 0 then [1] else [1]) (fun _ _ => [0, 1])
    (fun c => if c = cpl 0 0 then [[(0, 2)], []] else if c = cpl 1 0 then [[(0, 6)], []] else if c = cpl 0 1 then [[(0, 1)], [(0, 1)]] else [[(1, 1)], []])
    [[10, 20], [30, 40]] [2, 2] = .ok [[(10 * 2 + 40 * 6) / 8, -5], [(20 + 40) / 2, 20]] := by
  decide +kernel

/-- the same transfer when processor 0 does the work of both pairs of different processors: the matrix is sent to processor 1 -/
example : overlapRun (K := Rat) 1 (-5) [[cpl 0 0, cpl 0 1, cpl 1 0], [cpl 1 1]] (fun p _ => if p = 0 then [1] else [1]) (fun _ _ => [0, 1])
    (fun c => if c = cpl 0 0 then [[(0, 2)], []] else if c = cpl 1 0 then [[(0, 6)], []] else if c = cpl 0 1 then [[(1, 1)], [(1, 1)]] else [[(1, 1)], []])
    [[10, 20], [30, 40]] [2, 2] = .ok [[(10 * 2 + 40 * 6) / 8, -5], [(20 + 40) / 2, 20]] := by
  decide +kernel

/-- the first run is one of those of the theorem -/
example : OvOk (K := Rat) 2 1 [cpl 0 0, cpl 0 1, cpl 1 0, cpl 1 1] [[cpl 0 0, cpl 1 0], [cpl 0 1, cpl 1 1]] (fun p _ => if p = 0 then [1] else [1]) (fun _ _ => [0, 1])
    (fun c => if c = cpl 0 0 then [[(0, 2)], []] else if c = cpl 1 0 then [[(0, 6)], []] else if c = cpl 0 1 then [[(0, 1)], [(0, 1)]] else [[(1, 1)], []])
    (fun _ => 2) (fun _ => 2) (fun p => if p = 0 then [10, 20] else [30, 40]) := by
  refine ⟨by decide, by decide, ⟨rfl, ?_, ?_, ?_⟩, by decide, ?_, ?_, ?_, ?_, ?_, ?_, ?_, by decide⟩
  · rintro (_ | _ | p) l hl <;> simp at hl <;> subst hl <;> decide
  · rintro (_ | _ | p) l c hl <;> simp at hl <;> subst hl <;> revert c <;> decide
  · intro c hc
    have hc' : c = cpl 0 0 ∨ c = cpl 0 1 ∨ c = cpl 1 0 ∨ c = cpl 1 1 := by simpa using hc
    rcases hc' with rfl | rfl | rfl | rfl
    · refine ⟨0, _, rfl, by decide, ?_⟩
      rintro (_ | _ | p) l hl hm <;> simp at hl <;> subst hl
      · rfl
      · exact absurd hm (by decide)
    · refine ⟨1, _, rfl, by decide, ?_⟩
      rintro (_ | _ | p) l hl hm <;> simp at hl <;> subst hl
      · exact absurd hm (by decide)
      · rfl
    · refine ⟨0, _, rfl, by decide, ?_⟩
      rintro (_ | _ | p) l hl hm <;> simp at hl <;> subst hl
      · rfl
      · exact absurd hm (by decide)
    · refine ⟨1, _, rfl, by decide, ?_⟩
      rintro (_ | _ | p) l hl hm <;> simp at hl <;> subst hl
      · exact absurd hm (by decide)
      · rfl
  · simp only [StrictSorted]; decide
  · rintro (_ | _ | p) l c hl <;> simp at hl <;> subst hl <;> revert c <;> decide
  · rintro (_ | _ | p) l c hl <;> simp at hl <;> subst hl <;> revert c <;> decide
  · rintro (_ | _ | p) l c hl <;> simp at hl <;> subst hl <;> revert c <;> decide
  · rintro (_ | _ | p) l c hl <;> simp at hl <;> subst hl <;> revert c <;> decide
  · intro p q i; split <;> simp <;> omega
  · intro p q i hi; simp at hi; omega

end MC
