import Verif.OverlapMap
import Verif.OverlapXchThm
import Verif.OverlapLocThm
import Verif.StructDecThm
import Mathlib.Tactic.Ring

/-!
# The distributed matrix of `OverlapDEC`: lemmas
-/

namespace MC

/-! ## Generalities -/

theorem foldlM_acc {σ α β : Type} (Inv : List β → σ → Prop) (g : α → List β) (f : σ → α → M σ) : ∀ (l : List α),
    (∀ x ∈ l, ∀ E s, Inv E s → ∃ s', f s x = .ok s' ∧ Inv (E ++ g x) s') → ∀ E s, Inv E s → ∃ s', l.foldlM f s = .ok s' ∧ Inv (E ++ (l.map g).flatten) s'
  | [], _, E, s, h => ⟨s, rfl, by simpa using h⟩
  | x :: l, hstep, E, s, h => by
    obtain ⟨s1, h1, h2⟩ := hstep x (by simp) E s h
    obtain ⟨s2, h3, h4⟩ := foldlM_acc Inv g f l (fun y hy => hstep y (by simp [hy])) _ _ h2
    refine ⟨s2, ?_, ?_⟩
    · rw [List.foldlM_cons, h1, ok_bind, h3]
    · simpa using h4

/-- the map after many assignments whose values depend on the keys only -/
theorem mapSet_fold_find {α β : Type} (P : α → Prop) [DecidablePred P] (k : α → Nat) (V : Nat → β) (v : α → β) (hv : ∀ x, P x → v x = V (k x)) (i : Nat) :
    ∀ (l : List α) (m : List (Nat × β)), mapFind (l.foldl (fun m x => if P x then mapSet m (k x) (v x) else m) m) i =
      if ∃ x ∈ l, P x ∧ k x = i then some (V i) else mapFind m i
  | [], m => by simp
  | x :: l, m => by
    rw [List.foldl_cons, mapSet_fold_find P k V v hv i l]
    by_cases h : ∃ y ∈ l, P y ∧ k y = i
    · have h' : ∃ y ∈ x :: l, P y ∧ k y = i := by
        obtain ⟨y, hy, hy2⟩ := h
        exact ⟨y, by simp [hy], hy2⟩
      rw [if_pos h, if_pos h']
    · rw [if_neg h]
      by_cases hx : P x
      · rw [if_pos hx, mapFind_set]
        by_cases hi : i = k x
        · rw [if_pos hi, if_pos ⟨x, by simp, hx, hi.symm⟩, hv x hx, hi]
        · rw [if_neg hi, if_neg]
          rintro ⟨y, hy, hy1, hy2⟩
          rcases List.mem_cons.1 hy with rfl | hy
          · exact hi hy2.symm
          · exact h ⟨y, hy, hy1, hy2⟩
      · rw [if_neg hx, if_neg]
        rintro ⟨y, hy, hy1, hy2⟩
        rcases List.mem_cons.1 hy with rfl | hy
        · exact hx hy1
        · exact h ⟨y, hy, hy1, hy2⟩

theorem mapSet_append {β : Type} : ∀ {m : List (Nat × β)} {k : Nat} (v : β), (∀ e ∈ m, e.1 < k) → mapSet m k v = m ++ [(k, v)]
  | [], _, _, _ => rfl
  | (a, b) :: m, k, v, h => by
    have ha : a < k := h (a, b) (by simp)
    unfold mapSet
    rw [if_neg (by omega), if_neg (by omega), mapSet_append v fun e he => h e (by simp [he])]
    rfl

/-- A range written block by block gives back the blocks: all processors exchange the pieces `F i q`. -/
theorem allToAllV_cat {α : Type} (N : Nat) (F : Nat → Nat → List (Option α)) (snds : List (Snd α)) (rcvs : List (Rcv α))
    (hs : snds = (List.range N).map fun i => { buf := cat N (F i), counts := (List.range N).map fun q => (F i q).length, displs := (List.range N).map fun q => some (cat q (F i)).length })
    (hr : rcvs = (List.range N).map fun me => { buf := List.replicate (cat N fun i => F i me).length none, counts := (List.range N).map fun i => (F i me).length, displs := (List.range N).map fun i => some (cat i fun i => F i me).length }) :
    allToAllV snds rcvs = .ok ((List.range N).map fun me => cat N fun i => F i me) := by
  have hgm : ∀ {β : Type} (g : Nat → β) {q : Nat}, q < N → ((List.range N).map g)[q]? = some (g q) := by
    intro β g q hq
    rw [List.getElem?_map, List.getElem?_range hq]; rfl
  unfold allToAllV
  rw [show rcvs.length = N by rw [hr]; simp]
  apply dec_mapM_ok
  intro me hme
  have hme := List.mem_range.1 hme
  rw [hr, vget_ok (hgm _ hme), ok_bind, show snds.length = N by rw [hs]; simp]
  apply recvFrom_ok
  · intro i hi
    refine ⟨_, by rw [hs]; exact hgm _ hi, hgm _ hme, fun _ => ⟨(cat me (F i)).length, hgm _ hme, ?_, ?_⟩⟩
    · exact cat_drop _ hme
    · exact cat_length_mono _ hme
  · intro i hi
    exact hgm _ hi
  · intro i hi _
    exact hgm _ hi
  · simp

theorem zipIdx_map_range {α β : Type} (l : List α) (g : α → Nat → β) (d : α) : l.zipIdx.map (fun x => g x.1 x.2) = (List.range l.length).map fun i => g (l.getD i d) i := by
  apply List.ext_getElem
  · simp
  · intro i h1 h2
    simp at h1
    simp [h1]

theorem range_map_get {β : Type} (N : Nat) (g : Nat → β) {q : Nat} (hq : q < N) : ((List.range N).map g)[q]? = some (g q) := by
  rw [List.getElem?_map, List.getElem?_range hq]; rfl

theorem vget_range {β : Type} (N : Nat) (g : Nat → β) {q : Nat} (hq : q < N) : vget ((List.range N).map g) q = .ok (g q) := vget_ok (range_map_get N g hq)

section lists
variable {N me : Nat} {mine : List Couple}

/-- counters written by target -/
theorem tgtCount_fold (w : Couple → Nat) (P : Couple → Prop) [DecidablePred P] (hN : ∀ c ∈ mine, c.tgt < N) :
    mine.foldlM (fun cnt c => if c.src = me ∧ P c then vset cnt c.tgt (w c) else return cnt) (List.replicate N 0) =
      (.ok ((List.range N).map fun q => if cpl me q ∈ mine ∧ P (cpl me q) then w (cpl me q) else 0) : M (List Nat)) := by
  have key : ∀ (l d : List Couple), (∀ c ∈ l, c.tgt < N) → l.foldlM (fun cnt c => if c.src = me ∧ P c then vset cnt c.tgt (w c) else return cnt)
      ((List.range N).map fun q => if cpl me q ∈ d ∧ P (cpl me q) then w (cpl me q) else 0) =
      (.ok ((List.range N).map fun q => if cpl me q ∈ d ++ l ∧ P (cpl me q) then w (cpl me q) else 0) : M (List Nat)) := by
    intro l
    induction l with
    | nil => intro d _; simp; rfl
    | cons c l ih =>
      intro d h
      have h2 := ih (d ++ [c]) fun c hc => h c (by simp [hc])
      rw [List.append_assoc, List.singleton_append] at h2
      rw [List.foldlM_cons]
      by_cases hc : c.src = me ∧ P c
      · have hcc : cpl me c.tgt = c := by rw [← hc.1]; exact cpl_eta c
        rw [if_pos hc, vset_ok (by simpa using h c (by simp)), ok_bind, ← h2]
        congr 1
        apply List.ext_getElem?
        intro i
        by_cases hi : i < N
        · rw [List.getElem?_set, range_map_get _ _ hi, range_map_get _ _ hi]
          by_cases hi2 : c.tgt = i
          · subst hi2
            rw [if_pos rfl, if_pos (by simpa using hi), if_pos (by rw [hcc]; exact ⟨by simp, hc.2⟩), hcc]
          · rw [if_neg hi2]
            have : ∀ x, cpl me i ∈ x ++ [c] ↔ cpl me i ∈ x := by
              intro x
              rw [List.mem_append, List.mem_singleton]
              refine ⟨fun h => h.resolve_right ?_, Or.inl⟩
              intro e
              rw [← e] at hi2
              exact hi2 rfl
            simp only [this]
        · rw [List.getElem?_eq_none (by simp; omega), List.getElem?_eq_none (by simp; omega)]
      · rw [if_neg hc]
        show ((.ok _ : M _) >>= _) = _
        rw [ok_bind, ← h2]
        congr 1
        apply List.map_congr_left
        intro i _
        have : cpl me i ∈ d ++ [c] ∧ P (cpl me i) ↔ cpl me i ∈ d ∧ P (cpl me i) := by
          rw [List.mem_append, List.mem_singleton]
          refine ⟨fun h => ⟨h.1.resolve_right ?_, h.2⟩, fun h => ⟨.inl h.1, h.2⟩⟩
          intro e
          rw [← e] at hc
          exact hc ⟨rfl, h.2⟩
        simp only [this]
  have h0 := key mine [] hN
  simp only [List.nil_append] at h0
  rw [← h0]
  congr 1
  apply List.ext_getElem
  · simp
  · intro i h1 h2; simp

/-- in an increasing list the couples with source `me` come in the order of their targets -/
theorem sorted_cat {β : Type} (hs : mine.Pairwise (· < ·)) (hN : ∀ c ∈ mine, c.tgt < N) (X : Couple → List β) (hX : ∀ c ∈ mine, c.src ≠ me → X c = []) :
    (mine.map X).flatten = cat N fun q => if cpl me q ∈ mine then X (cpl me q) else [] := by
  have h1 : (mine.map X).flatten = (((mine.filter fun c => decide (c.src = me)).map Couple.tgt).map fun q => X (cpl me q)).flatten := by
    rw [show (mine.map X).flatten = (mine.map fun c => if decide (c.src = me) then X c else []).flatten from ?_, flatten_map_filter, List.map_map]
    · congr 1
      apply List.map_congr_left
      intro c hc
      have : c.src = me := by simpa using (List.mem_filter.1 hc).2
      show X c = X (cpl me c.tgt)
      rw [← this, cpl_eta]
    · congr 1
      apply List.map_congr_left
      intro c hc
      by_cases h : c.src = me
      · simp [h]
      · simp [h, hX c hc h]
  have hg : GroupIn N ((mine.filter fun c => decide (c.src = me)).map Couple.tgt) := by
    refine ⟨?_, ?_⟩
    · rw [List.pairwise_map]
      refine (List.Pairwise.and_mem.1 (hs.filter _)).imp ?_
      rintro a b ⟨ha, hb, hab⟩
      have h1 : a.src = me := by simpa using (List.mem_filter.1 ha).2
      have h2 : b.src = me := by simpa using (List.mem_filter.1 hb).2
      rw [← cpl_eta a, ← cpl_eta b, cpl_lt, h1, h2] at hab
      omega
    · intro w hw
      obtain ⟨c, hc, rfl⟩ := List.mem_map.1 hw
      exact hN c (List.mem_filter.1 hc).1
  have hmem : ∀ q, q ∈ (mine.filter fun c => decide (c.src = me)).map Couple.tgt ↔ cpl me q ∈ mine := by
    intro q
    rw [List.mem_map]
    constructor
    · rintro ⟨c, hc, rfl⟩
      have := List.mem_filter.1 hc
      have h2 : c.src = me := by simpa using this.2
      rw [← h2, cpl_eta]; exact this.1
    · intro h
      exact ⟨_, List.mem_filter.2 ⟨h, by simp⟩, rfl⟩
  rw [h1, ← hg.cat]
  · generalize hG : (mine.filter fun c => decide (c.src = me)).map Couple.tgt = G at *
    unfold cat
    congr 1
    apply List.ext_getElem
    · simp
    · intro i h1 h2
      simp only [List.length_map] at h1
      have : G[i] ∈ G := List.getElem_mem _
      simp [h1, (hmem _).1 this]
  · intro w hw
    rw [if_neg]
    intro h
    exact hw ((hmem w).2 h)

end lists


section world
variable {K : Type} [Field K] {N me : Nat} {W : List Couple} {todo : List (List Couple)} {srcIds trgIds : Nat → Nat → List Nat} {mat : Couple → List (SRow K)}

/-- the job of a couple -/
def jobOf (mat : Couple → List (SRow K)) (c : Couple) : Job K := { src := c.src, tgt := c.tgt, mat := mat c }

theorem add_fold (me : Nat) (mine : List Couple) (m0 : OMap K) :
    let m := mine.foldl (fun m c => m.add (mat c) (if c.src = me then none else some (srcIds c.src me)) c.src c.tgt) m0
    m.jobs = m0.jobs ++ mine.map (jobOf mat) ∧ m.sentSrc = m0.sentSrc ∧ m.sentTrg = m0.sentTrg ∧ m.zipRecv = m0.zipRecv ∧
    m.nbRcv = mine.foldl (fun r c => if c.src ≠ me then mapSet r c.src (srcIds c.src me).length else r) m0.nbRcv ∧
    m.zipComp = mine.foldl (fun r c => if c.src = me then mapSet r c.tgt (colSet (mat c)) else r) m0.zipComp := by
  induction mine generalizing m0 with
  | nil => simp
  | cons c l ih =>
    obtain ⟨h1, h2, h3, h4, h5, h6⟩ := ih (m0.add (mat c) (if c.src = me then none else some (srcIds c.src me)) c.src c.tgt)
    simp only [List.foldl_cons]
    by_cases hc : c.src = me
    · simp only [hc, if_true, ne_eq, not_true_eq_false, if_false] at h1 h2 h3 h4 h5 h6 ⊢
      refine ⟨?_, h2, h3, h4, h5, h6⟩
      rw [h1]
      simp [OMap.add, jobOf, hc]
    · simp only [hc, if_false, ne_eq, not_false_eq_true, if_true] at h1 h2 h3 h4 h5 h6 ⊢
      refine ⟨?_, h2, h3, h4, h5, h6⟩
      rw [h1]
      simp [OMap.add, jobOf]

theorem keep_fold (srcIds trgIds : Nat → Nat → List Nat) (me : Nat) (l : List ProcMesh) (m0 : OMap K) :
    let m := l.foldl (fun m x => if (ofLex x).2 then { m with sentSrc := mapSet m.sentSrc (ofLex x).1 (srcIds me (ofLex x).1) }
      else { m with sentTrg := mapSet m.sentTrg (ofLex x).1 (trgIds me (ofLex x).1) }) m0
    m.jobs = m0.jobs ∧ m.zipRecv = m0.zipRecv ∧ m.nbRcv = m0.nbRcv ∧ m.zipComp = m0.zipComp ∧
    m.sentSrc = l.foldl (fun r x => if (ofLex x).2 = true then mapSet r (ofLex x).1 (srcIds me (ofLex x).1) else r) m0.sentSrc ∧
    m.sentTrg = l.foldl (fun r x => if (ofLex x).2 = false then mapSet r (ofLex x).1 (trgIds me (ofLex x).1) else r) m0.sentTrg := by
  induction l generalizing m0 with
  | nil => simp
  | cons x l ih =>
    simp only [List.foldl_cons]
    cases hx : (ofLex x).2
    · have := ih { m0 with sentTrg := mapSet m0.sentTrg (ofLex x).1 (trgIds me (ofLex x).1) }
      simpa [hx] using this
    · have := ih { m0 with sentSrc := mapSet m0.sentSrc (ofLex x).1 (srcIds me (ofLex x).1) }
      simpa [hx] using this

/-- What a processor knows before the exchange of the matrices -/
structure Filled (todo : List (List Couple)) (srcIds trgIds : Nat → Nat → List Nat) (mat : Couple → List (SRow K)) (me : Nat) (mine : List Couple) (m : OMap K) : Prop where
  jobs : m.jobs = mine.map (jobOf mat)
  zipRecv : m.zipRecv = []
  nbRcv : ∀ s, s ≠ me → cpl s me ∈ mine → mapFind m.nbRcv s = some (srcIds s me).length
  zipComp : ∀ t, cpl me t ∈ mine → mapFind m.zipComp t = some (colSet (mat (cpl me t)))
  sentSrc : ∀ i l, todo[i]? = some l → i ≠ me → cpl me i ∈ l → mapFind m.sentSrc i = some (srcIds me i)
  sentTrg : ∀ i l, todo[i]? = some l → i ≠ me → cpl i me ∈ l → mapFind m.sentTrg i = some (trgIds me i)
  sentTrg_none : ∀ i, (∀ l, todo[i]? = some l → cpl i me ∉ l) → mapFind m.sentTrg i = none

theorem fillMap_ok (h : TodoOk N todo) {mine : List Couple} (hm : todo[me]? = some mine) : Filled todo srcIds trgIds mat me mine (fillMap srcIds trgIds mat todo me mine) := by
  have hk := keep_fold (K := K) srcIds trgIds me (procsToSendMesh me todo) {}
  have ha := add_fold (K := K) (srcIds := srcIds) (mat := mat) me mine ((procsToSendMesh me todo).foldl (fun m x => if (ofLex x).2 then { m with sentSrc := mapSet m.sentSrc (ofLex x).1 (srcIds me (ofLex x).1) }
      else { m with sentTrg := mapSet m.sentTrg (ofLex x).1 (trgIds me (ofLex x).1) }) {})
  obtain ⟨k1, k2, k3, k4, k5, k6⟩ := hk
  obtain ⟨a1, a2, a3, a4, a5, a6⟩ := ha
  refine ⟨?_, ?_, ?_, ?_, ?_, ?_, ?_⟩
  · unfold fillMap; rw [a1, k1]; rfl
  · unfold fillMap; rw [a4, k2]
  · intro s hs hmem
    unfold fillMap
    rw [a5, mapSet_fold_find (fun c : Couple => c.src ≠ me) Couple.src (fun s => (srcIds s me).length) _ (fun _ _ => rfl), if_pos]
    exact ⟨_, hmem, hs, rfl⟩
  · intro t hmem
    unfold fillMap
    rw [a6, mapSet_fold_find (fun c : Couple => c.src = me) Couple.tgt (fun t => colSet (mat (cpl me t))) _ (fun c hc => by rw [← hc, cpl_eta]), if_pos]
    exact ⟨_, hmem, rfl, rfl⟩
  · intro i l hl hi hmem
    unfold fillMap
    rw [a2, k5, mapSet_fold_find (fun x : ProcMesh => (ofLex x).2 = true) (fun x => (ofLex x).1) (srcIds me) _ (fun _ _ => rfl), if_pos]
    exact ⟨procMesh i true, (mem_toSend h).2 ⟨l, hl, fun e => hi e.symm, by simpa using hmem⟩, rfl, rfl⟩
  · intro i l hl hi hmem
    unfold fillMap
    rw [a3, k6, mapSet_fold_find (fun x : ProcMesh => (ofLex x).2 = false) (fun x => (ofLex x).1) (trgIds me) _ (fun _ _ => rfl), if_pos]
    exact ⟨procMesh i false, (mem_toSend h).2 ⟨l, hl, fun e => hi e.symm, by simpa using hmem⟩, rfl, rfl⟩
  · intro i hno
    unfold fillMap
    rw [a3, k6, mapSet_fold_find (fun x : ProcMesh => (ofLex x).2 = false) (fun x => (ofLex x).1) (trgIds me) _ (fun _ _ => rfl), if_neg]
    · rfl
    · rintro ⟨x, hx, h1, h2⟩
      rw [← procMesh_eta x, h1, h2] at hx
      obtain ⟨l, hl, hn, hmem⟩ := (mem_toSend h).1 hx
      exact hno l hl (by simpa using hmem)

/-! ## The exchange of the matrices -/

/-- the matrix sent by `p` to `q` -/
def sentMat (todo : List (List Couple)) (mat : Couple → List (SRow K)) (p q : Nat) : List (SRow K) := if cpl p q ∈ todo.getD p [] then mat (cpl p q) else []

/-- the beginnings of the rows -/
def rowStarts (rows : List (SRow K)) : List Nat := (List.range (rows.length + 1)).map fun k => ((rows.take k).map List.length).sum

/-- the beginnings sent -/
def startsPiece (rows : List (SRow K)) : List (Option Nat) := if rows = [] then [] else (rowStarts rows).map some

theorem rowsToSend_ok (h : TodoOk N todo) {mine : List Couple} (hm : todo[me]? = some mine) :
    rowsToSend N me (mine.map (jobOf mat)) = .ok ((List.range N).map fun q => (sentMat todo mat me q).length) := by
  have := tgtCount_fold (N := N) (me := me) (mine := mine) (fun c => (mat c).length) (fun _ => True) (fun c hc => (h.own me mine c hm hc).1.2)
  unfold rowsToSend
  rw [List.foldlM_map]
  simp only [and_true] at this
  rw [show (fun (cnt : List Nat) (c : Couple) => if (jobOf mat c).src = me then vset cnt (jobOf mat c).tgt (jobOf mat c).mat.length else return cnt) =
    fun cnt c => if c.src = me then vset cnt c.tgt (mat c).length else return cnt from rfl, this]
  congr 1
  apply List.map_congr_left
  intro q _
  unfold sentMat
  rw [List.getD_eq_getElem?_getD, hm]
  simp only [Option.getD_some]
  split <;> rfl

theorem allToAll1_ok {α : Type} (N : Nat) (g : Nat → Nat → α) : allToAll1 ((List.range N).map fun p => (List.range N).map (g p)) =
    .ok ((List.range N).map fun me => (List.range N).map fun p => g p me) := by
  unfold allToAll1
  simp only [List.length_map, List.length_range]
  apply dec_mapM_ok
  intro q hq
  have hq := List.mem_range.1 hq
  rw [List.mapM_map]
  apply dec_mapM_ok
  intro p _
  exact vget_range N _ hq

theorem known_some {α : Type} (a : α) : known (some a) = .ok a := rfl

theorem startsPiece_length (rows : List (SRow K)) : (startsPiece rows).length = if rows = [] then 0 else rows.length + 1 := by
  unfold startsPiece rowStarts
  split <;> simp

/-- the inner loop of step 0: the beginnings are written one after the other in the piece of a processor -/
theorem starts_write {Q : Nat} (G : Nat → List (Option Nat)) (hQ : Q < N) (rows : List (SRow K)) :
    ∀ (pre : List (Option Nat)) (x : Nat), G Q = pre ++ some x :: List.replicate rows.length none →
    rows.foldlM (fun (bw : List (Option Nat) × Nat) row => do
        let y ← known (← vget bw.1 bw.2)
        let buf ← vset bw.1 (bw.2 + 1) (some (y + row.length))
        return (buf, bw.2 + 1)) (cat N G, (cat Q G).length + pre.length) =
      (.ok (cat N (fun i => if i = Q then pre ++ (rowStarts rows).map (fun d => some (x + d)) else G i), (cat Q G).length + pre.length + rows.length) : M _) := by
  induction rows generalizing G with
  | nil =>
    intro pre x hG
    simp only [List.foldlM_nil]
    congr 2
    apply cat_congr
    intro i _
    by_cases hi : i = Q
    · subst hi; rw [if_pos rfl, hG]; simp [rowStarts]
    · rw [if_neg hi]
  | cons row rows ih =>
    intro pre x hG
    rw [List.foldlM_cons]
    have hlen : (G Q).length = pre.length + 1 + (rows.length + 1) := by rw [hG]; simp; omega
    have h1 : vget (cat N G) ((cat Q G).length + pre.length) = .ok (some x) := by
      apply vget_ok
      rw [cat_get G hQ (by omega), hG]; simp
    have hm := cat_length_mono G hQ
    simp only [h1, ok_bind, known_some, vset_ok (show (cat Q G).length + pre.length + 1 < (cat N G).length by omega)]
    have hset := cat_set G hQ (k := pre.length + 1) (by omega) (some (x + row.length))
    rw [← Nat.add_assoc] at hset
    rw [hset]
    show ((.ok _ : M _) >>= _) = _
    rw [ok_bind]
    have hG' : (fun i => if i = Q then (G Q).set (pre.length + 1) (some (x + row.length)) else G i) Q = (pre ++ [some x]) ++ some (x + row.length) :: List.replicate rows.length none := by
      show (if Q = Q then _ else _) = _
      rw [if_pos rfl, hG]
      simp [List.replicate_succ]
    have hc : cat Q (fun i => if i = Q then (G Q).set (pre.length + 1) (some (x + row.length)) else G i) = cat Q G := cat_congr fun i hi => by rw [if_neg (by omega)]
    have := ih (fun i => if i = Q then (G Q).set (pre.length + 1) (some (x + row.length)) else G i) (pre ++ [some x]) (x + row.length) hG'
    rw [hc] at this
    rw [show (cat Q G).length + pre.length + 1 = (cat Q G).length + (pre ++ [some x]).length by simp; omega, this]
    congr 2
    · apply cat_congr
      intro i _
      by_cases hi : i = Q
      · subst hi
        simp only [if_true]
        rw [List.append_assoc]
        congr 1
        unfold rowStarts
        rw [List.length_cons, List.range_succ_eq_map (n := rows.length + 1)]
        simp [Function.comp_def, Nat.add_assoc]
      · simp [hi]
    · simp; omega

theorem step0Send_ok (h : TodoOk N todo) {mine : List Couple} (hm : todo[me]? = some mine) : step0Send N me (mine.map (jobOf mat)) =
    .ok { buf := cat N fun q => startsPiece (sentMat todo mat me q), counts := (List.range N).map fun q => (startsPiece (sentMat todo mat me q)).length,
          displs := (List.range N).map fun q => some (cat q fun q => startsPiece (sentMat todo mat me q)).length } := by
  have hN : 0 < N := by
    have := (List.getElem?_eq_some_iff.1 hm).1
    rw [h.len] at this; omega
  have hgetD : todo.getD me [] = mine := by rw [List.getD_eq_getElem?_getD, hm]; rfl
  have htgt : ∀ c ∈ mine, c.tgt < N := fun c hc => (h.own me mine c hm hc).1.2
  have hcnt := tgtCount_fold (N := N) (me := me) (mine := mine) (fun c => (mat c).length + 1) (fun c => mat c ≠ []) htgt
  have hcnt' : (List.range N).map (fun q => if cpl me q ∈ mine ∧ mat (cpl me q) ≠ [] then (mat (cpl me q)).length + 1 else 0) =
      (List.range N).map fun q => (startsPiece (sentMat todo mat me q)).length := by
    apply List.map_congr_left
    intro q _
    rw [startsPiece_length]
    unfold sentMat
    rw [hgetD]
    by_cases h1 : cpl me q ∈ mine
    · by_cases h2 : mat (cpl me q) = [] <;> simp [h1, h2]
    · simp [h1]
  rw [hcnt'] at hcnt
  have hszz : ((mine.map (jobOf mat)).map fun j => if j.src = me ∧ j.mat ≠ [] then j.mat.length + 1 else 0).sum = (cat N fun q => startsPiece (sentMat todo mat me q)).length := by
    have := congrArg List.length (sorted_cat (N := N) (me := me) (h.sorted me mine hm) htgt (fun c => if c.src = me then startsPiece (mat c) else []) (fun c _ hc => by rw [if_neg hc]))
    rw [List.length_flatten, List.map_map] at this
    rw [List.map_map]
    calc _ = _ := ?_
      _ = _ := this
      _ = _ := ?_
    · congr 1
      apply List.map_congr_left
      intro c _
      simp only [Function.comp_apply, jobOf]
      by_cases h1 : c.src = me
      · rw [if_pos h1, startsPiece_length]
        by_cases h2 : mat c = [] <;> simp [h1, h2]
      · simp [h1]
    · congr 1
      apply cat_congr
      intro q _
      unfold sentMat
      rw [hgetD]
      by_cases h1 : cpl me q ∈ mine
      · simp [h1]
      · simp [h1, startsPiece]
  have hw := worldDispls_ok hN (fun q => (startsPiece (sentMat todo mat me q)).length)
  unfold step0Send
  rw [List.foldlM_map]
  rw [show (fun (cnt : List Nat) (c : Couple) => if (jobOf mat c).src = me ∧ (jobOf mat c).mat ≠ [] then vset cnt (jobOf mat c).tgt ((jobOf mat c).mat.length + 1) else return cnt) =
    fun cnt c => if c.src = me ∧ mat c ≠ [] then vset cnt c.tgt ((mat c).length + 1) else return cnt from rfl, hcnt, ok_bind]
  rw [hszz, hw, ok_bind, List.foldlM_map]
  rw [show (List.range N).map (psum fun q => (startsPiece (sentMat todo mat me q)).length) = (List.range N).map fun q => (cat q fun q => startsPiece (sentMat todo mat me q)).length from
    List.map_congr_left fun q _ => psum_cat _ q]
  have key : ∀ (l d : List Couple), (d ++ l) = mine →
      l.foldlM (fun buf c => if (jobOf mat c).src = me ∧ (jobOf mat c).mat ≠ [] then do
        let start ← vget ((List.range N).map fun q => (cat q fun q => startsPiece (sentMat todo mat me q)).length) (jobOf mat c).tgt
        let buf ← vset buf start (some 0)
        let r ← (jobOf mat c).mat.foldlM (fun (bw : List (Option Nat) × Nat) row => do
          let x ← known (← vget bw.1 bw.2)
          let buf ← vset bw.1 (bw.2 + 1) (some (x + row.length))
          return (buf, bw.2 + 1)) (buf, start)
        return r.1
      else return buf) (cat N fun q => if cpl me q ∈ d then startsPiece (sentMat todo mat me q) else List.replicate (startsPiece (sentMat todo mat me q)).length none) =
      (.ok (cat N fun q => if cpl me q ∈ d ++ l then startsPiece (sentMat todo mat me q) else List.replicate (startsPiece (sentMat todo mat me q)).length none) : M _) := by
    intro l
    induction l with
    | nil => intro d _; simp; rfl
    | cons c l ih =>
      intro d hd
      have hcm : c ∈ mine := by rw [← hd]; simp
      have hnd : (d ++ c :: l).Nodup := by rw [hd]; exact StrictSorted.nodup (h.sorted me mine hm)
      have hcd : c ∉ d := by
        intro hc
        exact (List.nodup_append.1 hnd).2.2 c hc c (by simp) rfl
      rw [List.foldlM_cons]
      have h2 := ih (d ++ [c]) (by rw [← hd]; simp)
      rw [List.append_assoc, List.singleton_append] at h2
      by_cases hc : c.src = me ∧ mat c ≠ []
      · have hcc : cpl me c.tgt = c := by rw [← hc.1]; exact cpl_eta c
        have hsm : sentMat todo mat me c.tgt = mat c := by unfold sentMat; rw [hgetD, hcc, if_pos hcm]
        have hlt : c.tgt < N := htgt c hcm
        rw [if_pos (show (jobOf mat c).src = me ∧ (jobOf mat c).mat ≠ [] from hc)]
        let G := fun q => if cpl me q ∈ d then startsPiece (sentMat todo mat me q) else List.replicate (startsPiece (sentMat todo mat me q)).length (none : Option Nat)
        have hGl : ∀ q, (G q).length = (startsPiece (sentMat todo mat me q)).length := by
          intro q
          show (if _ then _ else _ : List (Option Nat)).length = _
          split <;> simp
        have hGt : G c.tgt = List.replicate ((mat c).length + 1) none := by
          show (if cpl me c.tgt ∈ d then _ else _ : List (Option Nat)) = _
          rw [hcc, if_neg hcd, hsm, startsPiece_length, if_neg hc.2]
        have hstart : (cat c.tgt fun q => startsPiece (sentMat todo mat me q)).length = (cat c.tgt G).length := by
          rw [cat_length, cat_length]
          simp only [hGl]
        have hmono := cat_length_mono G hlt
        rw [hGt, List.length_replicate] at hmono
        simp only [show (jobOf mat c).tgt = c.tgt from rfl, show (jobOf mat c).mat = mat c from rfl]
        rw [vget_range N _ hlt, ok_bind, hstart]
        show ((vset (cat N G) _ _ >>= _) >>= _) = _
        rw [vset_ok (show (cat c.tgt G).length < (cat N G).length by omega), ok_bind]
        have hset := cat_set G hlt (k := 0) (by rw [hGt]; simp) (some 0)
        rw [Nat.add_zero] at hset
        rw [hset]
        have hcq : cat c.tgt (fun i => if i = c.tgt then (G c.tgt).set 0 (some 0) else G i) = cat c.tgt G := cat_congr fun i hi => by rw [if_neg (by omega)]
        have hsw := starts_write (K := K) (N := N) (Q := c.tgt) (fun i => if i = c.tgt then (G c.tgt).set 0 (some 0) else G i) hlt (mat c) [] 0 (by
          show (if c.tgt = c.tgt then _ else _) = _
          rw [if_pos rfl, hGt]; simp [List.replicate_succ])
        rw [hcq, List.length_nil, Nat.add_zero] at hsw
        rw [hsw]
        show ((.ok _ : M _) >>= _) = _
        rw [ok_bind, ← h2]
        congr 1
        apply cat_congr
        intro q _
        by_cases hq : q = c.tgt
        · subst hq
          simp only [if_true, List.nil_append, Nat.zero_add]
          rw [hcc, if_pos (by simp), hsm]
          unfold startsPiece
          rw [if_neg hc.2]
        · simp only [hq, if_false]
          show (if cpl me q ∈ d then _ else _ : List (Option Nat)) = _
          have : cpl me q ∈ d ++ [c] ↔ cpl me q ∈ d := by
            rw [List.mem_append, List.mem_singleton]
            refine ⟨fun h => h.resolve_right ?_, Or.inl⟩
            intro e
            rw [← e] at hq
            exact hq rfl
          simp only [this]
      · rw [if_neg (show ¬ ((jobOf mat c).src = me ∧ (jobOf mat c).mat ≠ []) from hc)]
        show ((.ok _ : M _) >>= _) = _
        rw [ok_bind, ← h2]
        congr 1
        apply cat_congr
        intro q _
        by_cases hq : cpl me q = c
        · have hsm : startsPiece (sentMat todo mat me q) = [] := by
            unfold sentMat
            rw [hgetD, hq, if_pos hcm]
            have : mat c = [] := by
              by_contra hne
              exact hc ⟨by rw [← hq]; rfl, hne⟩
            simp [startsPiece, this]
          simp [hsm]
        · have : cpl me q ∈ d ++ [c] ↔ cpl me q ∈ d := by
            rw [List.mem_append, List.mem_singleton]
            exact ⟨fun h => h.resolve_right hq, Or.inl⟩
          simp only [this]
  have hk := key mine [] rfl
  simp only [List.not_mem_nil, if_false, List.nil_append] at hk
  have hini : List.replicate (cat N fun q => startsPiece (sentMat todo mat me q)).length (none : Option Nat) = cat N fun q => List.replicate (startsPiece (sentMat todo mat me q)).length none := by
    symm
    rw [List.eq_replicate_iff]
    refine ⟨by rw [cat_length, cat_length]; simp, ?_⟩
    intro b hb
    obtain ⟨l, hl, hb⟩ := List.mem_flatten.1 hb
    obtain ⟨q, _, rfl⟩ := List.mem_map.1 hl
    exact (List.mem_replicate.1 hb).2
  rw [hini]
  rw [hk, ok_bind]
  show Except.ok _ = Except.ok _
  congr 2
  · apply cat_congr
    intro q _
    split
    · rfl
    · rename_i hq
      unfold sentMat
      rw [hgetD, if_neg hq]
      rfl
  · rw [List.map_map]; rfl

theorem step0Recv_ok (hN : 0 < N) (R : Nat → List (SRow K)) : step0Recv N ((List.range N).map fun i => (R i).length) =
    .ok { buf := List.replicate (cat N fun i => startsPiece (R i)).length none, counts := (List.range N).map fun i => (startsPiece (R i)).length,
          displs := (List.range N).map fun i => some (cat i fun i => startsPiece (R i)).length } := by
  have hc : ((List.range N).map fun i => (R i).length).map (fun n => if n > 0 then n + 1 else 0) = (List.range N).map fun i => (startsPiece (R i)).length := by
    rw [List.map_map]
    apply List.map_congr_left
    intro i _
    rw [startsPiece_length]
    by_cases h : R i = []
    · simp [h]
    · have : 0 < (R i).length := List.length_pos_iff.2 h
      simp [h, this]
  have hw := worldDispls_ok hN (fun i => (startsPiece (R i)).length)
  unfold step0Recv
  simp only [hc]
  rw [hw, ok_bind, vget_range N _ (by omega), ok_bind, vget_range N _ (by omega), ok_bind, ← psum_succ, Nat.sub_add_cancel hN, psum_cat]
  show Except.ok _ = Except.ok _
  congr 2
  rw [List.map_map]
  apply List.map_congr_left
  intro q _
  show some (psum _ q) = _
  rw [psum_cat]

theorem startsPiece_get {rows : List (SRow K)} {k : Nat} (h : rows ≠ []) (hk : k ≤ rows.length) : (startsPiece rows)[k]? = some (some ((rows.take k).map List.length).sum) := by
  unfold startsPiece rowStarts
  rw [if_neg h, List.map_map, range_map_get _ _ (by omega)]
  rfl

theorem sum_lengths {β : Type} (L : List (List β)) : (L.map List.length).sum = L.flatten.length := by rw [List.length_flatten]

/-- what `me` receives of the beginnings -/
theorem recv0_get {R : Nat → List (SRow K)} {i k : Nat} (hi : i < N) (h : R i ≠ []) (hk : k ≤ (R i).length) :
    vget (cat N fun i => startsPiece (R i)) ((cat i fun i => startsPiece (R i)).length + k) = .ok (some ((R i).take k).flatten.length) := by
  apply vget_ok
  rw [cat_get (fun i => startsPiece (R i)) hi (by rw [startsPiece_length, if_neg h]; omega), startsPiece_get h hk, sum_lengths]

theorem step1Recv_ok (hN : 0 < N) (R : Nat → List (SRow K)) : step1Recv N ((List.range N).map fun i => (R i).length) (cat N fun i => startsPiece (R i))
      ((List.range N).map fun i => (cat i fun i => startsPiece (R i)).length) =
    .ok ((List.range N).map fun i => (R i).flatten.length, (List.range N).map fun i => (cat i fun i => (R i).flatten).length, (cat N fun i => (R i).flatten).length) := by
  unfold step1Recv
  rw [mapM_range_ok (g := fun i => (R i).flatten.length), ok_bind, worldDispls_ok hN, ok_bind]
  · show Except.ok _ = Except.ok _
    congr 3
    · apply List.map_congr_left
      intro q _
      exact psum_cat _ q
    · rw [cat_length]
  · intro i hi
    rw [vget_range N _ hi, ok_bind]
    by_cases h : R i = []
    · rw [if_neg (by simp [h])]; simp [h]; rfl
    · rw [if_pos (by simpa using h), vget_range N _ hi, ok_bind, recv0_get hi h le_rfl, ok_bind, known_some, List.take_length]

theorem step1Send_ok (h : TodoOk N todo) {mine : List Couple} (hm : todo[me]? = some mine) : step1Send N me (mine.map (jobOf mat)) =
    .ok ({ buf := cat N fun q => (sentMat todo mat me q).flatten.map fun e => some e.1, counts := (List.range N).map fun q => (sentMat todo mat me q).flatten.length,
           displs := (List.range N).map fun q => some (cat q fun q => (sentMat todo mat me q).flatten).length },
         { buf := cat N fun q => (sentMat todo mat me q).flatten.map fun e => some e.2, counts := (List.range N).map fun q => (sentMat todo mat me q).flatten.length,
           displs := (List.range N).map fun q => some (cat q fun q => (sentMat todo mat me q).flatten).length }) := by
  have hN : 0 < N := by
    have := (List.getElem?_eq_some_iff.1 hm).1
    rw [h.len] at this; omega
  have hgetD : todo.getD me [] = mine := by rw [List.getD_eq_getElem?_getD, hm]; rfl
  have htgt : ∀ c ∈ mine, c.tgt < N := fun c hc => (h.own me mine c hm hc).1.2
  have hcnt := tgtCount_fold (N := N) (me := me) (mine := mine) (fun c => ((mat c).map List.length).sum) (fun c => mat c ≠ []) htgt
  have hcnt' : (List.range N).map (fun q => if cpl me q ∈ mine ∧ mat (cpl me q) ≠ [] then ((mat (cpl me q)).map List.length).sum else 0) =
      (List.range N).map fun q => (sentMat todo mat me q).flatten.length := by
    apply List.map_congr_left
    intro q _
    unfold sentMat
    rw [hgetD]
    by_cases h1 : cpl me q ∈ mine
    · by_cases h2 : mat (cpl me q) = [] <;> simp [h1, h2]
    · simp [h1]
  rw [hcnt'] at hcnt
  have hall : ((mine.map (jobOf mat)).map fun j => if j.src = me ∧ j.mat ≠ [] then j.mat.flatten else []).flatten = cat N fun q => (sentMat todo mat me q).flatten := by
    have := sorted_cat (N := N) (me := me) (h.sorted me mine hm) htgt (fun c => if c.src = me then (mat c).flatten else []) (fun c _ hc => by rw [if_neg hc])
    rw [List.map_map]
    calc _ = _ := ?_
      _ = _ := this
      _ = _ := ?_
    · congr 1
      apply List.map_congr_left
      intro c _
      simp only [Function.comp_apply, jobOf]
      by_cases h1 : c.src = me
      · by_cases h2 : mat c = [] <;> simp [h1, h2]
      · simp [h1]
    · apply cat_congr
      intro q _
      unfold sentMat
      rw [hgetD]
      by_cases h1 : cpl me q ∈ mine
      · simp [h1]
      · simp [h1]
  have hw := worldDispls_ok hN (fun q => (sentMat todo mat me q).flatten.length)
  unfold step1Send
  rw [List.foldlM_map]
  rw [show (fun (cnt : List Nat) (c : Couple) => if (jobOf mat c).src = me ∧ (jobOf mat c).mat ≠ [] then vset cnt (jobOf mat c).tgt (((jobOf mat c).mat.map List.length).sum) else return cnt) =
    fun cnt c => if c.src = me ∧ mat c ≠ [] then vset cnt c.tgt (((mat c).map List.length).sum) else return cnt from rfl, hcnt, ok_bind, hw, ok_bind]
  show Except.ok _ = Except.ok _
  have hd : ((List.range N).map (psum fun q => (sentMat todo mat me q).flatten.length)).map some = (List.range N).map fun q => some (cat q fun q => (sentMat todo mat me q).flatten).length := by
    rw [List.map_map]
    apply List.map_congr_left
    intro q _
    show some (psum _ q) = _
    rw [psum_cat]
  rw [hall, hd, cat_map, cat_map]

/-- rebuilding an increasing row -/
theorem row_rebuild (row : SRow K) (hs : StrictSorted (mapKeys row)) (f : Nat → M (Nat × K)) (hf : ∀ (l : Nat) (e : Nat × K), row[l]? = some e → f l = .ok e) :
    loop row.length ([] : SRow K) (fun l r => do
      let e ← f l
      return mapSet r e.1 e.2) = .ok row := by
  have key : ∀ n, n ≤ row.length → loop n ([] : SRow K) (fun l r => do
      let e ← f l
      return mapSet r e.1 e.2) = .ok (row.take n) := by
    intro n
    induction n with
    | zero => intro _; simp [loop]
    | succ n ih =>
      intro hn
      unfold loop
      rw [ih (by omega), ok_bind]
      have hg : row[n]? = some row[n] := List.getElem?_eq_getElem (by omega)
      simp only [hf n _ hg, ok_bind]
      show Except.ok _ = _
      rw [mapSet_append, List.take_add_one, hg]
      · rfl
      · intro e he
        obtain ⟨i, hi, rfl⟩ := List.mem_iff_getElem.1 he
        rw [List.length_take] at hi
        rw [List.getElem_take]
        have := List.pairwise_iff_getElem.1 hs i n (by simp [mapKeys]; omega) (by simp [mapKeys]; omega) (by omega)
        simpa [mapKeys] using this
  have := key row.length le_rfl
  rwa [List.take_length] at this

theorem flatten_get {β : Type} : ∀ (L : List (List β)) (k l : Nat) (r : List β), L[k]? = some r → l < r.length → L.flatten[(L.take k).flatten.length + l]? = r[l]?
  | [], _, _, _, h, _ => by simp at h
  | a :: L, 0, l, r, h, hl => by
    simp at h; subst h
    simp only [List.take_zero, List.flatten_nil, List.length_nil, Nat.zero_add, List.flatten_cons]
    rw [List.getElem?_append_left hl]
  | a :: L, k + 1, l, r, h, hl => by
    simp only [List.getElem?_cons_succ] at h
    simp only [List.take_succ_cons, List.flatten_cons, List.length_append]
    rw [List.getElem?_append_right (by omega), show a.length + (L.take k).flatten.length + l - a.length = (L.take k).flatten.length + l by omega]
    exact flatten_get L k l r h hl

theorem unserial_ok (R : Nat → List (SRow K)) (hs : ∀ i < N, ∀ row ∈ R i, StrictSorted (mapKeys row)) :
    unserial N ((List.range N).map fun i => (R i).length) (cat N fun i => startsPiece (R i)) ((List.range N).map fun i => (cat i fun i => startsPiece (R i)).length)
      (cat N fun i => (R i).flatten.map fun e => some e.1) (cat N fun i => (R i).flatten.map fun e => some e.2) ((List.range N).map fun i => (cat i fun i => (R i).flatten).length) =
    .ok ((List.range N).filter fun i => decide (R i ≠ []), ((List.range N).filter fun i => decide (R i ≠ [])).map R) := by
  unfold unserial
  rw [mapM_range_ok (g := fun i => if decide (R i ≠ []) then [(i, R i)] else []), ok_bind]
  · show Except.ok _ = Except.ok _
    rw [flatten_map_filter]
    have : (((List.range N).filter fun i => decide (R i ≠ [])).map fun i => [(i, R i)]).flatten = ((List.range N).filter fun i => decide (R i ≠ [])).map fun i => (i, R i) := by
      generalize ((List.range N).filter fun i => decide (R i ≠ [])) = l
      induction l with
      | nil => rfl
      | cons a l ih => simp [ih]
    rw [this, List.map_map, List.map_map]
    congr 2
    exact List.map_id _
  · intro i hi
    rw [vget_range N _ hi, ok_bind]
    by_cases h : R i = []
    · rw [if_neg (by simp [h])]; simp [h]; rfl
    · rw [if_pos (by simpa using h), if_pos (by simpa using h), mapM_range_ok (g := fun k => (R i).getD k [])]
      · show Except.ok _ = Except.ok _
        congr 3
        apply List.ext_getElem
        · simp
        · intro k h1 h2; simp [List.getElem?_eq_getElem h2]
      · intro k hk
        have hg : (R i)[k]? = some (R i)[k] := List.getElem?_eq_getElem (by omega)
        rw [vget_range N _ hi, ok_bind, recv0_get hi h (by omega), ok_bind, known_some, ok_bind, Nat.add_assoc, recv0_get hi h (by omega), ok_bind, known_some, ok_bind]
        have hlen : ((R i).take (k + 1)).flatten.length - ((R i).take k).flatten.length = (R i)[k].length := by
          rw [List.take_add_one, hg, List.flatten_append, List.length_append]
          simp only [Option.toList_some, List.flatten_cons, List.flatten_nil, List.append_nil]
          omega
        rw [hlen]
        have := row_rebuild (R i)[k] (hs i hi _ (List.getElem_mem _)) (fun l => do
          let o1 ← vget ((List.range N).map fun i => (cat i fun i => (R i).flatten).length) i
          let c ← known (← vget (cat N fun i => (R i).flatten.map fun e => some e.1) (o1 + ((R i).take k).flatten.length + l))
          let x ← known (← vget (cat N fun i => (R i).flatten.map fun e => some e.2) (o1 + ((R i).take k).flatten.length + l))
          return (c, x)) (by
            intro l e he
            have hl : l < (R i)[k].length := (List.getElem?_eq_some_iff.1 he).1
            have hin : (R i).flatten[((R i).take k).flatten.length + l]? = some e := by rw [flatten_get _ _ _ _ hg hl, he]
            have hlt : ((R i).take k).flatten.length + l < (R i).flatten.length := (List.getElem?_eq_some_iff.1 hin).1
            have e1 : ∀ (β : Type) (f : Nat × K → β), (cat i fun i => (R i).flatten.map f).length = (cat i fun i => (R i).flatten).length := by
              intro β f
              rw [← cat_map, List.length_map]
            have g1 : ∀ (β : Type) (f : Nat × K → β), vget (cat N fun i => (R i).flatten.map f) ((cat i fun i => (R i).flatten).length + ((R i).take k).flatten.length + l) = .ok (f e) := by
              intro β f
              apply vget_ok
              rw [Nat.add_assoc, ← e1 β f, cat_get (fun i => (R i).flatten.map f) hi (by rw [List.length_map]; exact hlt), List.getElem?_map, hin]; rfl
            rw [vget_range N _ hi, ok_bind, g1, ok_bind, known_some, ok_bind, g1, ok_bind, known_some, ok_bind]
            rfl)
        rw [show (R i).getD k [] = (R i)[k] by simp [hk]]
        rw [← this]
        apply loop_congr_dec
        intro l _ s
        simp only [bind_assoc]
        rfl

/-- What a processor knows after `prepare` -/
structure MapReady (N : Nat) (todo : List (List Couple)) (srcIds trgIds : Nat → Nat → List Nat) (mat : Couple → List (SRow K)) (me : Nat) (mine : List Couple) (m : OMap K) : Prop where
  theSrc : m.theSrc = (List.range N).filter (fun s => decide (sentMat todo mat s me ≠ [])) ++ (mine.filter fun c => decide (c.src ≠ me)).map Couple.src
  theMat : m.theMat = m.theSrc.map fun s => mat (cpl s me)
  zipRecv : ∀ s ∈ m.theSrc, s ≠ me → mapFind m.zipRecv s = some (colSet (mat (cpl s me)))
  toSend : m.toSend = procsToSendField me todo
  nbRcv : ∀ s, s ≠ me → cpl s me ∈ mine → mapFind m.nbRcv s = some (srcIds s me).length
  zipComp : ∀ t, cpl me t ∈ mine → mapFind m.zipComp t = some (colSet (mat (cpl me t)))
  sentSrc : ∀ i l, todo[i]? = some l → i ≠ me → cpl me i ∈ l → mapFind m.sentSrc i = some (srcIds me i)
  sentTrg : ∀ i l, todo[i]? = some l → i ≠ me → cpl i me ∈ l → mapFind m.sentTrg i = some (trgIds me i)
  sentTrg_none : ∀ i, (∀ l, todo[i]? = some l → cpl i me ∉ l) → mapFind m.sentTrg i = none

theorem finish_ok (h : TodoOk N todo) {mine : List Couple} (hm : todo[me]? = some mine) {m : OMap K} (hf : Filled todo srcIds trgIds mat me mine m) :
    MapReady N todo srcIds trgIds mat me mine (m.finish me (procsToSendField me todo) ((List.range N).filter fun s => decide (sentMat todo mat s me ≠ []))
      (((List.range N).filter fun s => decide (sentMat todo mat s me ≠ [])).map fun s => sentMat todo mat s me)) := by
  have hloc : (m.jobs.filter fun j => decide (j.src ≠ me)) = (mine.filter fun c => decide (c.src ≠ me)).map (jobOf mat) := by
    rw [hf.jobs, List.filter_map]; rfl
  have hsrc : (m.finish me (procsToSendField me todo) ((List.range N).filter fun s => decide (sentMat todo mat s me ≠ []))
      (((List.range N).filter fun s => decide (sentMat todo mat s me ≠ [])).map fun s => sentMat todo mat s me)).theSrc =
      (List.range N).filter (fun s => decide (sentMat todo mat s me ≠ [])) ++ (mine.filter fun c => decide (c.src ≠ me)).map Couple.src := by
    show _ ++ (m.jobs.filter fun j => decide (j.src ≠ me)).map (·.src) = _
    rw [hloc, List.map_map]; rfl
  have hmat : (m.finish me (procsToSendField me todo) ((List.range N).filter fun s => decide (sentMat todo mat s me ≠ []))
      (((List.range N).filter fun s => decide (sentMat todo mat s me ≠ [])).map fun s => sentMat todo mat s me)).theMat =
      ((List.range N).filter (fun s => decide (sentMat todo mat s me ≠ [])) ++ (mine.filter fun c => decide (c.src ≠ me)).map Couple.src).map fun s => mat (cpl s me) := by
    show _ ++ (m.jobs.filter fun j => decide (j.src ≠ me)).map (·.mat) = _
    rw [hloc, List.map_map, List.map_append, List.map_map]
    congr 1
    · apply List.map_congr_left
      intro s hs
      have hs : sentMat todo mat s me ≠ [] := by simpa using (List.mem_filter.1 hs).2
      unfold sentMat at hs ⊢
      split
      · rfl
      · rename_i hn; rw [if_neg hn] at hs; exact absurd rfl hs
    · apply List.map_congr_left
      intro c hc
      have h1 := List.mem_filter.1 hc
      have h2 : c.src ≠ me := by simpa using h1.2
      have h3 := ((h.own me mine c hm h1.1).2).resolve_left h2
      show mat c = mat (cpl c.src me)
      rw [← h3, cpl_eta]
  refine ⟨hsrc, by rw [hsrc]; exact hmat, ?_, rfl, hf.nbRcv, hf.zipComp, hf.sentSrc, hf.sentTrg, hf.sentTrg_none⟩
  intro s hs hsm
  show mapFind ((List.zip (m.finish me (procsToSendField me todo) ((List.range N).filter fun s => decide (sentMat todo mat s me ≠ []))
      (((List.range N).filter fun s => decide (sentMat todo mat s me ≠ [])).map fun s => sentMat todo mat s me)).theSrc (m.finish me (procsToSendField me todo) ((List.range N).filter fun s => decide (sentMat todo mat s me ≠ []))
      (((List.range N).filter fun s => decide (sentMat todo mat s me ≠ [])).map fun s => sentMat todo mat s me)).theMat).foldl (fun z x => if x.1 ≠ me then mapSet z x.1 (colSet x.2) else z) m.zipRecv) s = _
  rw [hsrc] at hs
  rw [hsrc, hmat, List.zip_map_right, show ∀ l : List Nat, l.zip l = l.map fun x => (x, x) from fun l => by induction l <;> simp_all, List.map_map, List.foldl_map]
  refine (mapSet_fold_find (fun s : Nat => s ≠ me) (fun s => s) (fun s => colSet (mat (cpl s me))) (fun s => colSet (mat (cpl s me))) (fun _ _ => rfl) s _ _).trans ?_
  rw [if_pos ⟨s, hs, hsm, rfl⟩]

theorem prepareAll_ok (hN : 0 < N) (h : TodoOk N todo) (hs : ∀ (p : Nat) (l : List Couple) (c : Couple), todo[p]? = some l → c ∈ l → ∀ row ∈ mat c, StrictSorted (mapKeys row)) :
    ∃ ms, prepareAll N todo (todo.zipIdx.map fun x => fillMap srcIds trgIds mat todo x.2 x.1) = .ok ((List.range N).map ms) ∧
      ∀ p < N, MapReady N todo srcIds trgIds mat p (todo.getD p []) (ms p) := by
  rw [zipIdx_map_range todo (fun l i => fillMap srcIds trgIds mat todo i l) [], h.len]
  have hget : ∀ p < N, todo[p]? = some (todo.getD p []) := by
    intro p hp
    rw [List.getD_eq_getElem?_getD, List.getElem?_eq_getElem (by rw [h.len]; exact hp)]; rfl
  have hjobs : ∀ p < N, (fillMap srcIds trgIds mat todo p (todo.getD p [])).jobs = (todo.getD p []).map (jobOf mat) := fun p hp => (fillMap_ok (srcIds := srcIds) (trgIds := trgIds) (mat := mat) h (hget p hp)).jobs
  have hrows : ∀ p i, ∀ row ∈ sentMat todo mat i p, i < N → StrictSorted (mapKeys row) := by
    intro p i row hr hi
    unfold sentMat at hr
    split at hr
    · rename_i hc
      exact hs i _ _ (hget i hi) hc row hr
    · simp at hr
  refine ⟨fun me => (fillMap srcIds trgIds mat todo me (todo.getD me [])).finish me (procsToSendField me todo) ((List.range N).filter fun s => decide (sentMat todo mat s me ≠ []))
      (((List.range N).filter fun s => decide (sentMat todo mat s me ≠ [])).map fun s => sentMat todo mat s me), ?_, fun p hp => finish_ok h (hget p hp) (fillMap_ok h (hget p hp))⟩
  unfold prepareAll
  rw [mapM_range_ok (g := fun p => (List.range N).map fun q => (sentMat todo mat p q).length) (fun p hp => by rw [vget_range N _ hp, ok_bind, hjobs p hp, rowsToSend_ok h (hget p hp)]), ok_bind,
    allToAll1_ok, ok_bind,
    mapM_range_ok (fun p hp => by rw [vget_range N _ hp, ok_bind, hjobs p hp]; exact step0Send_ok h (hget p hp)), ok_bind,
    mapM_range_ok (fun p hp => by rw [vget_range N _ hp, ok_bind]; exact step0Recv_ok hN (fun i => sentMat todo mat i p)), ok_bind,
    allToAllV_cat N (fun i q => startsPiece (sentMat todo mat i q)) _ _ rfl rfl, ok_bind]
  have hoffs : ((List.range N).map fun me => ({ buf := List.replicate (cat N (fun i => startsPiece (sentMat todo mat i me))).length (none : Option Nat), counts := (List.range N).map (fun i => (startsPiece (sentMat todo mat i me)).length), displs := (List.range N).map (fun i => some (cat i fun i => startsPiece (sentMat todo mat i me)).length) } : Rcv Nat)).map
        (fun r => r.displs.map fun d => d.getD 0) = (List.range N).map fun me => (List.range N).map fun i => (cat i fun i => startsPiece (sentMat todo mat i me)).length := by
    rw [List.map_map]
    apply List.map_congr_left
    intro p _
    simp [Function.comp_def]
  simp only [hoffs]
  rw [mapM_range_ok (fun p hp => by rw [vget_range N _ hp, ok_bind, vget_range N _ hp, ok_bind, vget_range N _ hp, ok_bind]; exact step1Recv_ok hN (fun i => sentMat todo mat i p)), ok_bind,
    mapM_range_ok (fun p hp => by rw [vget_range N _ hp, ok_bind, hjobs p hp]; exact step1Send_ok h (hget p hp)), ok_bind]
  have hlenm : ∀ {β : Type} (q p : Nat) (f : Nat × K → β), (cat q fun i => (sentMat todo mat i p).flatten.map f).length = (cat q fun i => (sentMat todo mat i p).flatten).length := by
    intro β q p f
    rw [← cat_map, List.length_map]
  have hlenm2 : ∀ {β : Type} (q p : Nat) (f : Nat × K → β), (cat q fun i => (sentMat todo mat p i).flatten.map f).length = (cat q fun i => (sentMat todo mat p i).flatten).length := by
    intro β q p f
    rw [← cat_map, List.length_map]
  rw [allToAllV_cat N (fun i q => (sentMat todo mat i q).flatten.map fun e => some e.1) _ _ (by rw [List.map_map]; simp only [Function.comp_def, hlenm2, List.length_map]) (by
      rw [List.map_map]; simp only [Function.comp_def, hlenm, List.length_map, List.map_map]), ok_bind,
    allToAllV_cat N (fun i q => (sentMat todo mat i q).flatten.map fun e => some e.2) _ _ (by rw [List.map_map]; simp only [Function.comp_def, hlenm2, List.length_map]) (by
      rw [List.map_map]; simp only [Function.comp_def, hlenm, List.length_map, List.map_map]), ok_bind]
  apply mapM_range_ok
  intro p hp
  rw [vget_range N _ hp, ok_bind, vget_range N _ hp, ok_bind, vget_range N _ hp, ok_bind, vget_range N _ hp, ok_bind, vget_range N _ hp, ok_bind, vget_range N _ hp, ok_bind]
  rw [unserial_ok (fun i => sentMat todo mat i p) (fun i hi row hr => hrows p i row hr hi), ok_bind]
  simp only [vget_range N _ hp, ok_bind]
  rfl

end world

end MC
