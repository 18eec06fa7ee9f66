import Verif.StructDecProps

/-!
# C86: `StructuredCoincidentDEC` brings every value to its place
-/

namespace MC
variable {V : Type}

theorem dec_mapM_ok {α β : Type} {f : α → M β} {g : α → β} : ∀ {l : List α}, (∀ x ∈ l, f x = .ok (g x)) → l.mapM f = .ok (l.map g)
  | [], _ => rfl
  | a :: l, h => by
    rw [List.mapM_cons, h a (by simp), ok_bind, dec_mapM_ok (l := l) fun x hx => h x (by simp [hx]), ok_bind]; rfl

theorem dec_mapM_spec {α β : Type} {f : α → M β} {P : α → β → Prop} : ∀ {l : List α}, (∀ x ∈ l, ∃ y, f x = .ok y ∧ P x y) →
    ∃ r, l.mapM f = .ok r ∧ List.Forall₂ P l r
  | [], _ => ⟨[], rfl, .nil⟩
  | a :: l, h => by
    obtain ⟨y, h1, h2⟩ := h a (by simp)
    obtain ⟨r, h3, h4⟩ := dec_mapM_spec (l := l) fun x hx => h x (by simp [hx])
    exact ⟨y :: r, by rw [List.mapM_cons, h1, ok_bind, h3, ok_bind]; rfl, .cons h2 h4⟩

theorem filter_map_ok {α β : Type} [DecidableEq α] (l : List α) (f : α → β) (P : β → Bool) : (l.filter fun a => P (f a)).map f = (l.map f).filter P := by
  rw [List.filter_map]; rfl

/-- the pieces, as elements -/
theorem pieceOf_elems (grp : List Nat) (o' : Nat → Nat) (L : List Nat) (w : Nat) :
    (pieceOf grp o' L w).map (fun i => L.getD i 0) = L.filter fun g => grp[o' g]? = some w := by
  have hL : (List.range L.length).map (fun i => L.getD i 0) = L := by
    apply List.ext_getElem
    · simp
    · intro n h1 h2
      simp [List.getD, List.getElem?_eq_getElem h2]
  conv_rhs => rw [← hL]
  rw [List.filter_map]
  rfl

theorem pieceOf_cells {β : Type} (grp : List Nat) (o' : Nat → Nat) (L : List Nat) (w : Nat) (cell : Nat → β) (gcell : Nat → β)
    (h : ∀ i < L.length, cell i = gcell (L.getD i 0)) : (pieceOf grp o' L w).map cell = (L.filter fun g => grp[o' g]? = some w).map gcell := by
  rw [← pieceOf_elems, List.map_map]
  apply List.map_congr_left
  intro i hi
  simp only [pieceOf, wpiece, List.mem_filter, List.mem_range] at hi
  exact h i hi.1

/-- the elements which go from `ws` to `wt` -/
def crossing (ts tt : BTopo) (sp tp : Nat → Nat) (ws wt : Nat) : List Nat :=
  (List.range ts.nbElems).filter fun g => ts.group[sp g]? = some ws ∧ tt.group[tp g]? = some wt

theorem crossing_src {ts tt : BTopo} {sp tp : Nat → Nat} {W p ws : Nat} (hg : GroupIn W ts.group) (hp : ts.group[p]? = some ws) (wt : Nat) :
    ((ownList sp ts.nbElems p).filter fun g => tt.group[tp g]? = some wt) = crossing ts tt sp tp ws wt := by
  unfold crossing ownList
  rw [List.filter_filter]
  apply List.filter_congr
  intro g _
  have : sp g = p ↔ ts.group[sp g]? = some ws := ⟨fun h => h ▸ hp, fun h => hg.inj h hp⟩
  simp only [Bool.decide_and]
  rw [Bool.and_comm]
  congr 1
  rw [decide_eq_decide]; exact this

theorem crossing_tgt {ts tt : BTopo} {sp tp : Nat → Nat} {W q wt : Nat} (hnb : ts.nbElems = tt.nbElems) (hg : GroupIn W tt.group) (hq : tt.group[q]? = some wt) (ws : Nat) :
    ((ownList tp tt.nbElems q).filter fun g => ts.group[sp g]? = some ws) = crossing ts tt sp tp ws wt := by
  unfold crossing ownList
  rw [List.filter_filter, hnb]
  apply List.filter_congr
  intro g _
  have : tp g = q ↔ tt.group[tp g]? = some wt := ⟨fun h => h ▸ hq, fun h => hg.inj h hq⟩
  simp only [Bool.decide_and]
  congr 1
  rw [decide_eq_decide]; exact this

theorem crossing_src_out {ts tt : BTopo} {sp tp : Nat → Nat} {ws : Nat} (h : ws ∉ ts.group) (wt : Nat) : crossing ts tt sp tp ws wt = [] := by
  unfold crossing
  rw [List.filter_eq_nil_iff]
  intro g _ hg
  simp only [decide_eq_true_eq] at hg
  exact h (List.mem_of_getElem? hg.1)

theorem crossing_tgt_out {ts tt : BTopo} {sp tp : Nat → Nat} {wt : Nat} (h : wt ∉ tt.group) (ws : Nat) : crossing ts tt sp tp ws wt = [] := by
  unfold crossing
  rw [List.filter_eq_nil_iff]
  intro g _ hg
  simp only [decide_eq_true_eq] at hg
  exact h (List.mem_of_getElem? hg.2)

theorem printFour_ok {W : Nat} (h4 : 4 ≤ W) (c : Nat → Nat) (d : Nat → Option Nat) :
    printFour ((List.range W).map c) ((List.range W).map d) = .ok () := by
  have hc : ∀ i < W, vget ((List.range W).map c) i = .ok (c i) := fun i hi => vget_ok (by rw [List.getElem?_map, List.getElem?_range hi]; rfl)
  have hd : ∀ i < W, vget ((List.range W).map d) i = .ok (d i) := fun i hi => vget_ok (by rw [List.getElem?_map, List.getElem?_range hi]; rfl)
  unfold printFour
  simp only [loop, hc 0 (by omega), hc 1 (by omega), hc 2 (by omega), hc 3 (by omega), hd 0 (by omega), hd 1 (by omega), hd 2 (by omega), hd 3 (by omega), ok_bind]
  rfl

/-- the value of an element on the source side -/
def sourceCell (ts : BTopo) (src : List (List V)) (g : Nat) : Option V :=
  match ts.globalToLocal g with
  | .ok (p, l) => src[p]?.bind (·[l]?)
  | .error _ => none

/-- The situation of the users of `StructuredCoincidentDEC`: two topologies over disjoint groups which cover a world of at least four processors, groups given in the
order of the world, over the same number of elements; fields with a value for every local element. -/
structure DecOk (W : Nat) (ts tt : BTopo) (src old : List (List V)) : Prop where
  builtS : Built ts
  builtT : Built tt
  four : 4 ≤ W
  sortedS : ts.group.Pairwise (· < ·)
  sortedT : tt.group.Pairwise (· < ·)
  disjoint : ∀ w, w ∈ ts.group → w ∉ tt.group
  cover : ∀ w, w < W ↔ w ∈ ts.group ∨ w ∈ tt.group
  nb : ts.nbElems = tt.nbElems
  srcLen : src.length = ts.group.length
  srcVals : ∀ (p : Nat) (v : List V), src[p]? = some v → ts.nbLocal p = .ok v.length
  oldLen : old.length = tt.group.length
  oldVals : ∀ (q : Nat) (v : List V), old[q]? = some v → tt.nbLocal q = .ok v.length

/-- what the processor of world rank `w` brings -/
def sideF (W : Nat) (ts tt : BTopo) (sp tp : Nat → Nat) (src : List (List V)) (w : Nat) : Snd V × Rcv V :=
  if w ∈ ts.group then
    ({ buf := cat W fun wt => (crossing ts tt sp tp w wt).map (sourceCell ts src)
       counts := (List.range W).map fun wt => (crossing ts tt sp tp w wt).length
       displs := (List.range W).map fun wt => some (cat wt (crossing ts tt sp tp w)).length },
     { buf := [], counts := List.replicate W 0, displs := List.replicate W (some 0) })
  else
    ({ buf := [], counts := List.replicate W 0, displs := List.replicate W none },
     { buf := List.replicate (cat W fun ws => crossing ts tt sp tp ws w).length none
       counts := (List.range W).map fun ws => (crossing ts tt sp tp ws w).length
       displs := (List.range W).map fun ws => some (cat ws fun ws => crossing ts tt sp tp ws w).length })

theorem map_some_cell {t : BTopo} {o : Nat → Nat} (ht : Owns t o) {src : List (List V)} {p : Nat} {value : List V} (hp : p < t.group.length)
    (hv : src[p]? = some value) : ∀ i < (ownList o t.nbElems p).length, value[i]? = sourceCell t src ((ownList o t.nbElems p).getD i 0) := by
  intro i hi
  set L := ownList o t.nbElems p with hL
  have hLi : L[i]? = some L[i] := List.getElem?_eq_getElem hi
  obtain ⟨hgn, hgo⟩ := mem_ownList.1 (List.getElem_mem hi)
  obtain ⟨l, h1, h2⟩ := ht.gtl L[i] hgn
  rw [show o L[i] = p from hgo] at h1 h2
  rw [← hL] at h2
  have hli : l = i := by
    obtain ⟨h3, h4⟩ := List.getElem?_eq_some_iff.1 h2
    exact (List.Nodup.getElem_inj_iff (StrictSorted.nodup (ownList_sorted o t.nbElems p))).1 h4
  subst hli
  have : L.getD l 0 = L[l] := by simp [List.getD, hLi]
  rw [this, sourceCell, h1]
  simp [hv]

theorem cat_pieces_total {t u : BTopo} {o o' : Nat → Nat} {W p : Nat} (hu : Owns u o') (hnb : t.nbElems = u.nbElems) (hg : GroupIn W u.group) :
    (cat W (pieceOf u.group o' (ownList o t.nbElems p))).length = (ownList o t.nbElems p).length := by
  have h := wpiece_cat hg (otherOf o' (ownList o t.nbElems p)) (ownList o t.nbElems p).length (fun i => i)
  have hb := bucket_total _ (hu.other_lt (o := o) (p := p) hnb)
  simp only [List.map_id_fun', id_eq] at h
  rw [← hb]
  unfold pieceOf
  rw [← h]

theorem decSide_ok {W : Nat} {ts tt : BTopo} {sp tp : Nat → Nat} {src old : List (List V)} (h : DecOk W ts tt src old) (hs : Owns ts sp) (ht : Owns tt tp)
    {w : Nat} (hw : w < W) : decSide W ts tt ts tt src w = .ok (sideF W ts tt sp tp src w) := by
  have gs : GroupIn W ts.group := ⟨h.sortedS, fun w hw => (h.cover w).2 (Or.inl hw)⟩
  have gt : GroupIn W tt.group := ⟨h.sortedT, fun w hw => (h.cover w).2 (Or.inr hw)⟩
  have hW : 0 < W := by have := h.four; omega
  obtain ⟨_, _, _, _, fs⟩ := h.builtS.form
  obtain ⟨_, _, _, _, ft⟩ := h.builtT.form
  unfold decSide sideF
  by_cases hws : w ∈ ts.group
  · rw [if_pos hws, if_pos hws]
    have hp : ts.group.idxOf w < ts.group.length := List.idxOf_lt_length_of_mem hws
    have hpw : ts.group[ts.group.idxOf w]? = some w := List.getElem?_idxOf hws
    set p := ts.group.idxOf w with hpdef
    have hsp : src[p]? = some (src[p]'(by rw [h.srcLen]; exact hp)) := List.getElem?_eq_getElem _
    set value := src[p]'(by rw [h.srcLen]; exact hp) with hvdef
    have hvl : value.length = (ownList sp ts.nbElems p).length := by
      have h1 := h.srcVals p value hsp
      rw [hs.nbl p hp] at h1
      simp only [Except.ok.injEq] at h1; omega
    simp only [vget_ok hsp, ok_bind]
    rw [prepareSource_ok hs ht h.nb hp gt ft.size hW value hvl, ok_bind]
    have e1 : ∀ wt, (pieceOf tt.group tp (ownList sp ts.nbElems p) wt).map (fun i => value[i]?) = (crossing ts tt sp tp w wt).map (sourceCell ts src) := by
      intro wt
      rw [pieceOf_cells _ _ _ _ _ (sourceCell ts src) (map_some_cell hs hp hsp), crossing_src gs hpw]
    have e2 : ∀ wt, (pieceOf tt.group tp (ownList sp ts.nbElems p) wt).length = (crossing ts tt sp tp w wt).length := by
      intro wt
      have := congrArg List.length (e1 wt)
      simpa using this
    have e3 : ∀ wt, (cat wt (pieceOf tt.group tp (ownList sp ts.nbElems p))).length = (cat wt (crossing ts tt sp tp w)).length := by
      intro wt
      rw [cat_length, cat_length]
      simp only [e2]
    simp only [e1, e2, e3]
    rw [printFour_ok h.four, ok_bind]
    rfl
  · rw [if_neg hws, if_neg hws]
    have hwt : w ∈ tt.group := by
      rcases (h.cover w).1 hw with h1 | h1
      · exact absurd h1 hws
      · exact h1
    have hp : tt.group.idxOf w < tt.group.length := List.idxOf_lt_length_of_mem hwt
    have hpw : tt.group[tt.group.idxOf w]? = some w := List.getElem?_idxOf hwt
    set q := tt.group.idxOf w with hqdef
    simp only
    rw [prepareTarget_ok ht hs h.nb.symm hp gs hW, ok_bind]
    have e2 : ∀ ws, (pieceOf ts.group sp (ownList tp tt.nbElems q) ws).length = (crossing ts tt sp tp ws w).length := by
      intro ws
      have := congrArg List.length (pieceOf_elems ts.group sp (ownList tp tt.nbElems q) ws)
      rw [crossing_tgt h.nb gt hpw] at this
      simpa using this
    have e3 : ∀ ws, (cat ws (pieceOf ts.group sp (ownList tp tt.nbElems q))).length = (cat ws fun ws => crossing ts tt sp tp ws w).length := by
      intro ws
      rw [cat_length, cat_length]
      simp only [e2]
    have e4 := cat_pieces_total (t := tt) (o := tp) (p := q) hs h.nb.symm gs
    rw [e3] at e4
    simp only [e2, e3]
    rw [printFour_ok h.four, ok_bind, ← e4]
    rfl

theorem allToAll_ok {W : Nat} {ts tt : BTopo} {sp tp : Nat → Nat} {src old : List (List V)} (h : DecOk W ts tt src old) :
    allToAllV (((List.range W).map (sideF W ts tt sp tp src)).map (·.1)) (((List.range W).map (sideF W ts tt sp tp src)).map (·.2)) =
      .ok ((List.range W).map fun wt => cat W fun ws => (crossing ts tt sp tp ws wt).map (sourceCell ts src)) := by
  unfold allToAllV
  simp only [List.length_map, List.length_range]
  apply dec_mapM_ok
  intro wt hwt
  rw [List.mem_range] at hwt
  have hget : ∀ i < W, (((List.range W).map (sideF W ts tt sp tp src)).map (·.2))[i]? = some (sideF W ts tt sp tp src i).2 := by
    intro i hi
    rw [List.getElem?_map, List.getElem?_map, List.getElem?_range hi]; rfl
  have hget1 : ∀ i < W, (((List.range W).map (sideF W ts tt sp tp src)).map (·.1))[i]? = some (sideF W ts tt sp tp src i).1 := by
    intro i hi
    rw [List.getElem?_map, List.getElem?_map, List.getElem?_range hi]; rfl
  rw [vget_ok (hget wt hwt), ok_bind]
  have hrange : ∀ (f : Nat → Nat) (i : Nat), i < W → ((List.range W).map f)[i]? = some (f i) := by
    intro f i hi; rw [List.getElem?_map, List.getElem?_range hi]; rfl
  have hrange' : ∀ (f : Nat → Option Nat) (i : Nat), i < W → ((List.range W).map f)[i]? = some (f i) := by
    intro f i hi; rw [List.getElem?_map, List.getElem?_range hi]; rfl
  apply recvFrom_ok
  · intro ws hws
    refine ⟨_, hget1 ws hws, ?_, ?_⟩
    · unfold sideF
      by_cases hin : ws ∈ ts.group
      · rw [if_pos hin]
        simp only [List.length_map]
        exact hrange _ wt hwt
      · rw [if_neg hin, crossing_src_out hin]
        simp [hwt]
    · intro hne
      unfold sideF
      by_cases hin : ws ∈ ts.group
      · rw [if_pos hin]
        refine ⟨_, hrange' _ wt hwt, ?_, ?_⟩
        · have := cat_drop (fun wt => (crossing ts tt sp tp ws wt).map (sourceCell ts src)) hwt
          have e : (cat wt fun wt => (crossing ts tt sp tp ws wt).map (sourceCell ts src)).length = (cat wt (crossing ts tt sp tp ws)).length := by
            rw [← cat_map, List.length_map]
          rw [e] at this
          exact this
        · have := cat_length_mono (fun wt => (crossing ts tt sp tp ws wt).map (sourceCell ts src)) hwt
          rw [← cat_map, List.length_map] at this
          exact this
      · rw [crossing_src_out hin] at hne
        simp at hne
  · intro ws hws
    unfold sideF
    by_cases hin : wt ∈ ts.group
    · rw [if_pos hin, crossing_tgt_out (h.disjoint _ hin)]
      simp [hws]
    · rw [if_neg hin]
      simp only [List.length_map]
      exact hrange _ ws hws
  · intro ws hws hne
    unfold sideF
    by_cases hin : wt ∈ ts.group
    · rw [crossing_tgt_out (h.disjoint _ hin)] at hne
      simp at hne
    · rw [if_neg hin, ← cat_map, List.length_map]
      exact hrange' _ ws hws
  · unfold sideF
    by_cases hin : wt ∈ ts.group
    · rw [if_pos hin]
      have : ∀ ws, crossing ts tt sp tp ws wt = [] := fun ws => crossing_tgt_out (h.disjoint _ hin) ws
      simp only [this, List.map_nil, cat_length]
      simp
    · rw [if_neg hin, ← cat_map]
      simp

/-- **`synchronize`, `sendData` and `recvData` bring every value to its place.**  After the exchange, element `g` has on the target side, where the target topology puts
it, the value it had on the source side, where the source topology puts it; the target fields keep their sizes. -/
theorem C86_exchange {W : Nat} {ts tt : BTopo} {src old : List (List V)} (h : DecOk W ts tt src old) :
    ∃ res, decExchange W ts tt src old = .ok res ∧ res.length = tt.group.length ∧
      (∀ (q : Nat) (v : List V), res[q]? = some v → tt.nbLocal q = .ok v.length) ∧
      ∀ g < ts.nbElems, ∀ p l q m, ts.globalToLocal g = .ok (p, l) → tt.globalToLocal g = .ok (q, m) →
        ∃ x, (src[p]?.bind fun v => v[l]?) = some x ∧ (res[q]?.bind fun v => v[m]?) = some x := by
  obtain ⟨sp, hs⟩ := h.builtS.owns
  obtain ⟨tp, ht⟩ := h.builtT.owns
  have gs : GroupIn W ts.group := ⟨h.sortedS, fun w hw => (h.cover w).2 (Or.inl hw)⟩
  have gt : GroupIn W tt.group := ⟨h.sortedT, fun w hw => (h.cover w).2 (Or.inr hw)⟩
  obtain ⟨_, _, _, _, fs⟩ := h.builtS.form
  have hcell : ∀ g < ts.nbElems, ∃ x, sourceCell ts src g = some x := by
    intro g hg
    obtain ⟨l, h1, h2⟩ := hs.gtl g hg
    have hp := hs.lt g hg
    have hsp : src[sp g]? = some (src[sp g]'(by rw [h.srcLen]; exact hp)) := List.getElem?_eq_getElem _
    have hv := h.srcVals _ _ hsp
    rw [hs.nbl _ hp] at hv
    have hl : l < (src[sp g]'(by rw [h.srcLen]; exact hp)).length := by
      have := (List.getElem?_eq_some_iff.1 h2).1
      simp only [Except.ok.injEq] at hv; omega
    rw [sourceCell, h1]
    simp only [hsp, Option.bind_some]
    exact ⟨_, List.getElem?_eq_getElem hl⟩
  have hun : setInsertAll (setInsertAll [] ts.group) tt.group = List.range W := by
    refine StrictSorted.ext (sorted_setInsertAll (sorted_setInsertAll List.Pairwise.nil)) List.pairwise_lt_range ?_
    intro x
    simp only [mem_setInsertAll, List.mem_range, h.cover x]
    simp
  have hlast := dec_mapM_spec (l := tt.group) (f := fun w => do
      let me := tt.group.idxOf w
      let u := (List.range W).idxOf w
      let side ← vget ((List.range W).map (sideF W ts tt sp tp src)) u
      let buf ← vget ((List.range W).map fun wt => cat W fun ws => (crossing ts tt sp tp ws wt).map (sourceCell ts src)) u
      let o ← vget old me
      takeValues ts tt me side.2.counts buf o)
    (P := fun w v => v.map some = (ownList tp tt.nbElems (tt.group.idxOf w)).map (sourceCell ts src)) (by
      intro w hw
      have hwW : w < W := gt.lt w hw
      have hq : tt.group.idxOf w < tt.group.length := List.idxOf_lt_length_of_mem hw
      have hqw : tt.group[tt.group.idxOf w]? = some w := List.getElem?_idxOf hw
      set q := tt.group.idxOf w with hqdef
      have hidx : (List.range W).idxOf w = w := by
        have h2 : (List.range W)[(List.range W).idxOf w]? = some w := List.getElem?_idxOf (List.mem_range.2 hwW)
        have h3 := (List.getElem?_eq_some_iff.1 h2).1
        rw [List.length_range] at h3
        rw [List.getElem?_range h3] at h2
        exact Option.some.inj h2
      have hnot : w ∉ ts.group := fun hin => h.disjoint w hin hw
      have ho : old[q]? = some (old[q]'(by rw [h.oldLen]; exact hq)) := List.getElem?_eq_getElem _
      have hol : (old[q]'(by rw [h.oldLen]; exact hq)).length = (ownList tp tt.nbElems q).length := by
        have h1 := h.oldVals _ _ ho
        rw [ht.nbl q hq] at h1
        simp only [Except.ok.injEq] at h1; omega
      have e1 : ∀ ws, (pieceOf ts.group sp (ownList tp tt.nbElems q) ws).map (fun i => sourceCell ts src ((ownList tp tt.nbElems q).getD i 0)) =
          (crossing ts tt sp tp ws w).map (sourceCell ts src) := by
        intro ws
        rw [pieceOf_cells _ _ _ _ _ (sourceCell ts src) (fun _ _ => rfl), crossing_tgt h.nb gt hqw]
      have e2 : ∀ ws, (pieceOf ts.group sp (ownList tp tt.nbElems q) ws).length = (crossing ts tt sp tp ws w).length := by
        intro ws
        have := congrArg List.length (e1 ws)
        simpa using this
      obtain ⟨res, r1, r2⟩ := takeValues_ok ht hs h.nb.symm hq gs fs.size (fun i => sourceCell ts src ((ownList tp tt.nbElems q).getD i 0)) (by
        intro i hi
        apply hcell
        have hLi : (ownList tp tt.nbElems q).getD i 0 = (ownList tp tt.nbElems q)[i] := by simp [List.getD, List.getElem?_eq_getElem hi]
        rw [hLi, h.nb]
        exact (mem_ownList.1 (List.getElem_mem hi)).1) _ hol
      refine ⟨res, ?_, ?_⟩
      · have g1 : ((List.range W).map (sideF W ts tt sp tp src))[w]? = some (sideF W ts tt sp tp src w) := by
          rw [List.getElem?_map, List.getElem?_range hwW]; rfl
        have g2 : ((List.range W).map fun wt => cat W fun ws => (crossing ts tt sp tp ws wt).map (sourceCell ts src))[w]? =
            some (cat W fun ws => (crossing ts tt sp tp ws w).map (sourceCell ts src)) := by
          rw [List.getElem?_map, List.getElem?_range hwW]; rfl
        simp only [hidx, vget_ok g1, vget_ok g2, vget_ok ho, ok_bind]
        unfold sideF
        rw [if_neg hnot]
        simp only [e1, e2] at r1
        exact r1
      · rw [r2]
        apply List.ext_getElem?
        intro i
        by_cases hi : i < (ownList tp tt.nbElems q).length
        · rw [List.getElem?_map, List.getElem?_map, List.getElem?_range hi, List.getElem?_eq_getElem hi]
          simp [List.getD, List.getElem?_eq_getElem hi]
        · rw [List.getElem?_eq_none (by simp; omega), List.getElem?_eq_none (by simp; omega)])
  obtain ⟨res, r1, r2⟩ := hlast
  have hres : ∀ (q : Nat) (v : List V), res[q]? = some v → q < tt.group.length ∧ v.map some = (ownList tp tt.nbElems q).map (sourceCell ts src) := by
    intro q v hv
    have hq : q < tt.group.length := by
      rw [List.Forall₂.length_eq r2]
      exact (List.getElem?_eq_some_iff.1 hv).1
    have := (List.forall₂_iff_get.1 r2).2 q hq (by rw [← List.Forall₂.length_eq r2]; exact hq)
    obtain ⟨h3, h4⟩ := List.getElem?_eq_some_iff.1 hv
    simp only [List.get_eq_getElem, h4] at this
    rw [List.Nodup.idxOf_getElem (StrictSorted.nodup h.sortedT)] at this
    exact ⟨hq, this⟩
  refine ⟨res, ?_, (List.Forall₂.length_eq r2).symm, ?_, ?_⟩
  · unfold decExchange
    rw [C85_sent_sorted h.builtS h.sortedS, C85_sent_sorted h.builtT h.sortedT, ok_bind, ok_bind, if_neg (by simpa using h.nb)]
    simp only [hun]
    rw [dec_mapM_ok (g := sideF W ts tt sp tp src) fun w hw => decSide_ok h hs ht (List.mem_range.1 hw), ok_bind, allToAll_ok h, ok_bind]
    exact r1
  · intro q v hv
    obtain ⟨hq, hm⟩ := hres q v hv
    have := congrArg List.length hm
    rw [ht.nbl q hq]
    simp only [List.length_map] at this
    rw [this]
  · intro g hg p l q m hp hq
    obtain ⟨x, hx⟩ := hcell g hg
    refine ⟨x, ?_, ?_⟩
    · rw [sourceCell, hp] at hx; exact hx
    · obtain ⟨m', h1, h2⟩ := ht.gtl g (h.nb ▸ hg)
      rw [hq] at h1
      cases h1
      have hqlt := ht.lt g (h.nb ▸ hg)
      have hrl := (List.Forall₂.length_eq r2)
      have hrq : res[tp g]? = some (res[tp g]'(by omega)) := List.getElem?_eq_getElem _
      obtain ⟨_, hm⟩ := hres _ _ hrq
      rw [hrq]
      have := congrArg (·[m]?) hm
      simp only [List.getElem?_map, h2, Option.map_some, hx] at this
      obtain ⟨y, hy1, hy2⟩ := Option.map_eq_some_iff.1 this
      cases hy2
      exact hy1

/-- **Different numbers of elements are refused** by an exception, before any value is exchanged. -/
theorem C86_refused {W : Nat} {ts tt : BTopo} (hs : Built ts) (ht : Built tt) (h1 : ts.group.Pairwise (· < ·)) (h2 : tt.group.Pairwise (· < ·))
    (hne : ts.nbElems ≠ tt.nbElems) (src old : List (List V)) : decExchange W ts tt src old = .error .exn := by
  unfold decExchange
  rw [C85_sent_sorted hs h1, C85_sent_sorted ht h2, ok_bind, ok_bind, if_pos hne]
  rfl

/-! ## Example: five elements, 2 and 3 on the source side, 4 and 1 on the target side -/

def decTs : BTopo := { nbProcsPerDim := [2], axes := [[0, 2, 5]], cyc := [0], group := [0, 1], nbElems := 5 }
def decTt : BTopo := { nbProcsPerDim := [2], axes := [[0, 4, 5]], cyc := [0], group := [2, 3], nbElems := 5 }

example : DecOk 4 decTs decTt [[10, 11], [12, 13, 14]] [[0, 0, 0, 0], [0]] where
  builtS := .counts (group := [0, 1]) (counts := [2, 3]) (by simp) rfl rfl
  builtT := .counts (group := [2, 3]) (counts := [4, 1]) (by simp) rfl rfl
  four := le_rfl
  sortedS := by simp [decTs]
  sortedT := by simp [decTt]
  disjoint := by intro w; simp [decTs, decTt]; omega
  cover := by intro w; simp [decTs, decTt]; omega
  nb := rfl
  srcLen := rfl
  srcVals := by
    rintro (_ | _ | p) v hv
    · cases hv; rfl
    · cases hv; rfl
    · simp at hv
  oldLen := rfl
  oldVals := by
    rintro (_ | _ | p) v hv
    · cases hv; rfl
    · cases hv; rfl
    · simp at hv
example : decExchange 4 decTs decTt [[10, 11], [12, 13, 14]] [[0, 0, 0, 0], [0]] = .ok [[10, 11, 12, 13], [14]] := rfl

/-- **Finding.**  With fewer than four processors the printing in `sendData` and `recvData` reads outside the arrays of the counts. -/
theorem C86_finding_three_processors : ∃ ts tt, BTopo.ofCounts [0] [1] = .ok ts ∧ BTopo.ofCounts [1, 2] [1, 0] = .ok tt ∧
    decExchange 3 ts tt [[7]] [[0], []] = (.error .ub : M (List (List Nat))) := ⟨_, _, rfl, rfl, rfl⟩

/-- **Finding.**  When a processor of the world with a smaller rank is in no group, the counts are in world ranks and the communicator in ranks of the union: the exchange
is broken although the topologies are right. -/
theorem C86_finding_world : ∃ tt, BTopo.ofCounts [2, 4] [4, 1] = .ok tt ∧
    decExchange 5 decTs tt [[10, 11], [12, 13, 14]] [[0, 0, 0, 0], [0]] = .error .ub := ⟨_, rfl, rfl⟩

/-- **Finding.**  With a group given in another order than the one of the world ranks the exchange is broken. -/
theorem C86_finding_order : ∃ ts, BTopo.ofCounts [1, 0] [2, 3] = .ok ts ∧
    decExchange 4 ts decTt [[10, 11], [12, 13, 14]] [[0, 0, 0, 0], [0]] = .error .ub := ⟨_, rfl, rfl⟩

end MC
