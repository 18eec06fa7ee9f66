import Verif.OverlapLocProps

/-!
# Exchange of the meshes of `OverlapDEC`: theorems (C88)
-/

namespace MC
variable {V : Type}

theorem procMesh_inj {i j : Nat} {a b : Bool} : procMesh i a = procMesh j b ↔ i = j ∧ a = b := by
  unfold procMesh
  rw [EmbeddingLike.apply_eq_iff_eq, Prod.mk.injEq]

theorem procMesh_lt {i j : Nat} {a b : Bool} : procMesh i a < procMesh j b ↔ i < j ∨ i = j ∧ a < b := by
  unfold procMesh; rw [Prod.Lex.toLex_lt_toLex]

theorem procMesh_eta (x : ProcMesh) : procMesh (ofLex x).1 (ofLex x).2 = x := rfl

theorem cpl_inj {i j i' j' : Nat} : cpl i j = cpl i' j' ↔ i = i' ∧ j = j' := by
  unfold cpl
  rw [EmbeddingLike.apply_eq_iff_eq, Prod.mk.injEq]

theorem couple_ext {c d : Couple} (h1 : c.src = d.src) (h2 : c.tgt = d.tgt) : c = d := by
  rw [← cpl_eta c, ← cpl_eta d, h1, h2]

theorem stdSort_strict {α : Type} [LinearOrder α] {l : List α} (h : l.Nodup) : StrictSorted (stdSort l) := by
  have h1 := stdSort_sorted l
  have h2 : (stdSort l).Nodup := (stdSort_perm l).nodup_iff.2 h
  exact (List.Pairwise.and h1 h2).imp fun ⟨h3, h4⟩ => lt_of_le_of_ne h3 h4

/-- every couple of a list involves its processor, and the lists are in increasing order -/
structure TodoOk (N : Nat) (todo : List (List Couple)) : Prop where
  len : todo.length = N
  sorted : ∀ (p : Nat) (l : List Couple), todo[p]? = some l → l.Pairwise (· < ·)
  own : ∀ (p : Nat) (l : List Couple) (c : Couple), todo[p]? = some l → c ∈ l → (c.src < N ∧ c.tgt < N) ∧ (c.src = p ∨ c.tgt = p)

/-- the mesh of `s` needed by `me` -/
def Needed (me : Nat) (l : List Couple) (s : Nat) (b : Bool) : Prop := s ≠ me ∧ if b then cpl s me ∈ l else cpl me s ∈ l

section lists
variable {N : Nat} {todo : List (List Couple)}

theorem mem_toSend (h : TodoOk N todo) {me i : Nat} {b : Bool} : procMesh i b ∈ procsToSendMesh me todo ↔ ∃ l, todo[i]? = some l ∧ Needed i l me b := by
  unfold procsToSendMesh
  rw [mem_stdSort]
  simp only [List.mem_flatten, List.mem_map, exists_exists_and_eq_and]
  constructor
  · rintro ⟨⟨l, k⟩, hlk, hin⟩
    rw [List.mem_zipIdx_iff_getElem?] at hlk
    simp only [List.mem_flatten, List.mem_map, exists_exists_and_eq_and] at hin
    obtain ⟨c, hc, hx⟩ := hin
    obtain ⟨_, hown⟩ := h.own k l c hlk hc
    rw [List.mem_append] at hx
    rcases hx with hx | hx
    · split at hx
      · rename_i hh
        rw [List.mem_singleton, procMesh_inj] at hx
        obtain ⟨rfl, rfl⟩ := hx
        refine ⟨l, hlk, Ne.symm hh.2, ?_⟩
        rw [if_pos rfl]
        have : c.tgt = i := by
          rcases hown with h1 | h1
          · exact absurd (h1.symm.trans hh.1) hh.2
          · exact h1
        rw [← hh.1, ← this, cpl_eta]; exact hc
      · simp at hx
    · split at hx
      · rename_i hh
        rw [List.mem_singleton, procMesh_inj] at hx
        obtain ⟨rfl, rfl⟩ := hx
        refine ⟨l, hlk, Ne.symm hh.2, ?_⟩
        rw [if_neg (by simp)]
        have : c.src = i := by
          rcases hown with h1 | h1
          · exact h1
          · exact absurd (h1.symm.trans hh.1) hh.2
        rw [← hh.1, ← this, cpl_eta]; exact hc
      · simp at hx
  · rintro ⟨l, hl, hne, hb⟩
    refine ⟨(l, i), List.mem_zipIdx_iff_getElem?.2 hl, ?_⟩
    simp only [List.mem_flatten, List.mem_map, exists_exists_and_eq_and]
    cases b with
    | true =>
      rw [if_pos rfl] at hb
      exact ⟨_, hb, List.mem_append_left _ (by rw [if_pos ⟨rfl, Ne.symm hne⟩]; simp)⟩
    | false =>
      rw [if_neg (by simp)] at hb
      exact ⟨_, hb, List.mem_append_right _ (by rw [if_pos ⟨rfl, Ne.symm hne⟩]; simp)⟩

theorem toSend_sorted (h : TodoOk N todo) (me : Nat) : StrictSorted (procsToSendMesh me todo) := by
  apply stdSort_strict
  rw [List.nodup_flatten]
  constructor
  · intro x hx
    obtain ⟨⟨l, k⟩, hlk, rfl⟩ := List.mem_map.1 hx
    rw [List.mem_zipIdx_iff_getElem?] at hlk
    simp only
    rw [List.nodup_flatten]
    constructor
    · intro y hy
      obtain ⟨c, _, rfl⟩ := List.mem_map.1 hy
      split <;> split <;> simp [procMesh_inj]
    · rw [List.pairwise_map]
      refine List.Pairwise.imp_of_mem ?_ (h.sorted k l hlk)
      intro c d hc hd hlt
      rw [List.disjoint_left]
      intro y hy1 hy2
      have hne : c ≠ d := ne_of_lt hlt
      obtain ⟨_, o1⟩ := h.own k l c hlk hc
      obtain ⟨_, o2⟩ := h.own k l d hlk hd
      rw [List.mem_append] at hy1 hy2
      rcases hy1 with hy1 | hy1 <;> rcases hy2 with hy2 | hy2 <;> split at hy1 <;> split at hy2 <;> simp at hy1 hy2
      · rename_i a b
        exact hne (couple_ext (by omega) (by omega))
      · subst hy1; simp [procMesh_inj] at hy2
      · subst hy1; simp [procMesh_inj] at hy2
      · rename_i a b
        exact hne (couple_ext (by omega) (by omega))
  · rw [List.pairwise_map]
    have hz : todo.zipIdx.Pairwise fun a b => a.2 ≠ b.2 := by
      have : (todo.zipIdx.map Prod.snd).Nodup := by rw [List.zipIdx_map_snd]; exact List.nodup_range'
      rw [List.Nodup, List.pairwise_map] at this
      exact this
    refine hz.imp ?_
    rintro ⟨l, k⟩ ⟨l', k'⟩ hne
    rw [List.disjoint_left]
    intro y hy1 hy2
    simp only [List.mem_flatten, List.mem_map, exists_exists_and_eq_and] at hy1 hy2
    obtain ⟨c, _, hc⟩ := hy1
    obtain ⟨d, _, hd⟩ := hy2
    have f1 : (ofLex y).1 = k := by
      rw [List.mem_append] at hc
      rcases hc with hc | hc <;> split at hc <;> simp at hc <;> subst hc <;> rfl
    have f2 : (ofLex y).1 = k' := by
      rw [List.mem_append] at hd
      rcases hd with hd | hd <;> split at hd <;> simp at hd <;> subst hd <;> rfl
    exact hne (f1.symm.trans f2)

/-- a list with what one couple asks for -/
def rcvOf (me : Nat) (P : Nat → Bool) (c : Couple) : List ProcMesh := if c.src = c.tgt then [] else
  if c.src = me then (if P c.tgt then [procMesh c.tgt false] else []) else (if P c.src then [procMesh c.src true] else [])

theorem firstRcv_eq (me : Nat) (l : List Couple) : firstRcv me l = stdSort ((l.map (rcvOf me fun s => decide (s < me))).flatten) := by
  unfold firstRcv rcvOf
  simp only [decide_eq_true_eq]

theorem secondRcv_eq (me : Nat) (l : List Couple) : secondRcv me l = stdSort ((l.map (rcvOf me fun s => decide (¬ s < me))).flatten) := by
  unfold secondRcv rcvOf
  congr 4
  funext c
  by_cases h1 : c.tgt < me <;> by_cases h2 : c.src < me <;> simp [h1, h2]

theorem mem_rcvOf {me : Nat} {P : Nat → Bool} {c : Couple} (hc : c.src = me ∨ c.tgt = me) {s : Nat} {b : Bool} :
    procMesh s b ∈ rcvOf me P c ↔ P s = true ∧ s ≠ me ∧ c = if b then cpl s me else cpl me s := by
  unfold rcvOf
  by_cases h1 : c.src = c.tgt
  · rw [if_pos h1]
    simp only [List.not_mem_nil, false_iff]
    rintro ⟨_, h2, h3⟩
    cases b <;> simp at h3 <;> subst h3 <;> simp at h1 <;> omega
  · rw [if_neg h1]
    by_cases h2 : c.src = me
    · rw [if_pos h2]
      constructor
      · intro h
        split at h
        · rename_i h3
          rw [List.mem_singleton, procMesh_inj] at h
          obtain ⟨rfl, rfl⟩ := h
          refine ⟨h3, by omega, ?_⟩
          rw [if_neg (by simp), ← h2, cpl_eta]
        · simp at h
      · rintro ⟨h3, h4, h5⟩
        cases b with
        | true => rw [if_pos rfl] at h5; subst h5; simp at h2; omega
        | false =>
          rw [if_neg (by simp)] at h5
          subst h5
          rw [if_pos (by simpa using h3)]; simp
    · rw [if_neg h2]
      have h2' : c.tgt = me := by omega
      constructor
      · intro h
        split at h
        · rename_i h3
          rw [List.mem_singleton, procMesh_inj] at h
          obtain ⟨rfl, rfl⟩ := h
          refine ⟨h3, h2, ?_⟩
          rw [if_pos rfl, ← h2', cpl_eta]
        · simp at h
      · rintro ⟨h3, h4, h5⟩
        cases b with
        | false => rw [if_neg (by simp)] at h5; subst h5; simp at h2
        | true =>
          rw [if_pos rfl] at h5
          subst h5
          rw [if_pos (by simpa using h3)]; simp

theorem mem_rcv {me : Nat} {P : Nat → Bool} {l : List Couple} (hl : ∀ c ∈ l, c.src = me ∨ c.tgt = me) {s : Nat} {b : Bool} :
    procMesh s b ∈ stdSort ((l.map (rcvOf me P)).flatten) ↔ P s = true ∧ Needed me l s b := by
  rw [mem_stdSort]
  simp only [List.mem_flatten, List.mem_map, exists_exists_and_eq_and]
  unfold Needed
  constructor
  · rintro ⟨c, hc, hx⟩
    obtain ⟨h1, h2, h3⟩ := (mem_rcvOf (hl c hc)).1 hx
    refine ⟨h1, h2, ?_⟩
    cases b <;> simp at h3 ⊢ <;> rw [← h3] <;> exact hc
  · rintro ⟨h1, h2, h3⟩
    refine ⟨if b then cpl s me else cpl me s, by cases b <;> simpa using h3, ?_⟩
    exact (mem_rcvOf (by cases b <;> simp)).2 ⟨h1, h2, rfl⟩

theorem rcv_sorted {me : Nat} {P : Nat → Bool} {l : List Couple} (hl : ∀ c ∈ l, c.src = me ∨ c.tgt = me) (hs : l.Pairwise (· < ·)) : StrictSorted (stdSort ((l.map (rcvOf me P)).flatten)) := by
  apply stdSort_strict
  rw [List.nodup_flatten]
  constructor
  · intro x hx
    obtain ⟨c, _, rfl⟩ := List.mem_map.1 hx
    unfold rcvOf
    split
    · simp
    · split <;> split <;> simp
  · rw [List.pairwise_map]
    refine List.Pairwise.imp_of_mem ?_ hs
    intro c d hc hd hlt
    rw [List.disjoint_left]
    intro y hy1 hy2
    rw [← procMesh_eta y] at hy1 hy2
    obtain ⟨_, _, h1⟩ := (mem_rcvOf (hl c hc)).1 hy1
    obtain ⟨_, _, h2⟩ := (mem_rcvOf (hl d hd)).1 hy2
    exact ne_of_lt hlt (h1.trans h2.symm)

end lists

/-! ## The common order -/

/-- the five messages of a mesh -/
def meshEvs (msg : Nat → Nat → Bool → Nat → V) (s : Nat) (x : ProcMesh) : List (Ev V) := (List.range 5).map fun k => ⟨s, (ofLex x).1, 1140 + k, msg s (ofLex x).1 (ofLex x).2 k⟩

/-- the messages of a processor -/
def procEvs (msg : Nat → Nat → Bool → Nat → V) (todo : List (List Couple)) (s : Nat) : List (Ev V) := ((procsToSendMesh s todo).map (meshEvs msg s)).flatten

/-- all messages, by sender -/
def allEvs (msg : Nat → Nat → Bool → Nat → V) (N : Nat) (todo : List (List Couple)) : List (Ev V) := ((List.range N).map (procEvs msg todo)).flatten

theorem filter_flatten_map {α β : Type} (P : β → Bool) (f : α → List β) (l : List α) : ((l.map f).flatten).filter P = (l.map fun x => (f x).filter P).flatten := by
  induction l with
  | nil => rfl
  | cons a l ih => simp [List.filter_append, ih]

theorem map_flatten_map {α β γ : Type} (g : β → γ) (f : α → List β) (l : List α) : ((l.map f).flatten).map g = (l.map fun x => (f x).map g).flatten := by
  induction l with
  | nil => rfl
  | cons a l ih => simp [ih]

theorem flatten_map_filter {α β : Type} (P : α → Bool) (f : α → List β) (l : List α) : (l.map fun x => if P x then f x else []).flatten = ((l.filter P).map f).flatten := by
  induction l with
  | nil => rfl
  | cons a l ih =>
    rw [List.map_cons, List.flatten_cons, ih, List.filter_cons]
    split <;> simp

theorem proj_sender (msg : Nat → Nat → Bool → Nat → V) (todo : List (List Couple)) (p : Nat) :
    ((procEvs msg todo p).filter (·.on p)).map (·.act p) = ((procsToSendMesh p todo).map (sendMesh msg p)).flatten := by
  unfold procEvs
  rw [filter_flatten_map, map_flatten_map]
  congr 1
  apply List.map_congr_left
  intro x _
  rw [List.filter_eq_self.2]
  · unfold meshEvs sendMesh
    rw [List.map_map]
    apply List.map_congr_left
    intro k _
    simp [Ev.act]
  · intro e he
    obtain ⟨k, _, rfl⟩ := List.mem_map.1 he
    simp [Ev.on]

/-- the meshes `p` gets from `s` -/
def fromProc (todo : List (List Couple)) (p s : Nat) : List ProcMesh := ((procsToSendMesh s todo).filter fun x => decide ((ofLex x).1 = p)).map fun x => procMesh s (ofLex x).2

theorem proj_receiver (msg : Nat → Nat → Bool → Nat → V) (todo : List (List Couple)) {p s : Nat} (h : s ≠ p) :
    ((procEvs msg todo s).filter (·.on p)).map (·.act p) = ((fromProc todo p s).map receiveMesh).flatten := by
  unfold procEvs fromProc
  rw [filter_flatten_map, map_flatten_map, List.map_map, ← flatten_map_filter]
  congr 1
  apply List.map_congr_left
  intro x _
  by_cases hx : (ofLex x).1 = p
  · rw [if_pos (by simpa using hx), List.filter_eq_self.2]
    · unfold meshEvs
      rw [List.map_map]
      simp [Ev.act, receiveMesh, procMesh, List.range_succ, h]
    · intro e he
      obtain ⟨k, _, rfl⟩ := List.mem_map.1 he
      simp [Ev.on, hx]
  · rw [if_neg (by simpa using hx), List.filter_eq_nil_iff.2]
    · rfl
    · intro e he
      obtain ⟨k, _, rfl⟩ := List.mem_map.1 he
      simp [Ev.on, hx, h]

section order
variable {N : Nat} {todo : List (List Couple)}

theorem mem_fromProc {p s : Nat} {x : ProcMesh} : x ∈ fromProc todo p s ↔ (ofLex x).1 = s ∧ procMesh p (ofLex x).2 ∈ procsToSendMesh s todo := by
  unfold fromProc
  rw [List.mem_map]
  constructor
  · rintro ⟨y, hy, rfl⟩
    obtain ⟨h1, h2⟩ := List.mem_filter.1 hy
    refine ⟨rfl, ?_⟩
    have : procMesh p (ofLex y).2 = y := by
      rw [← (by simpa using h2 : (ofLex y).1 = p)]; exact procMesh_eta y
    show procMesh p (ofLex y).2 ∈ _
    rw [this]; exact h1
  · rintro ⟨h1, h2⟩
    exact ⟨_, List.mem_filter.2 ⟨h2, by simp [procMesh]⟩, by subst h1; rfl⟩

theorem fromProcs_sorted (h : TodoOk N todo) (p : Nat) {l : List Nat} (hl : l.Pairwise (· < ·)) : StrictSorted ((l.map (fromProc todo p)).flatten) := by
  rw [StrictSorted, List.pairwise_flatten]
  constructor
  · intro x hx
    obtain ⟨s, _, rfl⟩ := List.mem_map.1 hx
    unfold fromProc
    rw [List.pairwise_map]
    refine List.Pairwise.imp_of_mem ?_ ((toSend_sorted h s).filter _)
    intro a b ha hb hlt
    have e1 : (ofLex a).1 = p := by simpa using (List.mem_filter.1 ha).2
    have e2 : (ofLex b).1 = p := by simpa using (List.mem_filter.1 hb).2
    rw [← procMesh_eta a, ← procMesh_eta b, procMesh_lt] at hlt
    rw [procMesh_lt]
    rcases hlt with h1 | h1
    · omega
    · exact Or.inr ⟨rfl, h1.2⟩
  · rw [List.pairwise_map]
    refine hl.imp ?_
    intro s s' hlt x hx y hy
    rw [← procMesh_eta x, ← procMesh_eta y, procMesh_lt]
    rw [mem_fromProc] at hx hy
    left
    rw [hx.1, hy.1]; exact hlt

theorem toSend_out {me : Nat} (h : TodoOk N todo) {x : ProcMesh} (hx : x ∈ procsToSendMesh me todo) : me < N ∧ (ofLex x).1 < N ∧ me ≠ (ofLex x).1 := by
  rw [← procMesh_eta x, mem_toSend h] at hx
  obtain ⟨l, hl, h1, h2⟩ := hx
  refine ⟨?_, by rw [← h.len]; exact (List.getElem?_eq_some_iff.1 hl).1, h1⟩
  split at h2
  · exact (h.own _ l _ hl h2).1.1
  · exact (h.own _ l _ hl h2).1.2

theorem range_split {N p : Nat} (hp : p < N) : List.range N = List.range p ++ p :: List.range' (p + 1) (N - p - 1) := by
  rw [List.range_eq_range', List.range_eq_range', show N = p + (1 + (N - p - 1)) by omega, ← List.range'_append_1, ← List.range'_append_1]
  simp

theorem rcv_first (h : TodoOk N todo) {p : Nat} {l : List Couple} (hl : todo[p]? = some l) :
    ((List.range p).map (fromProc todo p)).flatten = firstRcv p l := by
  have hown : ∀ c ∈ l, c.src = p ∨ c.tgt = p := fun c hc => (h.own p l c hl hc).2
  rw [firstRcv_eq]
  refine StrictSorted.ext (fromProcs_sorted h p List.pairwise_lt_range) (rcv_sorted hown (h.sorted p l hl)) ?_
  intro x
  rw [← procMesh_eta x, mem_rcv hown]
  simp only [List.mem_flatten, List.mem_map, List.mem_range, exists_exists_and_eq_and, mem_fromProc, decide_eq_true_eq]
  constructor
  · rintro ⟨s, h1, h2, h3⟩
    obtain ⟨l', hl', h4⟩ := (mem_toSend h).1 h3
    rw [hl] at hl'; cases hl'
    subst h2
    exact ⟨h1, h4⟩
  · rintro ⟨h1, h2⟩
    exact ⟨_, h1, rfl, (mem_toSend h).2 ⟨l, hl, h2⟩⟩

theorem rcv_second (h : TodoOk N todo) {p : Nat} (hp : p < N) {l : List Couple} (hl : todo[p]? = some l) :
    ((List.range' (p + 1) (N - p - 1)).map (fromProc todo p)).flatten = secondRcv p l := by
  have hown : ∀ c ∈ l, c.src = p ∨ c.tgt = p := fun c hc => (h.own p l c hl hc).2
  rw [secondRcv_eq]
  refine StrictSorted.ext (fromProcs_sorted h p List.pairwise_lt_range') (rcv_sorted hown (h.sorted p l hl)) ?_
  intro x
  rw [← procMesh_eta x, mem_rcv hown]
  simp only [List.mem_flatten, List.mem_map, List.mem_range'_1, exists_exists_and_eq_and, mem_fromProc, decide_eq_true_eq]
  constructor
  · rintro ⟨s, h1, h2, h3⟩
    obtain ⟨l', hl', h4⟩ := (mem_toSend h).1 h3
    rw [hl] at hl'; cases hl'
    subst h2
    exact ⟨by rw [procMesh_eta] at h1; omega, h4⟩
  · rintro ⟨h1, h2⟩
    have h3 := (mem_toSend h).2 ⟨l, hl, h2⟩
    have h4 := toSend_out h h3
    have h5 := h2.1
    exact ⟨_, by simp only [procMesh, ofLex_toLex] at *; omega, rfl, h3⟩

theorem exchange_proj (msg : Nat → Nat → Bool → Nat → V) (h : TodoOk N todo) (p : Nat) :
    exchangeProg msg todo p = projProg (allEvs msg N todo) p := by
  unfold exchangeProg
  cases hl : todo[p]? with
  | none =>
    have hpN : ¬ p < N := by
      intro hp
      rw [List.getElem?_eq_getElem (by rw [h.len]; exact hp)] at hl
      cases hl
    simp only
    unfold projProg
    rw [List.filter_eq_nil_iff.2]
    · rfl
    · intro e he
      unfold allEvs at he
      simp only [List.mem_flatten, List.mem_map, List.mem_range, exists_exists_and_eq_and] at he
      obtain ⟨s, hs, he⟩ := he
      unfold procEvs at he
      simp only [List.mem_flatten, List.mem_map, exists_exists_and_eq_and] at he
      obtain ⟨x, hx, he⟩ := he
      obtain ⟨k, _, rfl⟩ := List.mem_map.1 he
      have := toSend_out h hx
      simp only [Ev.on, Bool.or_eq_true, decide_eq_true_eq, not_or]
      omega
  | some l =>
    have hpN : p < N := by rw [← h.len]; exact (List.getElem?_eq_some_iff.1 hl).1
    simp only
    unfold projProg allEvs
    rw [range_split hpN, List.map_append, List.map_cons, List.flatten_append, List.flatten_cons, List.filter_append, List.filter_append, List.map_append, List.map_append,
      proj_sender, ← List.append_assoc]
    congr 1
    · congr 1
      rw [filter_flatten_map, map_flatten_map, ← rcv_first h hl, map_flatten_map, List.flatten_flatten, List.map_map]
      congr 1
      apply List.map_congr_left
      intro s hs
      exact (proj_receiver msg todo (by have := List.mem_range.1 hs; omega)).symm
    · rw [filter_flatten_map, map_flatten_map, ← rcv_second h hpN hl, map_flatten_map, List.flatten_flatten, List.map_map]
      congr 1
      apply List.map_congr_left
      intro s hs
      exact (proj_receiver msg todo (by have := List.mem_range'_1.1 hs; omega)).symm

theorem allEvs_out (msg : Nat → Nat → Bool → Nat → V) (h : TodoOk N todo) : ∀ e ∈ allEvs msg N todo, e.s < N ∧ e.d < N ∧ e.s ≠ e.d := by
  intro e he
  unfold allEvs procEvs at he
  simp only [List.mem_flatten, List.mem_map, List.mem_range, exists_exists_and_eq_and] at he
  obtain ⟨s, hs, x, hx, he⟩ := he
  obtain ⟨k, _, rfl⟩ := List.mem_map.1 he
  exact toSend_out h hx

/-- what a processor gets from another one -/
theorem got_from (msg : Nat → Nat → Bool → Nat → V) {p s : Nat} (hs : s ≠ p) : ((procEvs msg todo s).filter fun e => decide (e.d = p)).map (·.v) =
    ((fromProc todo p s).map fun x => (List.range 5).map (msg (ofLex x).1 p (ofLex x).2)).flatten := by
  unfold procEvs fromProc
  rw [filter_flatten_map, map_flatten_map, List.map_map, ← flatten_map_filter]
  congr 1
  apply List.map_congr_left
  intro x _
  by_cases hx : (ofLex x).1 = p
  · rw [if_pos (by simpa using hx), List.filter_eq_self.2]
    · unfold meshEvs
      rw [List.map_map]
      subst hx
      rfl
    · intro e he
      obtain ⟨k, _, rfl⟩ := List.mem_map.1 he
      simp [hx]
  · rw [if_neg (by simpa using hx), List.filter_eq_nil_iff.2]
    · rfl
    · intro e he
      obtain ⟨k, _, rfl⟩ := List.mem_map.1 he
      simp [hx]

end order

/-- **C88, the exchange of the meshes.**  Whatever the sharing of the work among any number of processors: in every state of every execution, some receive can go on
as long as a processor has something to do, also when no message is kept by MPI (the exchange never blocks); every execution ends; and at the end
every processor has received the five messages of exactly the meshes it needs for its part of the work: the source mesh of every other processor which is the source of one of its pairs, the target
mesh of every other processor which is the target of one of its pairs, each mesh when the program asks for it, and no message is left. -/
theorem C88_exchange (msg : Nat → Nat → Bool → Nat → V) {N : Nat} {todo : List (List Couple)} (hlen : todo.length = N)
    (hok : ∀ (p : Nat) (l : List Couple), todo[p]? = some l → l.Pairwise (· < ·) ∧ ∀ c ∈ l, (c.src = p ∨ c.tgt = p) ∧ c.src < N ∧ c.tgt < N)
    {st : NetState V} (hr : NetReach (exchangeProg msg todo) st) :
    ((∃ p, st.rem p ≠ []) → ∃ st', SureStep st st') ∧
    (∀ st', Step st st' → workLeft N st' < workLeft N st) ∧
    ((∀ p, st.rem p = []) → (∀ s d t, s ≠ d → st.chan s d t = []) ∧ ∀ (p : Nat) (l : List Couple), todo[p]? = some l →
      st.got p = ((firstRcv p l ++ secondRcv p l).map fun x => (List.range 5).map (msg (ofLex x).1 p (ofLex x).2)).flatten ∧
      (firstRcv p l ++ secondRcv p l).Nodup ∧
      ∀ s b, procMesh s b ∈ firstRcv p l ++ secondRcv p l ↔ s ≠ p ∧ if b then cpl s p ∈ l else cpl p s ∈ l) := by
  have h : TodoOk N todo := ⟨hlen, fun p l hl => (hok p l hl).1, fun p l c hl hc => ⟨((hok p l hl).2 c hc).2, ((hok p l hl).2 c hc).1⟩⟩
  have hprog : exchangeProg msg todo = projProg (allEvs msg N todo) := funext (exchange_proj msg h)
  rw [hprog] at hr
  have hE := allEvs_out msg h
  refine ⟨msg_progress_any (fun e he => (hE e he).2.2) hr, fun st' hs => msg_ends hE hr hs, fun hf => ?_⟩
  obtain ⟨h1, h2⟩ := msg_done (fun e he => (hE e he).2.2) hr hf
  refine ⟨h2, fun p l hl => ?_⟩
  have hpN : p < N := by rw [← hlen]; exact (List.getElem?_eq_some_iff.1 hl).1
  have hown : ∀ c ∈ l, c.src = p ∨ c.tgt = p := fun c hc => (h.own p l c hl hc).2
  have hself : ((procEvs msg todo p).filter fun e => decide (e.d = p)).map (·.v) = [] := by
    rw [List.filter_eq_nil_iff.2]
    · rfl
    · intro e he
      unfold procEvs at he
      simp only [List.mem_flatten, List.mem_map, exists_exists_and_eq_and] at he
      obtain ⟨x, hx, he⟩ := he
      obtain ⟨k, _, rfl⟩ := List.mem_map.1 he
      have := (toSend_out h hx).2.2
      simp only [decide_eq_true_eq]
      omega
  have hmem : ∀ s b, procMesh s b ∈ firstRcv p l ++ secondRcv p l ↔ Needed p l s b := by
    intro s b
    rw [List.mem_append, firstRcv_eq, secondRcv_eq, mem_rcv hown, mem_rcv hown]
    simp only [decide_eq_true_eq]
    tauto
  refine ⟨?_, ?_, hmem⟩
  · rw [h1 p]
    unfold allEvs
    rw [range_split hpN, List.map_append, List.map_cons, List.flatten_append, List.flatten_cons, List.filter_append, List.filter_append, List.map_append, List.map_append,
      hself, List.nil_append, List.map_append, List.flatten_append]
    congr 1
    · rw [filter_flatten_map, map_flatten_map, ← rcv_first h hl, map_flatten_map, List.flatten_flatten, List.map_map]
      congr 1
      apply List.map_congr_left
      intro s hs
      exact got_from msg (by have := List.mem_range.1 hs; omega)
    · rw [filter_flatten_map, map_flatten_map, ← rcv_second h hpN hl, map_flatten_map, List.flatten_flatten, List.map_map]
      congr 1
      apply List.map_congr_left
      intro s hs
      exact got_from msg (by have := List.mem_range'_1.1 hs; omega)
  · rw [List.nodup_append]
    refine ⟨?_, ?_, ?_⟩
    · rw [firstRcv_eq]; exact (rcv_sorted hown (h.sorted p l hl)).nodup
    · rw [secondRcv_eq]; exact (rcv_sorted hown (h.sorted p l hl)).nodup
    · rintro a ha b hb rfl
      rw [firstRcv_eq, ← procMesh_eta a, mem_rcv hown] at ha
      rw [secondRcv_eq, ← procMesh_eta a, mem_rcv hown] at hb
      simp only [decide_eq_true_eq] at ha hb
      exact hb.1 ha.1

/-- three processors, the pairs (0, 1) and (2, 1) are for processor 1 and the pair (0, 2) is for processor 0: processor 0 sends its source mesh to 1, and gets the target mesh of 2 -/
example : exchangeProg (fun s d b k => (s, d, b, k)) [[cpl 0 2], [cpl 0 1, cpl 2 1], []] 0 =
    [.send 1 1140 (0, 1, true, 0), .send 1 1141 (0, 1, true, 1), .send 1 1142 (0, 1, true, 2), .send 1 1143 (0, 1, true, 3), .send 1 1144 (0, 1, true, 4),
     .recv 2 1140, .recv 2 1141, .recv 2 1142, .recv 2 1143, .recv 2 1144] := by rfl
example : exchangeProg (fun s d b k => (s, d, b, k)) [[cpl 0 2], [cpl 0 1, cpl 2 1], []] 1 =
    [.recv 0 1140, .recv 0 1141, .recv 0 1142, .recv 0 1143, .recv 0 1144, .recv 2 1140, .recv 2 1141, .recv 2 1142, .recv 2 1143, .recv 2 1144] := by rfl

end MC
