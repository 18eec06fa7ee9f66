import Verif.MemArr
import Mathlib.Tactic.Ring
import Mathlib.Tactic.Linarith

/-!
# C03: the growable buffer refines a list, under every history

Specification: a pure list of (possibly uninitialised) values, transformed by `ListPost`.
-/

namespace MC
section
variable {α : Type}

/-! ## Specification -/

/-- Effect of a call, on the ideal list. `none` is an uninitialised value. -/
def ListPost (l : List (Option α)) : MOp α → List (Option α) → Prop
  | .alloc n, l' => l' = List.replicate n none
  | .useArray c _ _, l' => l' = c
  | .useExternalRW c _, l' => l' = c
  | .reserve n, l' => l' = l.take n
  | .reAlloc n, l' => l' = l.take n ++ List.replicate (n - l.length) none
  | .pack, l' => l' = l
  | .pushBack v, l' => l' = l ++ [some v]
  | .popBack, l' => l' = l.dropLast ∧ l ≠ []
  | .insertAtTheEnd vs, l' => l' = l ++ vs.map some
  | .writeOnPlace id e o, l' =>
      l'.length = max l.length (id + o.length + 1) ∧
      (∀ k, k < (e :: o).length → l'[id + k]? = ((e :: o)[k]?).map some) ∧
      (∀ k, k < l.length → (k < id ∨ id + o.length < k) → l'[k]? = l[k]?)
  | .setAt i v, l' => l' = l.set i (some v)
  | .destroy, l' => l' = []

/-- What the caller must guarantee. -/
def ListPre (l : List (Option α)) : MOp α → Prop
  | .writeOnPlace id _ _ => id ≤ 2 * l.length
  | .setAt i _ => i < l.length
  | _ => True

/-- Calls that may throw on a read-only array. -/
def Writes : MOp α → Prop
  | .pushBack _ | .insertAtTheEnd _ | .writeOnPlace _ _ _ | .setAt _ _ => True
  | _ => False

/-- When a call may throw: popping an empty array, or writing in an array which the user declared
read-only. -/
def MayThrow (l : List (Option α)) (readOnly : Prop) : MOp α → Prop
  | .popBack => l = []
  | op => Writes op ∧ readOnly

/-! ## Invariant -/

structure MState.Inv (s : MState α) : Prop where
  nb_le : s.arr.nb ≤ s.arr.cap
  null : s.arr.ptr = none → s.arr.cap = 0 ∧ s.arr.owned = false
  blk : ∀ p, s.arr.ptr = some p → ∃ b, s.heap[p]? = some b ∧ b.alive = true ∧
    b.cells.length = s.arr.cap ∧ b.foreign = !s.arr.owned ∧
    (s.arr.owned = true → b.kind = s.arr.dealloc ∧ s.arr.ext = false)
  others : ∀ i b, s.heap[i]? = some b → s.arr.ptr ≠ some i → b.alive = b.foreign

/-- Blocks that belong to the caller are alive with the same content, except that the
one given with read/write access to the array may have been written. -/
def Frame (s s' : MState α) : Prop :=
  ∀ (i : Nat) (b : Block α), s.heap[i]? = some b → b.foreign = true →
    ∃ b', s'.heap[i]? = some b' ∧ b'.foreign = true ∧ b'.alive = b.alive ∧
      (b' = b ∨ (s.arr.ptr = some i ∧ s.arr.ext = false))

theorem Frame.refl (s : MState α) : Frame s s := fun _ b h hf => ⟨b, h, hf, rfl, Or.inl rfl⟩

/-- All live blocks belong to the caller, and conversely. -/
def Clean (h : List (Block α)) : Prop :=
  ∀ (i : Nat) (b : Block α), h[i]? = some b → b.alive = b.foreign

theorem release_spec {s : MState α} (hs : s.Inv) :
    ∃ h, release s = .ok h ∧ Clean h ∧
      (∀ (i : Nat) (b : Block α), s.heap[i]? = some b → b.foreign = true → h[i]? = some b) := by
  unfold release
  by_cases ho : s.arr.owned = true
  · rw [if_pos ho]
    cases hp : s.arr.ptr with
    | none => have := (hs.null hp).2; simp [ho] at this
    | some p =>
      obtain ⟨b, hb, ha, hl, hf, hk⟩ := hs.blk p hp
      have hf' : b.foreign = false := by simp [hf, ho]
      simp only [freeBlk, hb, ha, (hk ho).1, hf', and_self, if_true]
      refine ⟨_, rfl, ?_, ?_⟩
      · intro i c hc
        by_cases hip : i = p
        · subst hip
          have hlt : i < s.heap.length := by
            rcases Nat.lt_or_ge i s.heap.length with h | h
            · exact h
            · simp [List.getElem?_eq_none h] at hb
          simp [hlt] at hc
          subst hc
          simp
        · rw [List.getElem?_set_ne (by omega)] at hc
          exact hs.others i c hc (by simp [hp]; omega)
      · intro i c hc hcf
        by_cases hip : i = p
        · subst hip
          rw [hb] at hc
          simp at hc; subst hc; simp [hf'] at hcf
        · rw [List.getElem?_set_ne (by omega)]; exact hc
  · rw [if_neg ho]
    refine ⟨_, rfl, ?_, fun i b h _ => h⟩
    intro i b hb
    by_cases hp : s.arr.ptr = some i
    · obtain ⟨b', hb', ha, _, hf, _⟩ := hs.blk i hp
      rw [hb] at hb'; simp at hb'; subst hb'
      simp [ha, hf, ho]
    · exact hs.others i b hb hp

/-- A state made of a clean heap plus one fresh block. -/
theorem inv_fresh {h : List (Block α)} (hc : Clean h) {b : Block α} {a : MemArr}
    (h1 : b.alive = true) (h2 : b.cells.length = a.cap) (h3 : a.nb ≤ a.cap) (h4 : b.foreign = !a.owned)
    (h5 : a.owned = true → b.kind = a.dealloc ∧ a.ext = false) (h6 : a.ptr = some h.length) :
    MState.Inv ⟨h ++ [b], a⟩ where
  nb_le := h3
  null := by simp [h6]
  blk := by
    intro p hp
    rw [h6] at hp
    simp at hp; subst hp
    exact ⟨b, by simp, h1, h2, h4, h5⟩
  others := by
    intro i c hi hne
    rw [h6] at hne
    rcases Nat.lt_trichotomy i h.length with hlt | heq | hgt
    · rw [List.getElem?_append_left hlt] at hi
      exact hc i c hi
    · simp [heq] at hne
    · rw [List.getElem?_eq_none (by simp; omega)] at hi
      cases hi

theorem frame_fresh {s : MState α} {h : List (Block α)} {b : Block α} {a : MemArr}
    (hf : ∀ (i : Nat) (b : Block α), s.heap[i]? = some b → b.foreign = true → h[i]? = some b) :
    Frame s ⟨h ++ [b], a⟩ := by
  intro i c hc hcf
  have := hf i c hc hcf
  have hlt : i < h.length := by
    rcases Nat.lt_or_ge i h.length with h' | h'
    · exact h'
    · simp [List.getElem?_eq_none h'] at this
  exact ⟨c, by simpa [List.getElem?_append_left hlt] using this, hcf, rfl, Or.inl rfl⟩

theorem content_fresh {h : List (Block α)} {b : Block α} {a : MemArr} (h6 : a.ptr = some h.length) :
    MState.content ⟨h ++ [b], a⟩ = b.cells.take a.nb := by
  simp [MState.content, h6]

theorem content_length {s : MState α} (hs : s.Inv) : s.content.length = s.arr.nb := by
  unfold MState.content
  cases hp : s.arr.ptr with
  | none => have := (hs.null hp).1; have := hs.nb_le; simp; omega
  | some p =>
    obtain ⟨b, hb, _, hl, _⟩ := hs.blk p hp
    simp only [hb, List.length_take]
    have := hs.nb_le
    omega

theorem firstCells_spec {s : MState α} (hs : s.Inv) {m : Nat} (hm : m ≤ s.arr.nb) :
    s.firstCells m = .ok (s.content.take m) := by
  unfold MState.firstCells MState.content
  cases hp : s.arr.ptr with
  | none =>
    have h1 := (hs.null hp).1; have h2 := hs.nb_le
    have : m = 0 := by omega
    simp [this]
  | some p =>
    obtain ⟨b, hb, ha, hl, _⟩ := hs.blk p hp
    have h2 := hs.nb_le
    simp only [blkCells, hb, ha, if_true]
    show (if m ≤ b.cells.length then _ else _) = _
    rw [if_pos (by omega), List.take_take, Nat.min_eq_left hm]

theorem destroy_spec {s : MState α} (hs : s.Inv) :
    wp s.destroy (fun s' => s'.Inv ∧ s'.content = [] ∧ Clean s'.heap ∧ s'.arr = MemArr.empty ∧ Frame s s' ∧
      (∀ (i : Nat) (b : Block α), s.heap[i]? = some b → b.foreign = true → s'.heap[i]? = some b)) False := by
  obtain ⟨h, he, hc, hf⟩ := release_spec hs
  unfold MState.destroy
  rw [he]
  show wp (Except.ok _) _ _
  rw [wp_ok]
  refine ⟨⟨by simp [MemArr.empty], by simp [MemArr.empty], by simp [MemArr.empty], fun i b hb _ => hc i b hb⟩,
    rfl, hc, rfl, fun i b hb hbf => ⟨b, hf i b hb hbf, hbf, rfl, Or.inl rfl⟩, hf⟩

theorem reserve_spec {s : MState α} (hs : s.Inv) (n : Nat) :
    wp (s.reserve n) (fun s' => s'.Inv ∧ s'.content = s.content.take n ∧ s'.arr.cap = n ∧
      s'.arr.nb = min s.arr.nb n ∧ (s.arr.cap ≠ n → s'.arr.ext = false ∧ s'.arr.owned = true ∧ ∃ p, s'.arr.ptr = some p) ∧
      (s.arr.cap = n → s' = s) ∧ Frame s s') False := by
  unfold MState.reserve
  have hlen := content_length hs
  split
  · rename_i h
    rw [wp_ok]
    have := hs.nb_le
    refine ⟨hs, ?_, h, by omega, fun hne => absurd h hne, by simp, Frame.refl s⟩
    rw [List.take_of_length_le (by omega)]
  · rename_i h
    rw [firstCells_spec hs (Nat.min_le_left _ _)]
    obtain ⟨h', he, hc, hf⟩ := release_spec hs
    show wp (do let h ← release s; _) _ _
    rw [he]
    show wp (Except.ok _) _ _
    rw [wp_ok]
    have hlen2 : (s.content.take (min s.arr.nb n)).length = min s.arr.nb n := by
      simp [hlen]
    refine ⟨inv_fresh hc rfl ?_ (Nat.min_le_right _ _) rfl (by simp) rfl, ?_, rfl, rfl,
      fun _ => ⟨rfl, rfl, _, rfl⟩, fun h2 => absurd h2 h, frame_fresh hf⟩
    · simp [mallocN, hlen]
    · rw [content_fresh rfl]
      show List.take (min s.arr.nb n) (_ ++ _) = _
      rw [List.take_append_of_le_length (by omega), List.take_take, Nat.min_self]
      rcases Nat.le_total s.arr.nb n with hle | hle
      · rw [Nat.min_eq_left hle, List.take_of_length_le (by omega), List.take_of_length_le (by omega)]
      · rw [Nat.min_eq_right hle]

theorem reAlloc_spec {s : MState α} (hs : s.Inv) (n : Nat) :
    wp (s.reAlloc n) (fun s' => s'.Inv ∧
      s'.content = s.content.take n ++ List.replicate (n - s.content.length) none ∧ Frame s s') False := by
  unfold MState.reAlloc
  have hlen := content_length hs
  split
  · rename_i h
    rw [wp_ok]
    refine ⟨hs, ?_, Frame.refl s⟩
    rw [List.take_of_length_le (by omega), hlen, h]; simp
  · rename_i h
    rw [firstCells_spec hs (Nat.min_le_left _ _)]
    obtain ⟨h', he, hc, hf⟩ := release_spec hs
    show wp (do let h ← release s; _) _ _
    rw [he]
    show wp (Except.ok _) _ _
    rw [wp_ok]
    refine ⟨inv_fresh hc rfl ?_ (le_refl _) rfl (by simp) rfl, ?_, frame_fresh hf⟩
    · simp [mallocN, hlen]
    · rw [content_fresh rfl]
      show List.take n (_ ++ _) = _
      rw [List.take_of_length_le (by simp [mallocN, hlen])]
      simp only [mallocN, hlen]
      rcases Nat.le_total s.arr.nb n with hle | hle
      · rw [Nat.min_eq_left hle, List.take_of_length_le (l := s.content) (by omega),
          List.take_of_length_le (by omega)]
      · rw [Nat.min_eq_right hle, Nat.sub_eq_zero_of_le hle, Nat.sub_self]

/-- Writing inside the capacity of a writable array. -/
theorem writeCell_spec {s : MState α} (hs : s.Inv) {p : Nat} (hp : s.arr.ptr = some p) (hx : s.arr.ext = false)
    {i n : Nat} (v : α) (hi : i < s.arr.cap) (hn : n ≤ s.arr.cap) :
    wp (writeCell s.heap (some p) i v) (fun h => MState.Inv ⟨h, { s.arr with nb := n }⟩ ∧
      (∃ cells, (∃ b, s.heap[p]? = some b ∧ cells = b.cells) ∧
        MState.content ⟨h, { s.arr with nb := n }⟩ = (cells.set i (some v)).take n) ∧
      Frame s ⟨h, { s.arr with nb := n }⟩) False := by
  obtain ⟨b, hb, ha, hl, hf, hk⟩ := hs.blk p hp
  have hlt : p < s.heap.length := by
    rcases Nat.lt_or_ge p s.heap.length with h' | h'
    · exact h'
    · simp [List.getElem?_eq_none h'] at hb
  simp only [writeCell, hb, ha, true_and, show i < b.cells.length by omega, if_true, wp_ok]
  refine ⟨⟨hn, fun h => hs.null h, ?_, ?_⟩, ⟨_, ⟨b, rfl, rfl⟩, ?_⟩, ?_⟩
  · intro q hq
    rw [show ({ s.arr with nb := n } : MemArr).ptr = s.arr.ptr from rfl, hp] at hq
    simp at hq; subst hq
    refine ⟨{ b with cells := b.cells.set i (some v) }, by simp [hlt, ha], ha, by simp [hl], hf, hk⟩
  · intro j c hj hne
    have : j ≠ p := by rintro rfl; exact hne hp
    rw [List.getElem?_set_ne (by omega)] at hj
    exact hs.others j c hj hne
  · simp [MState.content, hp, hlt]
  · intro j c hj hcf
    by_cases hjp : j = p
    · subst hjp
      rw [hb] at hj; simp at hj; subst hj
      exact ⟨{ b with cells := b.cells.set i (some v) }, by simp [hlt, ha], hcf, rfl, Or.inr ⟨hp, hx⟩⟩
    · exact ⟨c, by simpa [List.getElem?_set_ne (show p ≠ j by omega)] using hj, hcf, rfl, Or.inl rfl⟩

theorem frame_trans_of_ok {s t u : MState α} (h1 : Frame s t) (h2 : Frame t u)
    (h3 : ∀ i, t.arr.ptr = some i → t.arr.ext = false →
      (s.arr.ptr = some i ∧ s.arr.ext = false) ∨ ∀ b, t.heap[i]? = some b → b.foreign = false) : Frame s u := by
  intro i b hb hbf
  obtain ⟨b', hb', hf', ha', hor⟩ := h1 i b hb hbf
  obtain ⟨b'', hb'', hf'', ha'', hor'⟩ := h2 i b' hb' hf'
  refine ⟨b'', hb'', hf'', by rw [ha'', ha'], ?_⟩
  rcases hor' with h | ⟨h, hx⟩
  · subst h; exact hor
  · rcases h3 i h hx with h | h
    · exact Or.inr h
    · rw [h b' hb'] at hf'; cases hf'

/-- Growing before a write at the end. -/
theorem grow_spec {s : MState α} (hs : s.Inv) (hge : s.arr.nb ≥ s.arr.cap) :
    wp (s.reserve (if s.arr.cap > 0 then 2 * s.arr.cap else 1)) (fun t => t.Inv ∧ t.content = s.content ∧
      t.arr.nb = s.arr.nb ∧ t.arr.nb < t.arr.cap ∧ (∃ p, t.arr.ptr = some p) ∧ t.arr.ext = false ∧
      t.arr.owned = true ∧ Frame s t) False := by
  have hle := hs.nb_le
  have hlen := content_length hs
  have hcap : s.arr.nb = s.arr.cap := by omega
  generalize hn : (if s.arr.cap > 0 then 2 * s.arr.cap else 1) = n
  have hn' : s.arr.cap < n := by split at hn <;> omega
  refine wp_mono (reserve_spec hs n) ?_ id
  rintro t ⟨h1, h2, h3, h4, h5, _, h6⟩
  obtain ⟨h7, h8, h9⟩ := h5 (by omega)
  refine ⟨h1, ?_, by omega, by omega, h9, h7, h8, h6⟩
  rw [h2, List.take_of_length_le (by omega)]

/-- Write at index `nb` and increment `nb`. -/
theorem append_spec {s : MState α} (hs : s.Inv) {p : Nat} (hp : s.arr.ptr = some p) (hx : s.arr.ext = false)
    (v : α) (hlt : s.arr.nb < s.arr.cap) :
    wp (writeCell s.heap (some p) s.arr.nb v) (fun h => MState.Inv ⟨h, { s.arr with nb := s.arr.nb + 1 }⟩ ∧
      MState.content ⟨h, { s.arr with nb := s.arr.nb + 1 }⟩ = s.content ++ [some v] ∧
      Frame s ⟨h, { s.arr with nb := s.arr.nb + 1 }⟩) False := by
  refine wp_mono (writeCell_spec hs hp hx v hlt (show s.arr.nb + 1 ≤ s.arr.cap by omega)) ?_ id
  rintro h ⟨h1, ⟨cells, ⟨b, hb, rfl⟩, h2⟩, h3⟩
  refine ⟨h1, ?_, h3⟩
  rw [h2]
  obtain ⟨b', hb', ha, hl, hf, hk⟩ := hs.blk p hp
  rw [hb] at hb'; simp at hb'; subst hb'
  simp only [MState.content, hp, hb]
  rw [List.take_add_one]
  rw [List.take_set_of_le (le_refl _)]
  simp [show s.arr.nb < b.cells.length by omega]

theorem getPointer_ok {t : MState α} {p : Nat} (hp : t.arr.ptr = some p) (hx : t.arr.ext = false) :
    t.getPointer = .ok (some p) := by
  simp [MState.getPointer, hp, hx]

theorem getPointer_throws {t : MState α} {p : Nat} (hp : t.arr.ptr = some p) (hx : t.arr.ext = true) :
    t.getPointer = .error .exn := by
  simp [MState.getPointer, hp, hx, throwX]

theorem owned_not_foreign {t : MState α} (ht : t.Inv) (ho : t.arr.owned = true) :
    ∀ i, t.arr.ptr = some i → ∀ b, t.heap[i]? = some b → b.foreign = false := by
  intro i hi b hb
  obtain ⟨b', hb', _, _, hf, _⟩ := ht.blk i hi
  rw [hb] at hb'; simp at hb'; subst hb'
  simp [hf, ho]

theorem pushBack_spec {s : MState α} (hs : s.Inv) (v : α) :
    wp (s.pushBack v) (fun s' => s'.Inv ∧ s'.content = s.content ++ [some v] ∧ Frame s s')
      (s.arr.ext = true) := by
  unfold MState.pushBack MState.growIfFull
  rw [wp_bind]
  by_cases hge : s.arr.nb ≥ s.arr.cap
  · rw [if_pos hge]
    refine wp_mono (grow_spec hs hge) ?_ False.elim
    rintro t ⟨h1, h2, h3, h4, ⟨p, hp⟩, h6, h7, h8⟩
    rw [getPointer_ok hp h6]
    show wp (do let h ← writeCell t.heap (some p) t.arr.nb v; _) _ _
    rw [wp_bind]
    refine wp_mono (append_spec h1 hp h6 v h4) ?_ False.elim
    rintro h ⟨h9, h10, h11⟩
    rw [wp_ok]
    refine ⟨h9, by rw [h10, h2], frame_trans_of_ok h8 h11 fun i hi _ => Or.inr (owned_not_foreign h1 h7 i hi)⟩
  · rw [if_neg hge]
    rw [wp_ok]
    cases hp : s.arr.ptr with
    | none => have := (hs.null hp).1; omega
    | some p =>
      by_cases hx : s.arr.ext = true
      · rw [getPointer_throws hp hx]; exact hx
      · rw [getPointer_ok hp (by simpa using hx)]
        show wp (do let h ← writeCell s.heap (some p) s.arr.nb v; _) _ _
        rw [wp_bind]
        refine wp_mono (append_spec hs hp (by simpa using hx) v (by omega)) ?_ False.elim
        rintro h ⟨h9, h10, h11⟩
        exact ⟨h9, h10, h11⟩

theorem popBack_spec {s : MState α} (hs : s.Inv) :
    wp s.popBack (fun r => r.2.Inv ∧ r.2.content = s.content.dropLast ∧ s.content ≠ [] ∧
      s.content.getLast? = some r.1 ∧ Frame s r.2) (s.content = []) := by
  unfold MState.popBack
  have hlen := content_length hs
  split
  · rename_i hpos
    cases hp : s.arr.ptr with
    | none => have := (hs.null hp).1; have := hs.nb_le; omega
    | some p =>
      obtain ⟨b, hb, ha, hl, hf, hk⟩ := hs.blk p hp
      have hle := hs.nb_le
      simp only [blkCells, hb, ha, if_true]
      show wp (do let v ← rd b.cells _; _) _ _
      rw [rd_natCast (by omega)]
      show wp (Except.ok _) _ _
      rw [wp_ok]
      have hc : s.content = b.cells.take s.arr.nb := by simp [MState.content, hp, hb]
      refine ⟨⟨by show s.arr.nb - 1 ≤ s.arr.cap; omega, fun h => hs.null h, fun q hq => hs.blk q hq,
        fun i c h1 h2 => hs.others i c h1 h2⟩, ?_, ?_, ?_, ?_⟩
      · rw [hc]
        simp only [MState.content, hp, hb]
        rw [List.dropLast_eq_take, List.take_take, List.length_take]
        congr 1; omega
      · intro h; rw [h] at hlen; simp at hlen; omega
      · rw [List.getLast?_eq_getElem?, hlen, hc, List.getElem?_take_of_lt (by omega)]
        simp [show s.arr.nb - 1 < b.cells.length by omega]
      · intro i c hc hcf
        exact ⟨c, hc, hcf, rfl, Or.inl rfl⟩
  · simp only [wp_throwX]
    exact List.eq_nil_of_length_eq_zero (by omega)

theorem insertLoop_spec : ∀ (vs : List α) (s : MState α) (p : Option Nat), s.Inv → s.arr.ptr = p →
    (p ≠ none → s.arr.ext = false) →
    wp (insertLoop p vs s) (fun s' => s'.Inv ∧ s'.content = s.content ++ vs.map some ∧ Frame s s') False := by
  intro vs
  induction vs with
  | nil => intro s p hs _ _; exact ⟨hs, by simp, Frame.refl s⟩
  | cons v vs ih =>
    intro s p hs hp hx
    unfold insertLoop
    by_cases hge : s.arr.nb ≥ s.arr.cap
    · rw [if_pos hge, wp_bind]
      refine wp_mono (grow_spec hs hge) ?_ False.elim
      rintro t ⟨h1, h2, h3, h4, ⟨q, hq⟩, h6, h7, h8⟩
      rw [getPointer_ok hq h6]
      show wp (do let h ← writeCell t.heap (some q) t.arr.nb v; _) _ _
      rw [wp_bind]
      refine wp_mono (append_spec h1 hq h6 v h4) ?_ False.elim
      rintro h ⟨h9, h10, h11⟩
      refine wp_mono (ih _ (some q) h9 hq (fun _ => h6)) ?_ False.elim
      rintro u ⟨h12, h13, h14⟩
      refine ⟨h12, by rw [h13, h10, h2]; simp, ?_⟩
      refine frame_trans_of_ok h8 (frame_trans_of_ok h11 h14 fun i hi _ => Or.inl ⟨hi, h6⟩)
        fun i hi _ => Or.inr (owned_not_foreign h1 h7 i hi)
    · rw [if_neg hge, wp_bind]
      cases hp' : s.arr.ptr with
      | none => have := (hs.null hp').1; omega
      | some q =>
        rw [hp'] at hp
        subst hp
        have hx' := hx (by simp)
        refine wp_mono (append_spec hs hp' hx' v (by omega)) ?_ False.elim
        rintro h ⟨h9, h10, h11⟩
        refine wp_mono (ih _ (some q) h9 hp' (fun _ => hx')) ?_ False.elim
        rintro u ⟨h12, h13, h14⟩
        refine ⟨h12, by rw [h13, h10]; simp, frame_trans_of_ok h11 h14 fun i hi _ => Or.inl ⟨hi, hx'⟩⟩

theorem insertAtTheEnd_spec {s : MState α} (hs : s.Inv) (vs : List α) :
    wp (s.insertAtTheEnd vs) (fun s' => s'.Inv ∧ s'.content = s.content ++ vs.map some ∧ Frame s s')
      (s.arr.ext = true) := by
  unfold MState.insertAtTheEnd MState.getPointer
  cases hp : s.arr.ptr with
  | none =>
    show wp (insertLoop none vs s) _ _
    exact wp_mono (insertLoop_spec vs s none hs hp (by simp)) (fun _ h => h) False.elim
  | some p =>
    by_cases hx : s.arr.ext = true
    · simp only [hx, if_true]; exact trivial
    · simp only [hx]
      show wp (insertLoop (some p) vs s) _ _
      exact wp_mono (insertLoop_spec vs s (some p) hs hp (fun _ => by simpa using hx)) (fun _ h => h) False.elim

/-- Cells of the current block. -/
def MState.cells (s : MState α) : List (Option α) :=
  match s.arr.ptr with
  | none => []
  | some p => match s.heap[p]? with
    | some b => b.cells
    | none => []

theorem writeCells_spec : ∀ (vs : List α) (s : MState α) (p i : Nat), s.Inv → s.arr.ptr = some p →
    s.arr.ext = false → i + vs.length ≤ s.arr.cap →
    wp (writeCells (some p) i vs s.heap) (fun h => MState.Inv ⟨h, s.arr⟩ ∧ Frame s ⟨h, s.arr⟩ ∧
      (MState.cells ⟨h, s.arr⟩).length = s.cells.length ∧
      (∀ k, k < vs.length → (MState.cells ⟨h, s.arr⟩)[i + k]? = (vs[k]?).map some) ∧
      (∀ k, (k < i ∨ i + vs.length ≤ k) → (MState.cells ⟨h, s.arr⟩)[k]? = s.cells[k]?)) False := by
  intro vs
  induction vs with
  | nil =>
    intro s p i hs _ _ _
    exact ⟨hs, Frame.refl s, rfl, by simp, fun _ _ => rfl⟩
  | cons v vs ih =>
    intro s p i hs hp hx hlen
    unfold writeCells
    rw [wp_bind]
    obtain ⟨b, hb, ha, hl, hf, hk⟩ := hs.blk p hp
    have hlt : p < s.heap.length := by
      rcases Nat.lt_or_ge p s.heap.length with h' | h'
      · exact h'
      · simp [List.getElem?_eq_none h'] at hb
    have hi : i < s.arr.cap := by simp at hlen; omega
    have hw := writeCell_spec hs hp hx v hi (show s.arr.nb ≤ s.arr.cap from hs.nb_le)
    have he : writeCell s.heap (some p) i v
        = .ok (s.heap.set p { b with cells := b.cells.set i (some v) }) := by
      simp [writeCell, hb, ha, hl, hi]
    rw [he] at hw ⊢
    simp only [wp_ok] at hw ⊢
    obtain ⟨h1, _, h3⟩ := hw
    have hcell : MState.cells ⟨s.heap.set p { b with cells := b.cells.set i (some v) }, s.arr⟩
        = s.cells.set i (some v) := by
      simp only [MState.cells, hp, hb]
      rw [List.getElem?_set_self hlt]
    have hcl : s.cells.length = s.arr.cap := by simp [MState.cells, hp, hb, hl]
    refine wp_mono (ih ⟨_, s.arr⟩ p (i + 1) h1 hp hx (by simp at hlen ⊢; omega)) ?_ id
    rintro h ⟨g1, g2, g3, g4, g5⟩
    rw [hcell] at g3 g5
    refine ⟨g1, frame_trans_of_ok h3 g2 fun j hj hj' => Or.inl ⟨hj, hj'⟩, by simpa using g3, ?_, ?_⟩
    · intro k hk
      cases k with
      | zero =>
        rw [Nat.add_zero, g5 i (Or.inl (by omega))]
        simp [hcl, hi]
      | succ k =>
        have := g4 k (by simpa using hk)
        rw [show i + (k + 1) = i + 1 + k by omega, this]
        simp
    · intro k hk
      simp only [List.length_cons] at hk
      rw [g5 k (by omega), List.getElem?_set_ne (by omega)]

theorem content_eq_cells (s : MState α) : s.content = s.cells.take s.arr.nb := by
  unfold MState.content MState.cells
  cases s.arr.ptr with
  | none => simp
  | some p => dsimp only; cases s.heap[p]? <;> simp

theorem cells_length {s : MState α} (hs : s.Inv) : s.cells.length = s.arr.cap := by
  unfold MState.cells
  cases hp : s.arr.ptr with
  | none => have := (hs.null hp).1; simp; omega
  | some p => obtain ⟨b, hb, _, hl, _⟩ := hs.blk p hp; simp [hb, hl]

theorem writeOnPlace_tail {t : MState α} (ht : t.Inv) (id : Nat) (e0 : α) (others : List α)
    (hcap : id + others.length + 1 ≤ t.arr.cap) :
    wp (do
      let p ← t.getPointer
      let h ← writeCells p id (e0 :: others) t.heap
      Except.ok (⟨h, { t.arr with nb := max t.arr.nb (id + others.length + 1) }⟩ : MState α))
      (fun s' => s'.Inv ∧ ListPost t.content (.writeOnPlace id e0 others) s'.content ∧ Frame t s')
      (t.arr.ext = true) := by
  unfold MState.getPointer
  cases hp : t.arr.ptr with
  | none => have := (ht.null hp).1; omega
  | some p =>
    dsimp only
    by_cases hx : t.arr.ext = true
    · rw [if_pos hx]; exact hx
    · rw [if_neg hx]
      have hx' : t.arr.ext = false := by simpa using hx
      show wp (do let h ← writeCells (some p) id (e0 :: others) t.heap; _) _ _
      rw [wp_bind]
      refine wp_mono (writeCells_spec (e0 :: others) t p id ht hp hx' (by simp; omega)) ?_ False.elim
      rintro h ⟨g1, g2, g3, g4, g5⟩
      rw [wp_ok]
      have hle := ht.nb_le
      set s' : MState α := ⟨h, { t.arr with nb := max t.arr.nb (id + others.length + 1) }⟩ with hs'
      have hcells : s'.cells = MState.cells ⟨h, t.arr⟩ := rfl
      have hinv : s'.Inv := ⟨by show max _ _ ≤ t.arr.cap; omega, fun q => g1.null q, fun q hq => g1.blk q hq,
        fun i c a1 a2 => g1.others i c a1 a2⟩
      refine ⟨hinv, ⟨?_, ?_, ?_⟩, g2⟩
      · rw [content_length hinv, content_length ht]
      · intro k hk
        rw [content_eq_cells, hcells, List.getElem?_take_of_lt, g4 k hk]
        show id + k < max _ _
        simp at hk; omega
      · intro k hk hk'
        rw [content_length ht] at hk
        rw [content_eq_cells, hcells, List.getElem?_take_of_lt (by show k < max _ _; omega),
          g5 k (by simp; omega), content_eq_cells, List.getElem?_take_of_lt hk]

theorem writeOnPlace_spec {s : MState α} (hs : s.Inv) (id : Nat) (e0 : α) (others : List α)
    (hid : id ≤ 2 * s.content.length) :
    wp (s.writeOnPlace id e0 others) (fun s' => s'.Inv ∧
      ListPost s.content (.writeOnPlace id e0 others) s'.content ∧ Frame s s') (s.arr.ext = true) := by
  unfold MState.writeOnPlace MState.growFor
  have hlen := content_length hs
  have hle := hs.nb_le
  rw [wp_bind]
  by_cases hge : id + others.length ≥ s.arr.cap
  · rw [if_pos hge]
    refine wp_mono (reserve_spec hs _) ?_ False.elim
    rintro t ⟨h1, h2, h3, h4, h5, _, h6⟩
    obtain ⟨h7, h8, h9⟩ := h5 (by omega)
    refine wp_mono (writeOnPlace_tail h1 id e0 others (by omega)) ?_ (by simp [h7])
    rintro u ⟨k1, k2, k3⟩
    rw [h2, List.take_of_length_le (by omega)] at k2
    exact ⟨k1, k2, frame_trans_of_ok h6 k3 fun i hi _ => Or.inr (owned_not_foreign h1 h8 i hi)⟩
  · rw [if_neg hge]
    exact writeOnPlace_tail hs id e0 others (by omega)

theorem setAt_spec {s : MState α} (hs : s.Inv) (i : Nat) (v : α) (hi : i < s.content.length) :
    wp (s.setAt i v) (fun s' => s'.Inv ∧ s'.content = s.content.set i (some v) ∧ Frame s s')
      (s.arr.ext = true) := by
  unfold MState.setAt MState.getPointer
  have hlen := content_length hs
  have hle := hs.nb_le
  cases hp : s.arr.ptr with
  | none => have := (hs.null hp).1; omega
  | some p =>
    dsimp only
    by_cases hx : s.arr.ext = true
    · rw [if_pos hx]; exact hx
    · rw [if_neg hx]
      show wp (do let h ← writeCell s.heap (some p) i v; _) _ _
      rw [wp_bind]
      refine wp_mono (writeCell_spec hs hp (by simpa using hx) v (show i < s.arr.cap by omega) hle) ?_ False.elim
      rintro h ⟨h1, ⟨cells, ⟨b, hb, rfl⟩, h2⟩, h3⟩
      rw [wp_ok]
      refine ⟨h1, ?_, h3⟩
      have : s.content = b.cells.take s.arr.nb := by simp [MState.content, hp, hb]
      rw [this, ← List.take_set]
      exact h2

theorem step_spec {s : MState α} (hs : s.Inv) (op : MOp α) (hpre : ListPre s.content op) :
    wp (s.step op) (fun s' => s'.Inv ∧ ListPost s.content op s'.content ∧ Frame s s')
      (MayThrow s.content (s.arr.ext = true) op) := by
  cases op with
  | alloc n =>
    unfold MState.step MState.alloc
    rw [wp_bind]
    refine wp_mono (destroy_spec hs) ?_ False.elim
    rintro t ⟨h1, h2, h3, h4, h5, h6⟩
    rw [wp_ok]
    refine ⟨inv_fresh h3 rfl (by simp [mallocN]) (le_refl _) rfl (by simp) rfl, ?_, frame_fresh h6⟩
    rw [content_fresh rfl]; simp [ListPost, mallocN]
  | useArray c o k =>
    unfold MState.step MState.useArray
    rw [wp_bind]
    refine wp_mono (destroy_spec hs) ?_ False.elim
    rintro t ⟨h1, h2, h3, h4, h5, h6⟩
    rw [wp_ok]
    refine ⟨inv_fresh h3 rfl rfl (le_refl _) rfl (by simp) rfl, ?_, frame_fresh h6⟩
    rw [content_fresh rfl]; simp [ListPost]
  | useExternalRW c k =>
    unfold MState.step MState.useExternalRW
    rw [wp_bind]
    refine wp_mono (destroy_spec hs) ?_ False.elim
    rintro t ⟨h1, h2, h3, h4, h5, h6⟩
    rw [wp_ok]
    refine ⟨inv_fresh h3 rfl rfl (le_refl _) rfl (by simp) rfl, ?_, frame_fresh h6⟩
    rw [content_fresh rfl]; simp [ListPost]
  | reserve n =>
    refine wp_mono (reserve_spec hs n) ?_ False.elim
    rintro t ⟨h1, h2, _, _, _, _, h6⟩; exact ⟨h1, h2, h6⟩
  | reAlloc n => exact wp_mono (reAlloc_spec hs n) (fun t h => h) False.elim
  | pack =>
    refine wp_mono (reserve_spec hs s.arr.nb) ?_ False.elim
    rintro t ⟨h1, h2, _, _, _, _, h6⟩
    exact ⟨h1, by rw [ListPost, h2, List.take_of_length_le (by rw [content_length hs])], h6⟩
  | pushBack v => exact wp_mono (pushBack_spec hs v) (fun t h => h) (fun h => ⟨trivial, h⟩)
  | popBack =>
    show wp (do let (_, s) ← s.popBack; .ok s) _ _
    rw [wp_bind]
    refine wp_mono (popBack_spec hs) ?_ (fun h => h)
    rintro ⟨v, t⟩ ⟨h1, h2, h3, h4, h5⟩
    exact ⟨h1, ⟨h2, h3⟩, h5⟩
  | insertAtTheEnd vs => exact wp_mono (insertAtTheEnd_spec hs vs) (fun t h => h) (fun h => ⟨trivial, h⟩)
  | writeOnPlace i e o => exact wp_mono (writeOnPlace_spec hs i e o hpre) (fun t h => h) (fun h => ⟨trivial, h⟩)
  | setAt i v => exact wp_mono (setAt_spec hs i v hpre) (fun t h => h) (fun h => ⟨trivial, h⟩)
  | destroy =>
    refine wp_mono (destroy_spec hs) ?_ False.elim
    rintro t ⟨h1, h2, _, _, h5, _⟩; exact ⟨h1, h2, h5⟩

/-! ## Theorems -/

/-- The states an array can be in: reached from the default constructor by calls whose preconditions hold
(a call that throws leaves the state unchanged). -/
inductive Reach : List (MOp α) → MState α → Prop
  | init : Reach [] ⟨[], MemArr.empty⟩
  | ok {ops s op s'} : Reach ops s → ListPre s.content op → s.step op = .ok s' → Reach (ops ++ [op]) s'
  | thrown {ops s op} : Reach ops s → ListPre s.content op → s.step op = .error .exn → Reach (ops ++ [op]) s

theorem reach_run (ops : List (MOp α)) (hp : ∀ op ∈ ops, ∀ l, ListPre l op) (s : MState α)
    (h : MState.run ⟨[], MemArr.empty⟩ ops = .ok s) : Reach ops s := by
  have key : ∀ (ops pre : List (MOp α)) (t : MState α), (∀ op ∈ ops, ∀ l, ListPre l op) → Reach pre t →
      t.run ops = .ok s → Reach (pre ++ ops) s := by
    intro ops
    induction ops with
    | nil => intro pre t _ hr h; simp [MState.run] at h; subst h; simpa using hr
    | cons op ops ih =>
      intro pre t hp hr h
      rw [show pre ++ op :: ops = (pre ++ [op]) ++ ops by simp]
      unfold MState.run at h
      cases hs : t.step op with
      | ok t' =>
        rw [hs] at h
        exact ih _ _ (fun o ho => hp o (List.mem_cons_of_mem _ ho)) (.ok hr (hp op (by simp) _) hs) h
      | error e =>
        rw [hs] at h
        cases e with
        | exn => exact ih _ _ (fun o ho => hp o (List.mem_cons_of_mem _ ho)) (.thrown hr (hp op (by simp) _) hs) h
        | ub => cases h
  exact key ops [] _ hp .init h

theorem reach_inv {ops : List (MOp α)} {s : MState α} (h : Reach ops s) : s.Inv := by
  induction h with
  | init => exact ⟨le_refl _, fun _ => ⟨rfl, rfl⟩, by simp [MemArr.empty], by simp⟩
  | ok _ hpre he ih => exact (wp_of_ok (step_spec ih _ hpre) he).1
  | thrown _ _ _ ih => exact ih

/-- **C03.** After any history, the next call (with its precondition) does not trigger undefined behaviour
(out-of-bounds access, use after free, double free, wrong deallocator); when it returns, the visible content
is the ideal list transformed by the call; it throws only when popping an empty array or when
writing in an array given read-only. -/
theorem C03_refines_list {ops : List (MOp α)} {s : MState α} (h : Reach ops s) (op : MOp α)
    (hpre : ListPre s.content op) :
    (∃ s', s.step op = .ok s' ∧ ListPost s.content op s'.content) ∨
    (s.step op = .error .exn ∧ MayThrow s.content (s.arr.ext = true) op) := by
  have := step_spec (reach_inv h) op hpre
  cases hstep : s.step op with
  | ok s' => rw [hstep] at this; exact Or.inl ⟨s', rfl, this.2.1⟩
  | error e =>
    rw [hstep] at this
    cases e with
    | exn => exact Or.inr ⟨rfl, this⟩
    | ub => exact this.elim

/-- **C03.** Popping an empty array does throw. -/
theorem C03_pop_empty {ops : List (MOp α)} {s : MState α} (h : Reach ops s) (he : s.content = []) :
    s.step .popBack = .error .exn := by
  rcases C03_refines_list h .popBack trivial with ⟨s', _, hp⟩ | ⟨h, _⟩
  · exact absurd he hp.2
  · exact h

/-- **C03.** The value returned by `popBack` is the last element. -/
theorem C03_pop_value {ops : List (MOp α)} {s : MState α} (h : Reach ops s) {v : Option α} {s' : MState α}
    (hp : s.popBack = .ok (v, s')) : s.content = s'.content ++ [v] := by
  have := popBack_spec (reach_inv h)
  rw [hp] at this
  obtain ⟨_, h2, h3, h4, _⟩ := this
  dsimp only at h2 h4
  rw [h2]
  obtain ⟨l, hl⟩ := List.getLast?_eq_some_iff.mp h4
  rw [hl]; simp

/-- **C03.** The capacity is never below the number of elements, whatever the history. -/
theorem C03_capacity {ops : List (MOp α)} {s : MState α} (h : Reach ops s) :
    s.content.length = s.arr.nb ∧ s.arr.nb ≤ s.arr.cap :=
  ⟨content_length (reach_inv h), (reach_inv h).nb_le⟩

/-- **C03.** No leak and no early free: after any history, the live heap blocks are exactly the blocks that
belong to the caller, plus the block of the array if the array owns one. -/
theorem C03_no_leak {ops : List (MOp α)} {s : MState α} (h : Reach ops s) (i : Nat) (b : Block α)
    (hb : s.heap[i]? = some b) :
    b.alive = true ↔ (b.foreign = true ∨ (s.arr.ptr = some i ∧ s.arr.owned = true)) := by
  have hi := reach_inv h
  by_cases hp : s.arr.ptr = some i
  · obtain ⟨b', hb', ha, _, hf, _⟩ := hi.blk i hp
    rw [hb] at hb'; simp at hb'; subst hb'
    cases ho : s.arr.owned <;> simp [ha, hf, ho, hp]
  · rw [hi.others i b hb hp]; simp [hp]

/-- **C03.** Memory lent read-only by the caller is never modified nor freed by any call. -/
theorem C03_external_untouched {ops : List (MOp α)} {s : MState α} (h : Reach ops s) (op : MOp α)
    (hpre : ListPre s.content op) {s' : MState α} (he : s.step op = .ok s') (i : Nat) (b : Block α)
    (hb : s.heap[i]? = some b) (hf : b.foreign = true)
    (hro : s.arr.ptr = some i → s.arr.ext = true) : s'.heap[i]? = some b := by
  obtain ⟨_, _, h3⟩ := wp_of_ok (step_spec (reach_inv h) op hpre) he
  obtain ⟨b', hb', _, _, hor⟩ := h3 i b hb hf
  rcases hor with rfl | ⟨hp, hx⟩
  · exact hb'
  · rw [hro hp] at hx; cases hx

/-- A non-trivial reachable state: external array, push (copies it), pop, push, pack. -/
example : ∃ s : MState Int, Reach [.useArray [some 7, some 8] false .cfree, .pushBack 9, .popBack, .pushBack 5, .pack] s ∧
    s.content = [some 7, some 8, some 5] ∧ s.heap.length = 3 ∧ s.heap[0]? = some ⟨[some 7, some 8], true, .cfree, true⟩ := by
  refine ⟨⟨[⟨[some 7, some 8], true, .cfree, true⟩, ⟨[some 7, some 8, some 5, none], false, .cfree, false⟩,
      ⟨[some 7, some 8, some 5], true, .cfree, false⟩], ⟨3, 3, true, some 2, false, .cfree⟩⟩,
    reach_run _ (by simp [ListPre]) _ (by decide), by decide, by decide, by decide⟩

/-! ### Findings -/

/-- `writeOnPlace` far beyond the end writes out of bounds: the precondition `id ≤ 2*length` of `C03_refines_list`
is needed (array `[1]` of capacity 1, `writeOnPlace(5, 0, {}, 0)` reserves only 3 cells). -/
theorem C03_writeOnPlace_overflow :
    ∃ s : MState Int, Reach [.alloc 0, .pushBack 1] s ∧ s.step (.writeOnPlace 5 0 []) = .error .ub := by
  refine ⟨⟨[⟨[], false, .cfree, false⟩, ⟨[some 1], true, .cfree, false⟩], ⟨1, 1, true, some 1, false, .cfree⟩⟩,
    reach_run _ (by simp [ListPre]) _ (by decide), by decide⟩

/-- `a.aggregate(a)` (source range inside the array itself) is a use-after-free as soon as the buffer is full:
the first `reserve` frees the block the iterators point into. -/
theorem C03_aggregate_self_uaf {ops : List (MOp α)} {s : MState α} (h : Reach ops s)
    (hfull : s.arr.nb = s.arr.cap) (hpos : 0 < s.arr.nb) (hown : s.arr.owned = true) :
    s.aggregateSelf = .error .ub := by
  have hi := reach_inv h
  unfold MState.aggregateSelf MState.getPointer
  cases hp : s.arr.ptr with
  | none => have := (hi.null hp).1; omega
  | some p =>
    obtain ⟨b, hb, ha, hl, hf, hk⟩ := hi.blk p hp
    have hx := (hk hown).2
    have hf' : b.foreign = false := by simp [hf, hown]
    obtain ⟨n, hn⟩ : ∃ n, s.arr.nb = n + 1 := ⟨s.arr.nb - 1, by omega⟩
    simp only [hx, Bool.false_eq_true, if_false]
    show insertBlockLoop p (some p) s.arr.nb 0 s = _
    rw [hn, insertBlockLoop, MState.growIfFullPtr, if_pos (by omega)]
    have hrel : release s = .ok (s.heap.set p { b with alive := false }) := by
      simp [release, hown, hp, freeBlk, hb, ha, (hk hown).1, hf']
    have hlt : p < s.heap.length := by
      rcases Nat.lt_or_ge p s.heap.length with h' | h'
      · exact h'
      · simp [List.getElem?_eq_none h'] at hb
    have hres : ∃ c, s.reserve (if s.arr.cap > 0 then 2 * s.arr.cap else 1)
        = .ok ⟨s.heap.set p { b with alive := false } ++ [c],
            ⟨s.arr.nb, 2 * s.arr.cap, true, some s.heap.length, false, .cfree⟩⟩ := by
      unfold MState.reserve
      rw [if_pos (show s.arr.cap > 0 by omega), if_neg (by omega), firstCells_spec hi (Nat.min_le_left _ _)]
      rw [hrel, Nat.min_eq_left (show s.arr.nb ≤ 2 * s.arr.cap by omega)]
      refine ⟨⟨s.content.take s.arr.nb ++ mallocN α (2 * s.arr.cap - s.arr.nb), true, .cfree, false⟩, ?_⟩
      simp only [bind, Except.bind, List.length_set]
    obtain ⟨c, hc⟩ := hres
    rw [hc]
    simp only [MState.getPointer, bind, Except.bind, blkCells, Bool.false_eq_true, if_false]
    rw [List.getElem?_append_left (by simpa using hlt)]
    simp [hlt, undef]

example : ∃ s : MState Int, Reach [.alloc 0, .pushBack 1] s ∧ s.arr.nb = s.arr.cap ∧ 0 < s.arr.nb ∧
    s.arr.owned = true := by
  refine ⟨⟨[⟨[], false, .cfree, false⟩, ⟨[some 1], true, .cfree, false⟩], ⟨1, 1, true, some 1, false, .cfree⟩⟩,
    reach_run _ (by simp [ListPre]) _ (by decide), by decide, by decide, by decide⟩

end
end MC
