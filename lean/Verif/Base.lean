/-!
# Execution model shared by every module

The C++ sources are modelled as total functions in the monad `M`.  A run ends in one of three ways:

* `Except.ok a`        – normal return;
* `Except.error .exn`  – an `INTERP_KERNEL::Exception` was thrown;
* `Except.error .ub`   – the C++ code would read or write outside the bounds of an array
                         (undefined behaviour).  It is a *distinct* outcome, never silently totalised.

Raw C arrays are `List`s accessed by C++ signed indices (`Int`); freshly `malloc`ed / `new[]`ed,
not yet written cells are `none` in a `List (Option α)`.

`mcIdType`, `T` and `std::size_t` are unbounded `Int`/`Nat`: arithmetic overflow is *not* modelled
(see DESIGN.md, trusted base).
-/

namespace MC

/-- The two abnormal outcomes. -/
inductive Err where
  /-- `throw INTERP_KERNEL::Exception(...)` -/
  | exn
  /-- out-of-bounds access, i.e. undefined behaviour in C++ -/
  | ub
deriving DecidableEq, Repr

abbrev M (α : Type) := Except Err α

/-- `throw INTERP_KERNEL::Exception(...)` -/
def throwX {α : Type} : M α := .error .exn

/-- undefined behaviour -/
def undef {α : Type} : M α := .error .ub

/-- `p[i]` as an rvalue. -/
def rd {α : Type} (l : List α) (i : Int) : M α :=
  if 0 ≤ i then
    match l[i.toNat]? with
    | some a => .ok a
    | none => .error .ub
  else .error .ub

/-- `p[i] = v`. -/
def wr {α : Type} (l : List α) (i : Int) (v : α) : M (List α) :=
  if 0 ≤ i ∧ i.toNat < l.length then .ok (l.set i.toNat v) else .error .ub

/-- `for (i = 0; i < n; i++) s = f(i, s)` where the body may throw. -/
def loop {σ : Type} : (n : Nat) → (s : σ) → (f : Nat → σ → M σ) → M σ
  | 0, s, _ => .ok s
  | n + 1, s, f => do
    let s' ← loop n s f
    f n s'

/-- `std::copy(src + a, src + b, dst + c)` on raw memory (`dst` possibly not initialised yet).
Reading outside `src`, writing outside `dst`, or an inverted range (`b < a`) is undefined. -/
def copyRange {α : Type} (src : List α) (a b : Int) (dst : List (Option α)) (c : Int) :
    M (List (Option α)) :=
  if 0 ≤ a ∧ a ≤ b ∧ b ≤ src.length ∧ 0 ≤ c ∧ c + (b - a) ≤ dst.length then
    .ok (dst.take c.toNat ++ ((src.drop a.toNat).take (b - a).toNat).map some
          ++ dst.drop (c + (b - a)).toNat)
  else .error .ub

/-- `malloc(n * sizeof(T))`: `n` uninitialised cells. -/
def mallocN (α : Type) (n : Nat) : List (Option α) := List.replicate n none

/-! ## A small Hoare logic for `M` -/

/-- Weakest precondition: normal return satisfies `Q`; throwing is allowed only if `E`;
undefined behaviour is never allowed. -/
def wp {α : Type} (m : M α) (Q : α → Prop) (E : Prop) : Prop :=
  match m with
  | .ok a => Q a
  | .error .exn => E
  | .error .ub => False

section
variable {α β σ : Type}

@[simp] theorem wp_ok (a : α) (Q : α → Prop) (E : Prop) : wp (.ok a : M α) Q E = Q a := rfl
@[simp] theorem wp_pure (a : α) (Q : α → Prop) (E : Prop) : wp (pure a : M α) Q E = Q a := rfl
@[simp] theorem wp_throwX (Q : α → Prop) (E : Prop) : wp (throwX : M α) Q E = E := rfl
@[simp] theorem wp_exn (Q : α → Prop) (E : Prop) : wp (.error .exn : M α) Q E = E := rfl
@[simp] theorem wp_undef (Q : α → Prop) (E : Prop) : wp (undef : M α) Q E = False := rfl
@[simp] theorem wp_ub (Q : α → Prop) (E : Prop) : wp (.error .ub : M α) Q E = False := rfl

theorem ok_bind (a : α) (f : α → M β) : ((Except.ok a : M α) >>= f) = f a := rfl
theorem err_bind (e : Err) (f : α → M β) : ((Except.error e : M α) >>= f) = Except.error e := rfl

theorem wp_bind (m : M α) (f : α → M β) (Q : β → Prop) (E : Prop) :
    wp (m >>= f) Q E ↔ wp m (fun a => wp (f a) Q E) E := by
  cases m with
  | ok a => rfl
  | error e => cases e <;> rfl

theorem wp_mono {m : M α} {Q Q' : α → Prop} {E E' : Prop}
    (h : wp m Q E) (hQ : ∀ a, Q a → Q' a) (hE : E → E') : wp m Q' E' := by
  cases m with
  | ok a => exact hQ a h
  | error e =>
    cases e with
    | exn => exact hE h
    | ub => exact h

theorem wp_ite {c : Prop} [Decidable c] {a b : M α} {Q : α → Prop} {E : Prop}
    (ht : c → wp a Q E) (he : ¬ c → wp b Q E) : wp (if c then a else b) Q E := by
  split
  · exact ht ‹_›
  · exact he ‹_›

/-- A run with no exception allowed returns normally. -/
theorem wp_ok_iff {m : M α} {Q : α → Prop} : wp m Q False ↔ ∃ a, m = .ok a ∧ Q a := by
  cases m with
  | ok a => simp
  | error e => cases e <;> simp

theorem wp_exists {m : M α} {Q : α → Prop} (h : wp m Q False) : ∃ a, m = .ok a ∧ Q a :=
  wp_ok_iff.mp h

/-- If no normal return is possible and undefined behaviour is excluded, the run throws. -/
theorem wp_throws {m : M α} (h : wp m (fun _ => False) True) : m = .error .exn := by
  cases m with
  | ok a => exact h.elim
  | error e => cases e with
    | exn => rfl
    | ub => exact h.elim

/-- No undefined behaviour. -/
theorem wp_noUB {m : M α} {Q : α → Prop} {E : Prop} (h : wp m Q E) : m ≠ .error .ub := by
  rintro rfl; exact h

theorem wp_of_ok {m : M α} {a : α} {Q : α → Prop} {E : Prop} (h : wp m Q E) (e : m = .ok a) : Q a := by
  subst e; exact h

theorem wp_loop {n : Nat} {s : σ} {f : Nat → σ → M σ} {E : Prop} (I : Nat → σ → Prop)
    (h0 : I 0 s) (hs : ∀ i, i < n → ∀ s, I i s → wp (f i s) (I (i + 1)) E) :
    wp (loop n s f) (I n) E := by
  induction n with
  | zero => exact h0
  | succ n ih =>
    unfold loop
    rw [wp_bind]
    refine wp_mono (ih fun i hi => hs i (by omega)) (fun a ha => ?_) id
    exact hs n (by omega) a ha

/-- A `foldlM` over a list (`for (it = begin; it != end; ++it)`), with an invariant indexed by the
already processed prefix. -/
theorem wp_foldlM {l : List β} {s : σ} {f : σ → β → M σ} {E : Prop} (I : List β → σ → Prop)
    (h0 : I [] s)
    (hs : ∀ pre x suf, l = pre ++ x :: suf → ∀ s, I pre s → wp (f s x) (I (pre ++ [x])) E) :
    wp (l.foldlM f s) (I l) E := by
  have key : ∀ (suf pre : List β), l = pre ++ suf → ∀ s, I pre s → wp (suf.foldlM f s) (I l) E := by
    intro suf
    induction suf with
    | nil => intro pre hp s hI; simp at hp; subst hp; simpa using hI
    | cons x suf ih =>
      intro pre hp s hI
      rw [List.foldlM_cons, wp_bind]
      refine wp_mono (hs pre x suf hp s hI) (fun a ha => ?_) id
      exact ih (pre ++ [x]) (by simp [hp]) a ha
  exact key l [] rfl s h0

theorem rd_ok {l : List α} {i : Int} (h0 : 0 ≤ i) (h1 : i.toNat < l.length) :
    rd l i = .ok l[i.toNat] := by
  simp [rd, h0, h1]

theorem rd_natCast {l : List α} {i : Nat} (h1 : i < l.length) : rd l (i : Int) = .ok l[i] := by
  simp [rd, h1]

theorem rd_of_getElem? {l : List α} {i : Int} {a : α} (h0 : 0 ≤ i) (h : l[i.toNat]? = some a) :
    rd l i = .ok a := by
  simp [rd, h0, h]

theorem wr_ok {l : List α} {i : Int} {v : α} (h0 : 0 ≤ i) (h1 : i.toNat < l.length) :
    wr l i v = .ok (l.set i.toNat v) := by
  simp [wr, h0, h1]

theorem wr_natCast {l : List α} {i : Nat} {v : α} (h1 : i < l.length) :
    wr l (i : Int) v = .ok (l.set i v) := by
  simp [wr, h1]

theorem wp_rd {l : List α} {i : Int} {Q : α → Prop} {E : Prop} (h0 : 0 ≤ i)
    (h1 : i.toNat < l.length) (h : Q l[i.toNat]) : wp (rd l i) Q E := by
  rw [rd_ok h0 h1]; exact h

theorem wp_wr {l : List α} {i : Int} {v : α} {Q : List α → Prop} {E : Prop} (h0 : 0 ≤ i)
    (h1 : i.toNat < l.length) (h : Q (l.set i.toNat v)) : wp (wr l i v) Q E := by
  rw [wr_ok h0 h1]; exact h

/-- Writing the next cell of a buffer which is filled from the left. -/
theorem wr_push {l : List α} {m : Nat} {i : Int} {x : α} (hi : i = l.length) (hm : 0 < m) :
    wr (l.map some ++ List.replicate m none) i (some x) =
      .ok ((l ++ [x]).map some ++ List.replicate (m - 1) none) := by
  subst hi
  obtain ⟨m, rfl⟩ : ∃ k, m = k + 1 := ⟨m - 1, by omega⟩
  rw [wr_natCast (by simp)]
  congr 1
  rw [List.set_append_right _ _ (by simp)]
  simp [List.replicate_succ]

theorem wp_rd' {l : List α} {i : Int} {a : α} {Q : α → Prop} {E : Prop} (h0 : 0 ≤ i)
    (h1 : l[i.toNat]? = some a) (h : Q a) : wp (rd l i) Q E := by
  rw [rd_of_getElem? h0 h1]; exact h

/-- `copyRange` within bounds succeeds; the destination keeps its length, the target window holds the
source window and every other cell is untouched. -/
theorem copyRange_spec {src : List α} {a b c : Int} {dst : List (Option α)}
    (ha : 0 ≤ a) (hab : a ≤ b) (hb : b ≤ src.length) (hc : 0 ≤ c) (hd : c + (b - a) ≤ dst.length) :
    ∃ r, copyRange src a b dst c = .ok r ∧ r.length = dst.length ∧
      ∀ k : Nat, r[k]? = if c ≤ k ∧ (k : Int) < c + (b - a) then
          (src[(a + (k - c)).toNat]?).map some else dst[k]? := by
  refine ⟨_, if_pos ⟨ha, hab, hb, hc, hd⟩, ?_, ?_⟩
  · simp only [List.length_append, List.length_take, List.length_map, List.length_drop]; omega
  · intro k
    by_cases h1 : (k : Int) < c
    · rw [if_neg (by omega), List.append_assoc, List.getElem?_append_left
        (by simp only [List.length_take]; omega), List.getElem?_take_of_lt (by omega)]
    · by_cases h2 : (k : Int) < c + (b - a)
      · rw [if_pos ⟨by omega, h2⟩, List.append_assoc, List.getElem?_append_right
          (by simp only [List.length_take]; omega)]
        rw [List.getElem?_append_left
          (by simp only [List.length_take, List.length_map, List.length_drop]; omega)]
        simp only [List.getElem?_map, List.length_take]
        rw [List.getElem?_take_of_lt (by omega), List.getElem?_drop]
        congr 2; omega
      · rw [if_neg (by omega), List.getElem?_append_right (by
            simp only [List.length_append, List.length_take, List.length_map, List.length_drop]; omega)]
        rw [List.getElem?_drop]
        simp only [List.length_append, List.length_take, List.length_map, List.length_drop]
        congr 1; omega

theorem loop_succ (n : Nat) (s : σ) (f : Nat → σ → M σ) :
    loop (n + 1) s f = (loop n s f >>= fun s' => f n s') := rfl

end

end MC
