import Verif.Base

/-!
# Write cursors: `*ptr++ = x` and `ptr = std::copy(...)` into an allocated buffer

The buffer and the position of the next write.  Writing past the end of the buffer is undefined behaviour.
-/

namespace MC
variable {α : Type}

/-- An allocated buffer together with the position of the output pointer. -/
abbrev Cur (α : Type) := List (Option α) × Int

/-- `p[i]` of an allocated array: reading a cell which was never written is undefined behaviour. -/
def rdI (l : List (Option α)) (i : Int) : M α :=
  match rd l i with
  | .ok (some a) => .ok a
  | .ok none => .error .ub
  | .error e => .error e

/-- `*ptr++ = x` -/
def emit (s : Cur α) (x : α) : M (Cur α) :=
  match wr s.1 s.2 (some x) with
  | .ok b => .ok (b, s.2 + 1)
  | .error e => .error e

/-- `ptr = std::copy(src + a, src + b, ptr)` -/
def emitCopy (s : Cur α) (src : List α) (a b : Int) : M (Cur α) :=
  match copyRange src a b s.1 s.2 with
  | .ok d => .ok (d, s.2 + (b - a))
  | .error e => .error e

/-- `std::copy(src + a, src + b, dst + c)` on an initialised array. -/
def copyInto (src : List α) (a b : Int) (dst : List α) (c : Int) : M (List α) :=
  if 0 ≤ a ∧ a ≤ b ∧ b ≤ src.length ∧ 0 ≤ c ∧ c + (b - a) ≤ dst.length then
    .ok (dst.take c.toNat ++ (src.drop a.toNat).take (b - a).toNat ++ dst.drop (c + (b - a)).toNat)
  else .error .ub

/-- `alloc(n,1)` and `getPointer()`. -/
def newCur (α : Type) (n : Nat) : Cur α := (mallocN α n, 0)

/-- The first `l.length` of the `n` cells hold `l`, the other ones are not written yet, the pointer is in between. -/
def filled (l : List α) (n : Nat) : Cur α := (l.map some ++ List.replicate (n - l.length) none, (l.length : Int))

theorem newCur_eq (n : Nat) : newCur α n = filled [] n := by simp [newCur, filled, mallocN]

theorem emit_filled {l : List α} {n : Nat} (h : l.length < n) (x : α) : emit (filled l n) x = .ok (filled (l ++ [x]) n) := by
  unfold emit filled
  simp only
  rw [wr_push rfl (by omega)]
  simp [Nat.sub_sub]

/-- The sub-list `[a,b)` -/
def slice (l : List α) (a b : Int) : List α := (l.drop a.toNat).take (b - a).toNat

theorem slice_length {l : List α} {a b : Int} (ha : 0 ≤ a) (hab : a ≤ b) (hb : b ≤ l.length) :
    ((slice l a b).length : Int) = b - a := by
  simp only [slice, List.length_take, List.length_drop]; omega

theorem emitCopy_filled {l src : List α} {n : Nat} {a b : Int} (ha : 0 ≤ a) (hab : a ≤ b) (hb : b ≤ src.length)
    (h : (l.length : Int) + (b - a) ≤ n) : emitCopy (filled l n) src a b = .ok (filled (l ++ slice src a b) n) := by
  have hsl := slice_length ha hab hb
  unfold emitCopy filled copyRange
  simp only
  rw [if_pos ⟨ha, hab, hb, by omega, by simp; omega⟩]
  simp only [Except.ok.injEq, Prod.mk.injEq]
  constructor
  · rw [Int.toNat_natCast, List.take_left' (by simp), List.map_append]
    change _ ++ (slice src a b).map some ++ _ = _
    congr 1
    rw [show ((l.length : Int) + (b - a)).toNat = l.length + (b - a).toNat by omega]
    rw [← List.drop_drop, List.drop_left' (by simp), List.drop_replicate]
    congr 1
    simp only [List.length_append]; omega
  · simp only [List.length_append]; push_cast; omega

theorem filled_full {l : List α} {n : Nat} (h : l.length = n) : (filled l n).1 = l.map some := by
  simp [filled, h]

theorem rdI_ok {l : List (Option α)} {i : Int} {a : α} (h0 : 0 ≤ i) (h : l[i.toNat]? = some (some a)) : rdI l i = .ok a := by
  unfold rdI; rw [rd_of_getElem? h0 h]

theorem emit_loop {k : Nat} {l : List α} {n : Nat} (f : Nat → α) (h : l.length + k ≤ n) :
    loop k (filled l n) (fun j s => emit s (f j)) = .ok (filled (l ++ (List.range k).map f) n) := by
  induction k with
  | zero => simp [loop]
  | succ k ih =>
    rw [loop_succ, ih (by omega)]
    show emit _ _ = _
    rw [emit_filled (by simp; omega), List.range_succ]
    simp

end MC
