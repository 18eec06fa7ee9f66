import Verif.Base

/-!
# `MemArray<T>` – the raw buffer owned by every data array – model

`MEDCouplingMemArray.txx:47-600`, `MEDCouplingMemArray.hxx:50-155, 1476-1491`.

The C heap is a list of blocks that is only ever extended; freeing marks a block dead.  Any access to a
dead block or outside a block, a double free, freeing a block with the wrong deallocator or freeing
a block that still belongs to the caller is `ub`.

Simplifications: `malloc` always succeeds and never returns a null pointer; `setSpecificDeallocator` and
`C_DEALLOC_WITH_OFFSET` are not modelled.  An operation that throws leaves the state unchanged: in each of the
C++ functions below the only throwing statement runs before the first modification.
-/

namespace MC

/-- How a block was obtained / must be released (`DeallocType`, MEDCouplingMemArray.txx:509-522). -/
inductive DeallocKind where
  | cfree | cppdelete
deriving DecidableEq, Repr

/-- A heap block. `foreign`: it still belongs to the caller of the library. -/
structure Block (α : Type) where
  cells : List (Option α)
  alive : Bool
  kind : DeallocKind
  foreign : Bool
deriving DecidableEq, Repr

/-- Fields of `MemArray<T>` (MEDCouplingMemArray.hxx:149-154). `ptr = none` is the null pointer, `ext` says that
`_pointer` holds `_external` (read-only) rather than `_internal`. -/
structure MemArr where
  nb : Nat
  cap : Nat
  owned : Bool
  ptr : Option Nat
  ext : Bool
  dealloc : DeallocKind
deriving DecidableEq, Repr

/-- The heap and one array. -/
structure MState (α : Type) where
  heap : List (Block α)
  arr : MemArr
deriving DecidableEq, Repr

/-- Default constructor, MEDCouplingMemArray.hxx:99. -/
def MemArr.empty : MemArr := ⟨0, 0, false, none, false, .cppdelete⟩

section
variable {α : Type}

/-- Cells of the live block `p`. -/
def blkCells (h : List (Block α)) (p : Nat) : M (List (Option α)) :=
  match h[p]? with
  | some b => if b.alive then .ok b.cells else undef
  | none => undef

/-- Deallocation of block `p` with deallocator `k` (MEDCouplingMemArray.txx:486-530). -/
def freeBlk (h : List (Block α)) (p : Nat) (k : DeallocKind) : M (List (Block α)) :=
  match h[p]? with
  | some b =>
    if b.alive ∧ b.kind = k ∧ b.foreign = false then .ok (h.set p { b with alive := false }) else undef
  | none => undef

/-- `if (_ownership) DestroyPointer(...)`. -/
def release (s : MState α) : M (List (Block α)) :=
  if s.arr.owned then
    match s.arr.ptr with
    | some p => freeBlk s.heap p s.arr.dealloc
    | none => .ok s.heap -- free(NULL)
  else .ok s.heap

/-- `MemArray<T>::destroy`, MEDCouplingMemArray.txx:534-546. -/
def MState.destroy (s : MState α) : M (MState α) := do
  let h ← release s
  .ok ⟨h, MemArr.empty⟩

/-- `MemArray<T>::alloc`, MEDCouplingMemArray.txx:409-417. -/
def MState.alloc (s : MState α) (n : Nat) : M (MState α) := do
  let s ← s.destroy
  .ok ⟨s.heap ++ [⟨mallocN α n, true, .cfree, false⟩], ⟨n, n, true, some s.heap.length, false, .cfree⟩⟩

/-- `MemArray<T>::useArray`, MEDCouplingMemArray.txx:78-89. The caller supplies a live block with the given
content, allocated with `kind`; with `ownership` the block stops belonging to the caller. -/
def MState.useArray (s : MState α) (content : List (Option α)) (ownership : Bool) (kind : DeallocKind) :
    M (MState α) := do
  let s ← s.destroy
  .ok ⟨s.heap ++ [⟨content, true, kind, !ownership⟩],
    ⟨content.length, content.length, ownership, some s.heap.length, !ownership, kind⟩⟩

/-- `MemArray<T>::useExternalArrayWithRWAccess`, MEDCouplingMemArray.txx:93-101. -/
def MState.useExternalRW (s : MState α) (content : List (Option α)) (kind : DeallocKind) :
    M (MState α) := do
  let s ← s.destroy
  .ok ⟨s.heap ++ [⟨content, true, kind, true⟩],
    ⟨content.length, content.length, false, some s.heap.length, false, .cppdelete⟩⟩

/-- Source of the `std::copy` in `reserve` / `reAlloc`: the first `m` cells behind `getConstPointer()`. -/
def MState.firstCells (s : MState α) (m : Nat) : M (List (Option α)) :=
  match s.arr.ptr with
  | some p => do
    let c ← blkCells s.heap p
    if m ≤ c.length then .ok (c.take m) else undef
  | none => if m = 0 then .ok [] else undef

/-- `MemArray<T>::reserve`, MEDCouplingMemArray.txx:431-451. -/
def MState.reserve (s : MState α) (n : Nat) : M (MState α) :=
  if s.arr.cap = n then .ok s
  else do
    let c ← s.firstCells (min s.arr.nb n)
    let h ← release s
    .ok ⟨h ++ [⟨c ++ mallocN α (n - min s.arr.nb n), true, .cfree, false⟩],
      ⟨min s.arr.nb n, n, true, some h.length, false, .cfree⟩⟩

/-- `MemArray<T>::reAlloc`, MEDCouplingMemArray.txx:462-482. -/
def MState.reAlloc (s : MState α) (n : Nat) : M (MState α) :=
  if s.arr.nb = n then .ok s
  else do
    let c ← s.firstCells (min s.arr.nb n)
    let h ← release s
    .ok ⟨h ++ [⟨c ++ mallocN α (n - min s.arr.nb n), true, .cfree, false⟩],
      ⟨n, n, true, some h.length, false, .cfree⟩⟩

/-- `MemArray<T>::pack`, MEDCouplingMemArray.txx:139-142. -/
def MState.pack (s : MState α) : M (MState α) := s.reserve s.arr.nb

/-- `_pointer.getPointer()`, MEDCouplingMemArray.hxx:77-85: throws on an external (read-only) array. -/
def MState.getPointer (s : MState α) : M (Option Nat) :=
  match s.arr.ptr with
  | some p => if s.arr.ext then throwX else .ok (some p)
  | none => .ok none

/-- `pointer[i] = v` where `pointer` is the (possibly null) block `p`. -/
def writeCell (h : List (Block α)) (p : Option Nat) (i : Nat) (v : α) : M (List (Block α)) :=
  match p with
  | none => undef
  | some p =>
    match h[p]? with
    | some b =>
      if b.alive ∧ i < b.cells.length then .ok (h.set p { b with cells := b.cells.set i (some v) }) else undef
    | none => undef

/-- `if (_nb_of_elem >= _nb_of_elem_alloc) reserve(...)`, MEDCouplingMemArray.txx:119-120. -/
def MState.growIfFull (s : MState α) : M (MState α) :=
  if s.arr.nb ≥ s.arr.cap then s.reserve (if s.arr.cap > 0 then 2 * s.arr.cap else 1) else .ok s

/-- `MemArray<T>::pushBack`, MEDCouplingMemArray.txx:117-123. -/
def MState.pushBack (s : MState α) (v : α) : M (MState α) := do
  let s ← s.growIfFull
  let p ← s.getPointer
  let h ← writeCell s.heap p s.arr.nb v
  .ok ⟨h, { s.arr with nb := s.arr.nb + 1 }⟩

/-- `MemArray<T>::popBack`, MEDCouplingMemArray.txx:127-135. The returned value is `none` if the cell was
never initialised. -/
def MState.popBack (s : MState α) : M (Option α × MState α) :=
  if 0 < s.arr.nb then
    match s.arr.ptr with
    | none => undef
    | some p => do
      let c ← blkCells s.heap p
      let v ← rd c ((s.arr.nb - 1 : Nat) : Int)
      .ok (v, ⟨s.heap, { s.arr with nb := s.arr.nb - 1 }⟩)
  else throwX

/-- Loop of `MemArray<T>::insertAtTheEnd`, MEDCouplingMemArray.hxx:1482-1490, source = values that do not
live in a block of this heap; `p` is the local variable `pointer`. -/
def insertLoop (p : Option Nat) : List α → MState α → M (MState α)
  | [], s => .ok s
  | v :: vs, s =>
    if s.arr.nb ≥ s.arr.cap then do
      let s ← s.reserve (if s.arr.cap > 0 then 2 * s.arr.cap else 1)
      let p ← s.getPointer
      let h ← writeCell s.heap p s.arr.nb v
      insertLoop p vs ⟨h, { s.arr with nb := s.arr.nb + 1 }⟩
    else do
      let h ← writeCell s.heap p s.arr.nb v
      insertLoop p vs ⟨h, { s.arr with nb := s.arr.nb + 1 }⟩

/-- `MemArray<T>::insertAtTheEnd`, MEDCouplingMemArray.hxx:1479-1491. -/
def MState.insertAtTheEnd (s : MState α) (vs : List α) : M (MState α) := do
  let p ← s.getPointer
  insertLoop p vs s

/-- MEDCouplingMemArray.hxx:1484-1488. -/
def MState.growIfFullPtr (s : MState α) (p : Option Nat) : M (MState α × Option Nat) :=
  if s.arr.nb ≥ s.arr.cap then do
    let s ← s.reserve (if s.arr.cap > 0 then 2 * s.arr.cap else 1)
    let p ← s.getPointer
    .ok (s, p)
  else .ok (s, p)

/-- The same loop where the source range is `[i, i+n)` inside block `src` of the heap
(as in `DataArrayTemplateClassic<T>::aggregate`, MEDCouplingMemArray.txx:3789-3796, whose source is
`other->begin(), other->end()`). -/
def insertBlockLoop (src : Nat) (p : Option Nat) : (n i : Nat) → MState α → M (MState α)
  | 0, _, s => .ok s
  | n + 1, i, s => do
    let (s, p) ← s.growIfFullPtr p
    let c ← blkCells s.heap src
    let v ← rd c (i : Int)
    match v with
    | none => undef -- reading an indeterminate value
    | some v => do
      let h ← writeCell s.heap p s.arr.nb v
      insertBlockLoop src p n (i + 1) ⟨h, { s.arr with nb := s.arr.nb + 1 }⟩

/-- `a->aggregate(a)`: `insertAtTheEnd(begin(), end())` on the array itself. -/
def MState.aggregateSelf (s : MState α) : M (MState α) := do
  let p ← s.getPointer
  match s.arr.ptr with
  | none => .ok s
  | some src => insertBlockLoop src p s.arr.nb 0 s

/-- Successive writes `pointer[i] = v0; pointer[i+1] = v1; ...`. -/
def writeCells (p : Option Nat) : Nat → List α → List (Block α) → M (List (Block α))
  | _, [], h => .ok h
  | i, v :: vs, h => do
    let h ← writeCell h p i v
    writeCells p (i + 1) vs h

/-- `if (id + sizeOfOthers >= _nb_of_elem_alloc) reserve(...)`, MEDCouplingMemArray.txx:107-108. -/
def MState.growFor (s : MState α) (id n : Nat) : M (MState α) :=
  if id + n ≥ s.arr.cap then s.reserve (2 * s.arr.nb + n + 1) else .ok s

/-- `MemArray<T>::writeOnPlace`, MEDCouplingMemArray.txx:105-113.
(`id` past the end leaves uninitialised cells in between.) -/
def MState.writeOnPlace (s : MState α) (id : Nat) (e0 : α) (others : List α) : M (MState α) := do
  let s ← s.growFor id others.length
  let p ← s.getPointer
  let h ← writeCells p id (e0 :: others) s.heap
  .ok ⟨h, { s.arr with nb := max s.arr.nb (id + others.length + 1) }⟩

/-- `pointer[i] = v` through `getPointer()` (`setIJ`, `operator[]`), MEDCouplingMemArray.hxx:109. -/
def MState.setAt (s : MState α) (i : Nat) (v : α) : M (MState α) := do
  let p ← s.getPointer
  let h ← writeCell s.heap p i v
  .ok ⟨h, s.arr⟩

/-- What the user sees: the `nb` first cells. -/
def MState.content (s : MState α) : List (Option α) :=
  match s.arr.ptr with
  | none => []
  | some p => match s.heap[p]? with
    | some b => b.cells.take s.arr.nb
    | none => []

/-- One call of the public interface. -/
inductive MOp (α : Type) where
  | alloc (n : Nat)
  | useArray (content : List (Option α)) (ownership : Bool) (kind : DeallocKind)
  | useExternalRW (content : List (Option α)) (kind : DeallocKind)
  | reserve (n : Nat)
  | reAlloc (n : Nat)
  | pack
  | pushBack (v : α)
  | popBack
  | insertAtTheEnd (vs : List α)
  | writeOnPlace (id : Nat) (e0 : α) (others : List α)
  | setAt (i : Nat) (v : α)
  | destroy
deriving Repr

def MState.step (s : MState α) : MOp α → M (MState α)
  | .alloc n => s.alloc n
  | .useArray c o k => s.useArray c o k
  | .useExternalRW c k => s.useExternalRW c k
  | .reserve n => s.reserve n
  | .reAlloc n => s.reAlloc n
  | .pack => s.pack
  | .pushBack v => s.pushBack v
  | .popBack => do let (_, s) ← s.popBack; .ok s
  | .insertAtTheEnd vs => s.insertAtTheEnd vs
  | .writeOnPlace i e o => s.writeOnPlace i e o
  | .setAt i v => s.setAt i v
  | .destroy => s.destroy

/-- A history of calls; a call that throws leaves the state as it was and the user goes on. -/
def MState.run (s : MState α) : List (MOp α) → M (MState α)
  | [] => .ok s
  | op :: ops =>
    match s.step op with
    | .ok s' => MState.run s' ops
    | .error .exn => MState.run s ops
    | .error .ub => undef

end
end MC
