import Verif.Cursor
import Verif.Tuple

/-!
# Interlacing, components, reversal and rotation (C23) – model

`MEDCouplingMemArray.txx`.  `std::reverse` is the list reversal of the range, `std::swap` exchanges two cells.
-/

namespace MC
variable {α : Type}

/-- `MemArray<T>::fromNoInterlace` – MEDCouplingMemArray.txx:339-350. -/
def fromNoInterlace (nc : Nat) (pt : List α) : M (List (Option α)) :=
  if nc < 1 then throwX
  else do
    let s ← loop (pt.length / nc) (newCur α pt.length) fun i w =>
      loop nc w fun j w => do
        let v ← rd pt ((j * (pt.length / nc) + i : Nat) : Int)
        emit w v
    .ok s.1

/-- `MemArray<T>::toNoInterlace` – MEDCouplingMemArray.txx:354-365. -/
def toNoInterlace (nc : Nat) (pt : List α) : M (List (Option α)) :=
  if nc < 1 then throwX
  else do
    let s ← loop nc (newCur α pt.length) fun i w =>
      loop (pt.length / nc) w fun j w => do
        let v ← rd pt ((j * nc + i : Nat) : Int)
        emit w v
    .ok s.1

/-- `std::swap(p[i], p[j])` -/
def swapAt (l : List α) (i j : Int) : M (List α) := do
  let x ← rd l i
  let y ← rd l j
  let l1 ← wr l i y
  wr l1 j x

/-- `MemArray<T>::reverse` – MEDCouplingMemArray.txx:384-405 (`pt = nc*i`, `pt2 = nb - nc - nc*i`). -/
def reverseTuples (nc : Nat) (l : List α) : M (List α) :=
  if nc < 1 then throwX
  else if nc = 1 then .ok l.reverse
  else loop (l.length / nc / 2) l fun i l' =>
    loop nc l' fun j l'' => swapAt l'' (nc * i + j) ((l.length : Int) - nc - nc * i + j)

/-- `DataArrayTemplate<T>::rearrange` – MEDCouplingMemArray.txx:1494-1520: only the number of components changes.
Simplification: the test that the number of tuples fits in `mcIdType` never fails. -/
def rearrange (newNc : Nat) (a : DArr α) : M (DArr α) :=
  if newNc < 1 then throwX
  else if h : a.data.length % newNc ≠ 0 then throwX
  else .ok ⟨a.data.length / newNc, newNc, a.data, by
    have := Nat.div_add_mod a.data.length newNc
    rw [Nat.mul_comm]; omega⟩

/-- `DataArrayTemplate<T>::transpose` – MEDCouplingMemArray.txx:1534-1538. -/
def transpose (a : DArr α) : M (DArr α) := rearrange a.nt a

/-- `DataArrayTemplate<T>::changeNbOfComponents` – MEDCouplingMemArray.txx:1555-1576. -/
def changeNbOfComponents (newNc : Nat) (dft : α) (a : DArr α) : M (List (Option α)) :=
  loop a.nt (mallocN α (a.nt * newNc)) fun i r => do
    let r1 ← loop (min a.nc newNc) r fun j r => do
      let v ← rd a.data ((i * a.nc + j : Nat) : Int)
      wr r ((newNc * i + j : Nat) : Int) (some v)
    loop (newNc - min a.nc newNc) r1 fun j r =>
      wr r ((newNc * i + (min a.nc newNc + j) : Nat) : Int) (some dft)

/-- `DataArrayTemplate<T>::myKeepSelectedComponents` – MEDCouplingMemArray.txx:1597-1620. -/
def keepSelectedComponents (ids : List Nat) (a : DArr α) : M (List (Option α)) :=
  if ids.any (fun c => decide (c ≥ a.nc)) then throwX
  else do
    let s ← loop a.nt (newCur α (a.nt * ids.length)) fun i w =>
      loop ids.length w fun j w => do
        let c ← rd ids (j : Int)
        let v ← rd a.data ((i * a.nc + c : Nat) : Int)
        emit w v
    .ok s.1

/-- `DataArray::EffectiveCircPerm` – MEDCouplingMemArray.cxx:172-186. -/
def effectiveCircPerm (shift n : Int) : M Int :=
  if n ≤ 0 then throwX
  else if shift ≥ 0 then .ok (shift.tmod n)
  else .ok (n - (-shift).tmod n)

/-- `std::copy(l + a, l + b, l + c)` inside one array.  The standard leaves it undefined when the destination begins inside the
source range (`strict = true`); the usual libraries implement it by `memmove` for the value types of the data arrays, which
copies as if through a temporary (`strict = false`). -/
def copyWithin (strict : Bool) (l : List α) (a b c : Int) : M (List α) :=
  if strict = true ∧ a ≤ c ∧ c < b then undef else copyInto l a b l c

/-- The three copies of `circularPermutation` on the window `[base, base + n)`, `eff` elements to the left – lines 2728-2741 (with
`base = 0`, all sizes multiplied by the number of components) and 2755-2774 (per tuple).  `buf` has exactly the size of what is
copied to it. -/
def rotateWindow (strict : Bool) (l : List α) (base eff n : Int) : M (List α) :=
  if eff < n - eff then do
    let buf := slice l base (base + eff)
    let l1 ← copyWithin strict l (base + eff) (base + n) base
    copyInto buf 0 eff l1 (base + (n - eff))
  else do
    let buf := slice l (base + eff) (base + n)
    let l1 ← copyWithin strict l base (base + eff) (base + (n - eff))
    copyInto buf 0 (n - eff) l1 base

/-- `DataArrayTemplate<T>::circularPermutation` – MEDCouplingMemArray.txx:2719-2742.  The comparison of tuple counts is the same as
that of the element counts `eff*nc < (nt - eff)*nc` for `nc > 0`; for `nc = 0` nothing is copied in either branch. -/
def circularPermutation (strict : Bool) (shift : Int) (a : DArr α) : M (List α) := do
  let eff ← effectiveCircPerm shift a.nt
  if eff = 0 then .ok a.data
  else rotateWindow strict a.data 0 (eff * a.nc) (a.nt * a.nc)

/-- `DataArrayTemplate<T>::circularPermutationPerTuple` – MEDCouplingMemArray.txx:2746-2778: values and component names. -/
def circularPermutationPerTuple {β : Type} (strict : Bool) (shift : Int) (a : DArr α) (info : List β) : M (List α × List β) := do
  let eff ← effectiveCircPerm shift a.nc
  if eff = 0 then .ok (a.data, info)
  else do
    let d ← loop a.nt a.data fun i l => rotateWindow strict l ((i * a.nc : Nat) : Int) eff a.nc
    let sts ← (List.range a.nc).mapM fun i : Nat => rd info (((i : Int) + eff).tmod a.nc)
    .ok (d, sts)

/-- `DataArrayTemplate<T>::reversePerTuple` – MEDCouplingMemArray.txx:2782-2792: values and component names. -/
def reversePerTuple {β : Type} (a : DArr α) (info : List β) : M (List α × List β) :=
  if a.nc ≤ 1 then .ok (a.data, info)
  else do
    let d ← loop a.nt a.data fun i l =>
      if (i + 1) * a.nc ≤ l.length then
        .ok (l.take (i * a.nc) ++ (tup a.nc l i).reverse ++ l.drop ((i + 1) * a.nc))
      else undef
    .ok (d, info.reverse)

end MC
