import Verif.Renumber
import Verif.Scan
import Verif.StdAlg

/-!
# Part definitions – model

`MEDCouplingPartDefinition.cxx`. A part definition selects entities of a father set: either an explicit array of ids or a slice.
Left out: the null-pointer checks, names and component infos of the arrays, shared ownership of the id array.
-/

namespace MC

/-- `DataArrayPartDefinition` (an allocated one-component array) and `SlicePartDefinition`. -/
inductive PartDef where
  | ids (l : List Int)
  | slice (start stop step : Int)
deriving DecidableEq, Repr

/-- Reading a whole buffer: a cell never written has an indeterminate value. -/
def definite {α : Type} : List (Option α) → M (List α)
  | [] => .ok []
  | none :: _ => undef
  | some x :: l => do
    let r ← definite l
    .ok (x :: r)

/-- `DataArrayPartDefinition::toDAI`, `SlicePartDefinition::toDAI`, MEDCouplingPartDefinition.cxx:215-223, 323-327. -/
def PartDef.toDAI : PartDef → M (List Int)
  | .ids l => .ok l
  | .slice b e s => do
    let r ← rangeArr b e s
    definite r

/-- `getNumberOfElems`, MEDCouplingPartDefinition.cxx:108-113, 329-333. -/
def PartDef.getNumberOfElems : PartDef → M Int
  | .ids l => .ok l.length
  | .slice b e s => getNumberOfItemGivenBES b e s

/-- `SlicePartDefinition::getEffectiveStop`, MEDCouplingPartDefinition.cxx:404-409. -/
def sliceEffectiveStop (b e s : Int) : M Int := do
  let n ← getNumberOfItemGivenBES b e s
  .ok (b + n * s)

/-- The general case of `operator+` (`add1`, `add2`), MEDCouplingPartDefinition.cxx:268-284, 444-451, 460-466: aggregate, then sort. -/
def PartDef.addSorted (p q : PartDef) : M PartDef := do
  let a1 ← p.toDAI
  let a2 ← q.toDAI
  .ok (.ids (stdSort (a1 ++ a2)))

/-- The test of `SlicePartDefinition::add2`, MEDCouplingPartDefinition.cxx:456. -/
def sliceFollows (b e s b' s' : Int) : M Bool :=
  if s = s' then do
    let f ← sliceEffectiveStop b e s
    .ok (decide (f = b'))
  else .ok false

/-- `operator+`, MEDCouplingPartDefinition.cxx:115-128, 335-348, 453-467. -/
def PartDef.plus (p q : PartDef) : M PartDef :=
  match p, q with
  | .slice b e s, .slice b' e' s' => do
    let adj ← sliceFollows b e s b' s'
    if adj then .ok (.slice b e' s) else (PartDef.slice b e s).addSorted (.slice b' e' s')
  | p, q => p.addSorted q

/-- `composeWith`, MEDCouplingPartDefinition.cxx:148-177, 355-365. The result designates in the father of `other` what `this` designates in
the set selected by `other`. -/
def PartDef.composeWith (p other : PartDef) : M PartDef :=
  match p with
  | .ids l =>
    match other with
    | .slice b e s =>
      if s = 1 then .ok (.ids (l.map (· + b)))
      else do
        let arr1 ← (PartDef.slice b e s).toDAI
        let arr2 ← selectByTupleIdSafe ⟨arr1.length, 1, arr1, by simp⟩ l
        let arr2 ← definite arr2
        .ok (.ids arr2)
    | .ids l' => do
      let arr2 ← selectByTupleIdSafe ⟨l'.length, 1, l', by simp⟩ l
      let arr2 ← definite arr2
      .ok (.ids arr2)
  | .slice b e s => do
    let arr ← other.toDAI
    let arr1 ← selectByTupleIdSafeSlice ⟨arr.length, 1, arr, by simp⟩ b e s
    let arr1 ← definite arr1
    .ok (.ids arr1)

/-- `tryToSimplify`, MEDCouplingPartDefinition.cxx:190-205, 380-386. -/
def PartDef.tryToSimplify : PartDef → PartDef
  | .ids l =>
    match isRange l with
    | some (a, b, c) => .slice a b c
    | none => .ids l
  | .slice b e s => .slice b e s

/-- `serialize`, MEDCouplingPartDefinition.cxx:207-213, 388-394: appends to the two vectors. -/
def PartDef.serialize (p : PartDef) (tiny : List Int) (big : List (List Int)) : List Int × List (List Int) :=
  match p with
  | .ids l => (tiny, big ++ [l])
  | .slice b e s => (tiny ++ [b, e, s], big)

/-- `PartDefinition::Unserialize`, MEDCouplingPartDefinition.cxx:40-57; `back` of an empty vector is undefined. Returns the part definition
and what is left in the two vectors. -/
def partUnserialize (tiny : List Int) (big : List (List Int)) : M (PartDef × List Int × List (List Int)) :=
  match tiny with
  | [] =>
    match big.getLast? with
    | none => undef
    | some l => .ok (.ids l, [], big.dropLast)
  | [a, b, c] => .ok (.slice a b c, [], big)
  | _ => throwX

/-- `isEqual`, MEDCouplingPartDefinition.cxx:67-97, 294-315, on the values. -/
def PartDef.isEqual : PartDef → PartDef → Bool
  | .ids l, .ids l' => decide (l = l')
  | .slice b e s, .slice b' e' s' => decide (b = b' ∧ e = e' ∧ s = s')
  | _, _ => false

end MC
