import Verif.ExprProps
import Mathlib.Algebra.Order.Field.Rat

/-!
# Units of measure

`INTERP_KERNEL/ExprEval/InterpKernelUnit.cxx`, the unit values of `InterpKernelValue.cxx` and the evaluation of expressions as units
(`InterpKernelExprParser.cxx`).

Simplifications: factors are rational numbers, so nothing is rounded; a division by a factor 0, which gives an infinite factor, is left
out (`undef`); the exponents (`short`) and the whole numbers (`int`) are unbounded; texts are lists of characters, one per byte.
-/

namespace MC

/-- `DecompositionInUnitBase` (InterpKernelUnit.hxx 63-111): the exponents of gram, metre, second, ampere and kelvin, what is added and
the factor. -/
structure UDec where
  g : Int
  m : Int
  s : Int
  a : Int
  k : Int
  add : ℚ
  mul : ℚ
deriving DecidableEq

/-- `PREF_POW10` (InterpKernelUnit.cxx 35-46); the two first micro are the bytes `B5` and `C2 B5`. -/
def prefNames : List (List Char) :=
  [['y'], ['z'], ['a'], ['f'], ['p'], ['n'], ['µ'], ['Â', 'µ'], ['u'], ['m'], ['c'], ['d'], ['d', 'a'], ['h'], ['k'], ['M'],
    ['G'], ['T'], ['P'], ['E'], ['Z'], ['Y']]

/-- `POW10` (InterpKernelUnit.cxx 48-50) -/
def prefPow : List ℚ :=
  [1 / 10 ^ 24, 1 / 10 ^ 21, 1 / 10 ^ 18, 1 / 10 ^ 15, 1 / 10 ^ 12, 1 / 10 ^ 9, 1 / 10 ^ 6, 1 / 10 ^ 6,
    1 / 10 ^ 6, 1 / 10 ^ 3, 1 / 10 ^ 2, 1 / 10, 10, 10 ^ 2, 10 ^ 3, 10 ^ 6,
    10 ^ 9, 10 ^ 12, 10 ^ 15, 10 ^ 18, 10 ^ 21, 10 ^ 24]

/-- `UNITS_RECOGN` (InterpKernelUnit.cxx 52-88); the degrees Celsius are the bytes `B0 43`, `C2 B0 43` and `F8 43`. -/
def unitNames : List (List Char) :=
  [['g'], ['m'], ['s'], ['A'], ['K'], ['W'], ['J'], ['H', 'z'], ['V'], ['h'], ['m', 'i', 'n'], ['t'], ['N'], ['d', 'y', 'n'], ['e', 'V'],
    ['P', 'a'], ['a', 't', 'm'], ['b', 'a', 'r'], ['°', 'C'], ['C'], ['o', 'h', 'm'], ['F'], ['S'], ['T'], ['H'], ['P'], ['S', 't'],
    ['Â', '°', 'C'], ['ø', 'C']]

/-- `PROJ_IN_BASE` (InterpKernelUnit.cxx 90-120) -/
def unitProj : List (Int × Int × Int × Int × Int) :=
  [(1, 0, 0, 0, 0), (0, 1, 0, 0, 0), (0, 0, 1, 0, 0), (0, 0, 0, 1, 0), (0, 0, 0, 0, 1), (1, 2, -3, 0, 0), (1, 2, -2, 0, 0), (0, 0, -1, 0, 0),
    (1, 2, -3, -1, 0), (0, 0, 1, 0, 0), (0, 0, 1, 0, 0), (1, 0, 0, 0, 0), (1, 1, -2, 0, 0), (1, 1, -2, 0, 0), (1, 2, -2, 0, 0),
    (1, -1, -2, 0, 0), (1, -1, -2, 0, 0), (1, -1, -2, 0, 0), (0, 0, 0, 0, 1), (0, 0, 1, 1, 0), (1, 2, -3, -2, 0), (-1, -2, 4, 2, 0),
    (-1, -2, 3, 2, 0), (1, 0, -2, -1, 0), (1, 2, -2, -2, 0), (1, -1, -1, 0, 0), (0, 2, -1, 0, 0), (0, 0, 0, 0, 1), (0, 0, 0, 0, 1)]

/-- `MUL_COEFF` (InterpKernelUnit.cxx 122-125) -/
def unitMul : List ℚ :=
  [1, 1, 1, 1, 1, 1000, 1000, 1, 1000, 3600, 3600, 10 ^ 6, 1000, 1 / 100, 160217733 / 10 ^ 24,
    1000, 101325000, 10 ^ 8, 1, 1, 1000, 1 / 1000, 1000, 1000, 100, 1, 1, 1, 1]

/-- `ADD_COEFF` (InterpKernelUnit.cxx 127-129) -/
def unitAdd : List ℚ :=
  [0, 0, 0, 0, 0, 0, 0, 0, 0, 0, 0, 0, 0, 0, 0, 0, 0, 0, 27315 / 100, 0, 0, 0, 0, 0, 0, 0, 0, 27315 / 100, 27315 / 100]

/-- The maps `_units_semantic`, `_units_add`, `_units_mul` (InterpKernelUnit.cxx 131-140): no name is written twice in the table. -/
def unitTable : List (List Char × UDec) :=
  (unitNames.zip (unitProj.zip (unitAdd.zip unitMul))).map fun (n, (g, m, s, a, k), ad, mu) => (n, ⟨g, m, s, a, k, ad, mu⟩)

/-- `_units_semantic.find(work)`, with what the two other maps have for it -/
def unitFind (w : List Char) : Option UDec := (unitTable.find? (fun r => r.1 = w)).map (·.2)

/-- `_prefix_pow_10.find(work2)` -/
def prefFind (w : List Char) : Option ℚ := ((prefNames.zip prefPow).find? (fun r => r.1 = w)).map (·.2)

/-- The loop of `UnitDataBase::getInfoForUnit` (InterpKernelUnit.cxx 143-162): the longest end of the text which is a unit, and what is
before it. -/
def unitScan (before : List Char) : List Char → Option (List Char × UDec)
  | [] => none
  | c :: r => match unitFind (c :: r) with
    | some d => some (before, d)
    | none => unitScan (before ++ [c]) r

/-- `UnitDataBase::getInfoForUnit` (InterpKernelUnit.cxx 142-182) and `setInfo` (193-203). -/
def unitInfo (text : List Char) : M UDec :=
  match unitScan [] text with
  | none => throwX
  | some (before, d) =>
    if before = [] then .ok d
    else match prefFind before with
      | none => throwX
      | some p => .ok { d with add := 0, mul := d.mul * p }

/-- `DecompositionInUnitBase::operator==` (InterpKernelUnit.cxx 205-210): what is added and the factor are not compared. -/
def UDec.same (x y : UDec) : Bool := x.g = y.g && x.m = y.m && x.s = y.s && x.a = y.a && x.k = y.k

/-- `DecompositionInUnitBase::isAdimensional` (InterpKernelUnit.cxx 248-252) -/
def UDec.adim (x : UDec) : Bool := x.g = 0 && x.m = 0 && x.s = 0 && x.a = 0 && x.k = 0

/-- `DecompositionInUnitBase::negate` (InterpKernelUnit.cxx 242-246) -/
def UDec.neg (x : UDec) : UDec := { x with mul := -x.mul }

/-- `(int)val` -/
def qTrunc (v : ℚ) : Int := Int.tdiv v.num v.den

/-- `DecompositionInUnitBase::tryToConvertInUnit` (InterpKernelUnit.cxx 260-277), called on a number by `ValueUnit::setDouble`
(InterpKernelValue.cxx 252-256). -/
def unitNumber (v : ℚ) : M UDec := if v - qTrunc v ≠ 0 then throwX else .ok ⟨0, 0, 0, 0, 0, 0, qTrunc v⟩

/-- `DecompositionInUnitBase::operator*` (InterpKernelUnit.cxx 279-291) -/
def UDec.times (x y : UDec) : UDec := ⟨x.g + y.g, x.m + y.m, x.s + y.s, x.a + y.a, x.k + y.k, 0, x.mul * y.mul⟩

/-- `DecompositionInUnitBase::operator/` (InterpKernelUnit.cxx 293-305) -/
def UDec.over (x y : UDec) : M UDec :=
  if y.mul = 0 then undef else .ok ⟨x.g - y.g, x.m - y.m, x.s - y.s, x.a - y.a, x.k - y.k, 0, x.mul / y.mul⟩

/-- the two loops of `powInt` -/
def mulTimes (v : ℚ) : Nat → ℚ → ℚ
  | 0, work => work
  | n + 1, work => mulTimes v n (work * v)

/-- `DecompositionInUnitBase::powInt` (InterpKernelUnit.cxx 338-352) -/
def powInt (v : ℚ) (exp : Int) : M ℚ :=
  if exp = 0 then .ok 1
  else if exp > 0 then .ok (mulTimes v exp.toNat 1)
  else if v = 0 then undef
  else .ok (mulTimes (1 / v) (-exp).toNat 1)

/-- `DecompositionInUnitBase::couldItBeConsideredAsInt` (InterpKernelUnit.cxx 363-377) -/
def asInt (v : ℚ) : M Int := if (qTrunc v : ℚ) = v then .ok (qTrunc v) else throwX

/-- `DecompositionInUnitBase::operator^` (InterpKernelUnit.cxx 307-322) -/
def UDec.power (x y : UDec) : M UDec :=
  if y.adim = false then throwX
  else do
    let e ← asInt y.mul
    let p ← powInt x.mul e
    .ok ⟨x.g * e, x.m * e, x.s * e, x.a * e, x.k * e, 0, p⟩

/-- the binary functions on `ValueUnit` (InterpKernelValue.cxx 242-455): all but three throw -/
def unitFn2 (f : Fn2) (x y : UDec) : M UDec :=
  match f with
  | .mult => .ok (x.times y)
  | .div => x.over y
  | .pow => x.power y
  | _ => throwX

/-- `Function::operate(std::vector<Value *> &)` on units (InterpKernelFunction.cxx; InterpKernelValue.cxx 242-455).  The stack is written
top first. -/
def unitFn (st : List UDec) (f : Fn) : M (List UDec) :=
  match f, st with
  | .f1 .identity, st => .ok st
  | .f1 .positive, st => .ok st
  | .f1 .negate, x :: r => .ok (x.neg :: r)
  | .f1 _, _ :: _ => throwX
  | .f2 f, x :: y :: r => do
    let z ← unitFn2 f x y
    .ok (z :: r)
  | .ifte, _ :: _ :: _ :: _ => throwX
  | _, _ => undef

/-- `stackOfVal.back()` -/
def unitTop : List UDec → M UDec
  | [] => undef
  | x :: _ => .ok x

/-- `LeafExprVal::fillValue`, `LeafExprVar::fillValue` (InterpKernelExprParser.cxx 69-73, 95-102) on a unit: `ValueUnit::setDouble`,
`ValueUnit::setVarname` (InterpKernelValue.cxx 252-264). -/
def unitLeaf : Leaf ℚ → M UDec
  | .val v => unitNumber v
  | .var x => unitInfo x

mutual
/-- `ExprParser::evaluateLowLev` (InterpKernelExprParser.cxx 466-508) with units: each sub expression has its own stack. -/
def unitEval : PExpr (Leaf ℚ) → M UDec
  | .leaf l fs => do
    let v ← unitLeaf l
    let st ← fs.foldlM unitFn [v]
    unitTop st
  | .node subs fs => do
    let st ← unitEvalL subs []
    let st ← fs.foldlM unitFn st
    unitTop st
def unitEvalL : List (PExpr (Leaf ℚ)) → List UDec → M (List UDec)
  | [], st => .ok st
  | e :: es, st => do
    let v ← unitEval e
    unitEvalL es (v :: st)
end

/-- `ExprParser::parse`, `checkForEvaluation` (InterpKernelExprParser.cxx 426-433) and `ExprParser::evaluateUnit` (332-350): an empty
expression throws. -/
def evaluateUnit (A : Arith ℚ) (text : List Char) : M UDec := do
  match ← parseExpr A text with
  | none => throwX
  | some t => unitEval t

/-- `Unit::tryToInterprate` (InterpKernelUnit.cxx 393-411): `none` when an exception is caught. -/
def unitOf (A : Arith ℚ) (text : List Char) : M (Option UDec) :=
  match evaluateUnit A text with
  | .ok d => .ok (some d)
  | .error .exn => .ok none
  | .error e => .error e

/-- `Unit::isCompatibleWith` (InterpKernelUnit.cxx 419-428) -/
def unitCompatible (A : Arith ℚ) (x y : List Char) : M Bool := do
  let dx ← unitOf A x
  let dy ← unitOf A y
  match dx, dy with
  | some dx, some dy => .ok (dx.same dy)
  | _, _ => .ok false

/-- `DecompositionInUnitBase::getTranslationParams` (InterpKernelUnit.cxx 212-225): the factor and what is added.  `big` is
`std::numeric_limits<double>::max()`. -/
def UDec.translation (big : ℚ) (x y : UDec) : M (ℚ × ℚ) :=
  if x.same y then
    if y.mul = 0 then undef else .ok (x.mul / y.mul, x.add / y.mul - y.add)
  else .ok (big, big)

/-- the body of `Unit::convert` -/
def convertWith (big : ℚ) (v : ℚ) : Option UDec → Option UDec → M ℚ
  | some dx, some dy => do
    let (mult, add) ← dx.translation big dy
    .ok (mult * v + add)
  | _, _ => .ok big

/-- `Unit::convert` (InterpKernelUnit.cxx 430-441) -/
def unitConvert (A : Arith ℚ) (big : ℚ) (x y : List Char) (v : ℚ) : M ℚ := do
  let ok ← unitCompatible A x y
  if ok then do
    let dx ← unitOf A x
    let dy ← unitOf A y
    convertWith big v dx dy
  else .ok big

end MC
