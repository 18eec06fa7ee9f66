import Verif.ExprEval

/-!
# What an expression means

The specification of the expression evaluator: a small grammar of written expressions (`Cst`), the text of an expression
(`Cst.str`, nothing is added to what is written), the rules on how operators may be combined without brackets (`Cst.WF`) and the value
(`Cst.ev`).  It uses nothing of the parser.
-/

namespace MC
variable {V : Type}

/-- A written expression. -/
inductive Cst
  /-- a number, as written -/
  | num (l : List Char)
  /-- a variable -/
  | var (x : List Char)
  /-- signs before an expression -/
  | sign (sg : List Char) (e : Cst)
  /-- `f(e)`; with the identity: `(e)` -/
  | call (f : Fn1) (e : Cst)
  /-- `max(a,b)`, `min(a,b)` -/
  | call2 (f : Fn2) (a b : Cst)
  /-- `if(a,b,c)` -/
  | callIf (a b c : Cst)
  /-- `a op b` -/
  | bin (op : Fn2) (a b : Cst)

/-- The text. -/
def Cst.str : Cst → List Char
  | .num l => l
  | .var x => x
  | .sign sg e => sg ++ e.str
  | .call f e => f.repr ++ '(' :: (e.str ++ [')'])
  | .call2 f a b => f.repr ++ '(' :: (a.str ++ ',' :: (b.str ++ [')']))
  | .callIf a b c => 'i' :: 'f' :: '(' :: (a.str ++ ',' :: (b.str ++ ',' :: (c.str ++ [')'])))
  | .bin op a b => a.str ++ op.repr ++ b.str

/-- Precedence: the larger, the weaker. -/
def Fn2.lvl : Fn2 → Nat
  | .pow => 2
  | .mult => 3
  | .div => 3
  | .plus => 4
  | .minus => 4
  | .gt => 5
  | .lt => 5
  | .max => 0
  | .min => 0

def Cst.lvl : Cst → Nat
  | .sign _ _ => 1
  | .bin op _ _ => op.lvl
  | _ => 0

/-- Number of signs at the beginning. -/
def Cst.leadSigns : Cst → Nat
  | .sign sg _ => sg.length
  | .bin _ a _ => a.leadSigns
  | _ => 0

/-- A comma is written somewhere. -/
def Cst.hasComma : Cst → Bool
  | .num _ => false
  | .var _ => false
  | .sign _ e => e.hasComma
  | .call _ e => e.hasComma
  | .call2 _ _ _ => true
  | .callIf _ _ _ => true
  | .bin _ a b => a.hasComma || b.hasComma

/-- A comparison is written somewhere. -/
def Cst.hasCmp : Cst → Bool
  | .num _ => false
  | .var _ => false
  | .sign _ e => e.hasCmp
  | .call _ e => e.hasCmp
  | .call2 _ a b => a.hasCmp || b.hasCmp
  | .callIf a b c => a.hasCmp || b.hasCmp || c.hasCmp
  | .bin op a b => op == .gt || op == .lt || a.hasCmp || b.hasCmp

/-- `{0..9}+{.}?{0..9}*{{eE}{+-}?{0..9}+}?`, the pattern given in the comment of `fillValuesInExpr` -/
def IsNumber (l : List Char) : Prop :=
  ∃ d1 pt ex, l = d1 ++ pt ++ ex ∧ d1 ≠ [] ∧ (∀ c ∈ d1, isFig c) ∧
    (pt = [] ∨ ∃ d2, pt = '.' :: d2 ∧ ∀ c ∈ d2, isFig c) ∧
    (ex = [] ∨ ∃ c sg d3, ex = c :: (sg ++ d3) ∧ (c = 'e' ∨ c = 'E') ∧ (sg = [] ∨ sg = ['+'] ∨ sg = ['-']) ∧ d3 ≠ [] ∧
      ∀ c ∈ d3, isFig c)

/-- A character of a name: no operator, bracket, comma or white space. -/
def isNameChar (c : Char) : Bool := !isOp9 c && c != ',' && !isWS c

/-- A name of variable: it starts with a letter or an underscore. -/
def IsName (x : List Char) : Prop :=
  ∃ c r, x = c :: r ∧ (c.isAlpha ∨ c = '_') ∧ ∀ d ∈ x, isNameChar d

/-- the expression is a number, a variable or is between brackets -/
def Cst.signable : Cst → Bool
  | .num _ => true
  | .var _ => true
  | .call .identity _ => true
  | _ => false

/-- How expressions may be written.  Operators of a same precedence are read from left to right; an operand of an operator binds more
tightly than the operator; a sign binds more tightly than `^`.
- Signs stand before a number, a variable or a bracket only.
- An operand of an operator starts with at most one sign.
- There is no function of two or three parameters between brackets.
- Comparisons are not written inside an operand. -/
def Cst.WF (P : List Char → Prop) : Cst → Prop
  | .num l => P l
  | .var x => IsName x
  | .sign sg e => sg ≠ [] ∧ (∀ c ∈ sg, isSign c) ∧ e.signable ∧ e.WF P
  | .call f e => f ≠ .positive ∧ f ≠ .negate ∧ e.hasComma = false ∧ e.WF P
  | .call2 f a b => (f = .max ∨ f = .min) ∧ a.hasComma = false ∧ b.hasComma = false ∧ a.WF P ∧ b.WF P
  | .callIf a b c => a.hasComma = false ∧ b.hasComma = false ∧ c.hasComma = false ∧ a.WF P ∧ b.WF P ∧ c.WF P
  | .bin op a b => 2 ≤ op.lvl ∧ a.lvl ≤ op.lvl ∧ b.lvl < op.lvl ∧ a.leadSigns ≤ 1 ∧ b.leadSigns ≤ 1 ∧
      (a.lvl = 5 ∨ a.hasCmp = false) ∧ b.hasCmp = false ∧ a.WF P ∧ b.WF P

/-- The numbers written in the expression, from left to right. -/
def Cst.lits : Cst → List (List Char)
  | .num l => [l]
  | .var _ => []
  | .sign _ e => e.lits
  | .call _ e => e.lits
  | .call2 _ a b => a.lits ++ b.lits
  | .callIf a b c => a.lits ++ b.lits ++ c.lits
  | .bin _ a b => a.lits ++ b.lits

/-- The variables written in the expression. -/
def Cst.vars : Cst → List (List Char)
  | .num _ => []
  | .var x => [x]
  | .sign _ e => e.vars
  | .call _ e => e.vars
  | .call2 _ a b => a.vars ++ b.vars
  | .callIf a b c => a.vars ++ b.vars ++ c.vars
  | .bin _ a b => a.vars ++ b.vars

/-! ## Values -/

/-- The values on which a function is not defined in the safe mode. -/
def bad1 (A : Arith V) (f : Fn1) (v : V) : Bool :=
  match f with
  | .acos => A.lt A.one (A.math .abs v)
  | .asin => A.lt A.one (A.math .abs v)
  | .sqrt => A.lt v A.zero
  | .ln => A.lt v A.zero
  | .log => A.lt v A.zero
  | .log10 => A.lt v A.zero
  | _ => false

def value1 (A : Arith V) (f : Fn1) (v : V) : V :=
  match f with
  | .identity => v
  | .positive => v
  | .negate => A.neg v
  | .ln => A.math .log v
  | f => A.math f v

def bad2 (A : Arith V) (f : Fn2) (a b : V) : Bool :=
  match f with
  | .div => A.eq b A.zero
  | .pow => A.lt a A.zero
  | _ => false

/-- A comparison gives the largest number for true and its opposite for false. -/
def value2 (A : Arith V) (f : Fn2) (a b : V) : V :=
  match f with
  | .plus => A.add a b
  | .minus => A.sub a b
  | .mult => A.mul a b
  | .div => A.div a b
  | .pow => A.pow a b
  | .max => if A.lt b a then a else b
  | .min => if A.lt a b then a else b
  | .gt => if A.lt b a then A.top else A.neg A.top
  | .lt => if A.lt a b then A.top else A.neg A.top

/-- The value of an expression: `none` when a function is applied outside its domain (safe mode only). -/
def Cst.ev (A : Arith V) (safe : Bool) (env : List Char → V) : Cst → Option V
  | .num l => some (A.lit l)
  | .var x => some (env x)
  | .sign sg e => (e.ev A safe env).map fun v => if sg.count '-' % 2 = 1 then A.neg v else v
  | .call f e => (e.ev A safe env).bind fun v => if safe && bad1 A f v then none else some (value1 A f v)
  | .call2 f a b => (a.ev A safe env).bind fun x => (b.ev A safe env).bind fun y =>
      if safe && bad2 A f x y then none else some (value2 A f x y)
  | .callIf a b c => (a.ev A safe env).bind fun x => (b.ev A safe env).bind fun y => (c.ev A safe env).bind fun z =>
      if safe && !(A.eq x A.top || A.eq x (A.neg A.top)) then none else some (if A.eq x A.top then y else z)
  | .bin op a b => (a.ev A safe env).bind fun x => (b.ev A safe env).bind fun y =>
      if safe && bad2 A op x y then none else some (value2 A op x y)

/-- What is asked from the arithmetic: the opposite of the opposite is the number, and the text of a natural number is read as this number. -/
structure Arith.Laws (A : Arith V) : Prop where
  neg_neg : ∀ v, A.neg (A.neg v) = v
  toInt_lit : ∀ k : Nat, A.toInt (A.lit (Nat.toDigits 10 k)) = k

/-- The `k`-th number (from 0) is written with at least as many characters as `k`. -/
def LongLits (k : Nat) : List (List Char) → Prop
  | [] => True
  | l :: ls => (Nat.toDigits 10 k).length ≤ l.length ∧ LongLits (k + 1) ls

/-! ## Arrays -/

/-- The names `IVec`, `JVec`, ..., `ZVec` of the unitary vectors (from 0 to 17). -/
def unitName (k : Nat) : List Char := [Char.ofNat (73 + k), 'V', 'e', 'c']

/-- The values of the names for component `j` of tuple `i` of the result: the first name of the list which is the variable gives the component
of the tuple, and a unitary vector which is not in the list is 1 for its own component and 0 for the others. -/
structure Binds (A : Arith V) (order : List (List Char)) (old : Nat) (data : List V) (i j : Nat) (env : List Char → V) : Prop where
  comp : ∀ k x, order[k]? = some x → x ∉ order.take k → data[i * old + k]? = some (env x)
  unit : ∀ k, k < 18 → unitName k ∉ order → env (unitName k) = if k = j then A.one else A.zero

/-- Names which have a value. -/
def Known (order : List (List Char)) (nbOfComp : Nat) (x : List Char) : Prop := x ∈ order ∨ ∃ k, k < 18 ∧ k < nbOfComp ∧ x = unitName k

end MC
