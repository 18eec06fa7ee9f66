import Verif.Cursor

/-!
# The expression evaluator behind `applyFunc`

`INTERP_KERNEL/ExprEval/InterpKernelExprParser.cxx`, `InterpKernelFunction.cxx` and the methods of `DataArrayDouble` which use
them (`MEDCoupling/MEDCouplingMemArray.cxx`).  Strings are lists of characters, `std::string::npos` is `none`.

Floating point numbers are an arbitrary type with arbitrary operations (`Arith`): nothing is assumed about roundings.
-/

namespace MC

/-- Unary functions, InterpKernelFunction.hxx 76-341 (the classes derived from `UnaryFunction`). -/
inductive Fn1
  | identity | positive | negate | cos | sin | tan | acos | asin | atan | cosh | sinh | tanh | sqrt | abs | exp | ln | log | log10
deriving DecidableEq

/-- Binary functions, InterpKernelFunction.hxx 343-483 (the classes derived from `BinaryFunction`). -/
inductive Fn2
  | plus | minus | mult | div | pow | max | min | gt | lt
deriving DecidableEq

/-- An element of `_func_btw_sub_expr`: unary, binary, or the ternary `if`. -/
inductive Fn
  | f1 (f : Fn1)
  | f2 (f : Fn2)
  | ifte
deriving DecidableEq

/-- The arithmetic of `double`: left abstract. -/
structure Arith (V : Type) where
  /-- value of a written number (`std::istream >> double` once the text is recognised) -/
  lit : List Char → V
  /-- `(int)v` -/
  toInt : V → Int
  zero : V
  one : V
  /-- `std::numeric_limits<double>::max()` -/
  top : V
  neg : V → V
  add : V → V → V
  sub : V → V → V
  mul : V → V → V
  div : V → V → V
  pow : V → V → V
  lt : V → V → Bool
  eq : V → V → Bool
  /-- `cos`, `sin`, ... of `<cmath>` -/
  math : Fn1 → V → V

section
variable {V : Type}

/-! ## Text helpers -/

/-- `ExprParser::WHITE_SPACES` (InterpKernelExprParser.cxx 37) -/
def isWS (c : Char) : Bool := c = ' ' || c = '\n'

/-- `FIGURES` (InterpKernelExprParser.cxx 1051) -/
def isFig (c : Char) : Bool := '0' ≤ c && c ≤ '9'

def isSign (c : Char) : Bool := c = '+' || c = '-'

/-- the operators of `parseUnaryFunc` (InterpKernelExprParser.cxx 562) -/
def isOp7 (c : Char) : Bool :=
  c = '+' || c = '-' || c = '*' || c = '/' || c = '^' || c = '>' || c = '<'

/-- the characters which stop `tryToInterpALeaf` (InterpKernelExprParser.cxx 607) -/
def isOp9 (c : Char) : Bool := isOp7 c || c = '(' || c = ')'

/-- `other` (InterpKernelExprParser.cxx 1052) -/
def isOther (c : Char) : Bool :=
  c = '+' || c = '-' || c = '*' || c = '^' || c = '/' || c = '(' || c = '<' || c = '>' || c = ','

/-- `ExprParser::deleteWhiteSpaces` (InterpKernelExprParser.cxx 273-292): the runs of white spaces are erased one after the
other. -/
def deleteWS (s : List Char) : List Char := s.filter (fun c => !isWS c)

/-- `s.find_first_of(p, pos)` / `s.find_first_not_of` -/
def findFromPos (p : Char → Bool) (s : List Char) (pos : Nat) : Option Nat :=
  if (s.drop pos).any p then some (pos + (s.drop pos).findIdx p) else none

/-- the point and the figures after it -/
def readPoint (r : List Char) : List Char × List Char × List Char :=
  match r with
  | '.' :: r => (['.'], r.takeWhile isFig, r.dropWhile isFig)
  | r => ([], [], r)

/-- the exponent; `q` is what was read before -/
def readExp (q : List Char) (r : List Char) : Option (Bool × List Char) :=
  match r with
  | c :: r3 =>
    if c = 'e' ∨ c = 'E' then
      let sg3 := (r3.takeWhile isSign).take 1
      let r4 := r3.drop sg3.length
      let d3 := r4.takeWhile isFig
      if d3 = [] then none
      else some ((r4.dropWhile isFig).isEmpty, q ++ c :: (sg3 ++ d3))
    else some (false, q)
  | [] => some (true, q)

/-- What `std::istringstream >> double` does with a text: `none` when the extraction fails, otherwise whether the whole text was
read (`eof`) and the text of the number.  (libstdc++: white spaces are skipped, then sign, figures, one point, exponent; an
exponent without figure fails.) -/
def readDouble (s : List Char) : Option (Bool × List Char) :=
  let s := s.dropWhile Char.isWhitespace
  let sg := (s.takeWhile isSign).take 1
  let r := s.drop sg.length
  let d1 := r.takeWhile isFig
  let p := readPoint (r.dropWhile isFig)
  if d1 = [] ∧ p.2.1 = [] then none
  else readExp (sg ++ d1 ++ p.1 ++ p.2.1) p.2.2

/-! ## Factory of functions -/

/-- The texts of the functions (`REPR`, InterpKernelFunction.cxx 29-83; the empty text stands for the identity in the factory). -/
def Fn1.repr : Fn1 → List Char
  | .identity => []
  | .positive => ['+']
  | .negate => ['-']
  | .cos => ['c', 'o', 's']
  | .sin => ['s', 'i', 'n']
  | .tan => ['t', 'a', 'n']
  | .acos => ['a', 'c', 'o', 's']
  | .asin => ['a', 's', 'i', 'n']
  | .atan => ['a', 't', 'a', 'n']
  | .cosh => ['c', 'o', 's', 'h']
  | .sinh => ['s', 'i', 'n', 'h']
  | .tanh => ['t', 'a', 'n', 'h']
  | .sqrt => ['s', 'q', 'r', 't']
  | .abs => ['a', 'b', 's']
  | .exp => ['e', 'x', 'p']
  | .ln => ['l', 'n']
  | .log => ['l', 'o', 'g']
  | .log10 => ['l', 'o', 'g', '1', '0']

/-- InterpKernelFunction.cxx 57-81 -/
def Fn2.repr : Fn2 → List Char
  | .plus => ['+']
  | .minus => ['-']
  | .mult => ['*']
  | .div => ['/']
  | .pow => ['^']
  | .max => ['m', 'a', 'x']
  | .min => ['m', 'i', 'n']
  | .gt => ['>']
  | .lt => ['<']

/-- The functions in the order in which `buildUnaryFuncFromString` tries them (InterpKernelFunction.cxx 107-145). -/
def unaryTable : List Fn1 :=
  [.identity, .cos, .sin, .tan, .acos, .asin, .atan, .cosh, .sinh, .tanh, .sqrt, .abs, .positive, .negate, .exp, .ln, .log, .log10]

/-- InterpKernelFunction.cxx 155-172 -/
def binaryTable : List Fn2 := [.plus, .minus, .mult, .div, .pow, .max, .min, .gt, .lt]

/-- `FunctionsFactory::buildUnaryFuncFromString` (InterpKernelFunction.cxx 103-151) -/
def buildUnary (s : List Char) : M Fn :=
  match unaryTable.find? (fun f => f.repr = s) with
  | some f => .ok (.f1 f)
  | none => throwX

/-- `FunctionsFactory::buildBinaryFuncFromString` (InterpKernelFunction.cxx 153-178) -/
def buildBinary (s : List Char) : M Fn :=
  match binaryTable.find? (fun f => f.repr = s) with
  | some f => .ok (.f2 f)
  | none => throwX

/-- `FunctionsFactory::buildTernaryFuncFromString` (InterpKernelFunction.cxx 180-190) -/
def buildTernary (s : List Char) : M Fn := if s = ['i', 'f'] then .ok .ifte else throwX

/-- `FunctionsFactory::buildFuncFromString` (InterpKernelFunction.cxx 87-101) -/
def buildFunc (s : List Char) (nbOfParams : Nat) : M Fn :=
  if nbOfParams = 1 then buildUnary s
  else if nbOfParams = 2 then buildBinary s
  else if nbOfParams = 3 then buildTernary s
  else throwX

/-! ## The tree -/

/-- `LeafExprVal` or `LeafExprVar` before the link phase. -/
inductive Leaf (V : Type)
  | val (v : V)
  | var (name : List Char)

/-- An `ExprParser` after parsing: a leaf or sub expressions, and the functions `_func_btw_sub_expr`. -/
inductive PExpr (L : Type)
  | leaf (l : L) (fs : List Fn)
  | node (subs : List (PExpr L)) (fs : List Fn)

/-- `LeafExpr::buildInstanceFrom` (InterpKernelExprParser.cxx 41-60) -/
def buildLeaf (A : Arith V) (s : List Char) : M (Leaf V) :=
  match readDouble s with
  | some (true, t) => .ok (.val (A.lit t))
  | some (false, _) => throwX
  | none => .ok (.var s)

/-- `ExprParser::tryToInterpALeaf` (InterpKernelExprParser.cxx 602-623); `none` = false.  `substr(npos)` on a text of signs only
throws `std::out_of_range`, taken as a throw. -/
def tryLeaf (A : Arith V) (s : List Char) : M (Option (Leaf V × List Fn)) :=
  let mini := s.dropWhile isSign
  if mini = [] then throwX
  else if mini.any isOp9 then .ok none
  else
    match buildLeaf A mini with
    | .ok l => .ok (some (l, if ((s.takeWhile isSign).count '-') % 2 ≠ 0 then [.f1 .negate] else []))
    | .error e => .error e

/-- The loop of `ExprParser::FindCorrespondingOpenBracket`: `r` is the text before the current position, backwards. -/
def findOpenGo : (r : List Char) → (level : Nat) → Option Nat
  | [], _ => none
  | c :: r, level =>
    if c = ')' then findOpenGo r (level + 1)
    else if c = '(' then (if level = 0 then some r.length else findOpenGo r (level - 1))
    else findOpenGo r level

/-- `ExprParser::FindCorrespondingOpenBracket(expr, expr.length()-1)` (InterpKernelExprParser.cxx 240-258) -/
def findOpen (s : List Char) : Option Nat := findOpenGo s.dropLast.reverse 0

/-- The loop of `parseUnaryFunc` which cuts the parameters at the commas (InterpKernelExprParser.cxx 584-594). -/
def splitComma : List Char → List (List Char)
  | [] => [[]]
  | c :: r =>
    if c = ',' then [] :: splitComma r
    else
      match splitComma r with
      | p :: ps => (c :: p) :: ps
      | [] => [[c]]

/-- `ExprParser::parseUnaryFunc` (InterpKernelExprParser.cxx 549-596); `none` = the method returns without conclusion.  When there
is no opening bracket at all both positions are `npos`; then `substr(npos+1, length-npos-2)` is the text without its last character. -/
def parseUnary (s : List Char) : M (Option (List (List Char) × List Fn)) :=
  if s.getLast? ≠ some ')' then .ok none
  else
    let pos1 := findFromPos (fun c => c = '(') s 0
    let pos4 := findOpen s
    if pos4 ≠ pos1 then .ok none
    else
      let funcName := match pos1 with | some p => s.take p | none => s
      let newExp := match pos1 with | some p => (s.dropLast).drop (p + 1) | none => s.dropLast
      if funcName.any isOp7 ∧ funcName.any (fun c => !isOp7 c) then .ok none
      else
        let nb := newExp.count ',' + 1
        let fs : M (List Fn) :=
          if funcName.any (fun c => !isOp7 c) then (buildFunc funcName nb).map (fun f => [f])
          else funcName.mapM (fun c => buildFunc [c] nb)
        match fs with
        | .ok fs => .ok (some (splitComma newExp, fs))
        | .error e => .error e

/-- State of the scanning loops of `parseForCmp`, `parseForAddMin`, `parseForMulDiv`, `parseForPow`. -/
structure Scan where
  lvl : Int
  cur : List Char
  subs : List (List Char)
  fs : List Fn
  ok : Bool

def Scan.init : Scan := ⟨0, [], [], [], false⟩

/-- default case of the `switch`, and the brackets -/
def scanOther (st : Scan) (c : Char) : Scan :=
  if c = '(' then { st with lvl := st.lvl + 1, cur := st.cur ++ [c] }
  else if c = ')' then { st with lvl := st.lvl - 1, cur := st.cur ++ [c] }
  else { st with cur := st.cur ++ [c] }

/-- a sub expression is finished by the operator `c` -/
def scanCut (st : Scan) (c : Char) : M Scan :=
  match buildBinary [c] with
  | .ok f => .ok { st with cur := [], subs := st.subs ++ [st.cur], fs := st.fs ++ [f], ok := true }
  | .error e => .error e

/-- body of the loop of `ExprParser::parseForCmp` (InterpKernelExprParser.cxx 625-668): the level is not looked at -/
def stepCmp (st : Scan) (c : Char) : M Scan :=
  if c = '>' ∨ c = '<' then (if st.cur = [] then throwX else scanCut st c) else .ok (scanOther st c)

/-- body of the loop of `ExprParser::parseForAddMin` (InterpKernelExprParser.cxx 687-737) -/
def stepAdd (st : Scan) (c : Char) : M Scan :=
  if c = '+' ∨ c = '-' then
    if st.lvl ≠ 0 then .ok { st with cur := st.cur ++ [c] }
    else
      match st.cur.getLast? with
      | none => .ok { st with cur := st.cur ++ [c] }
      | some a => if a ≠ '*' ∧ a ≠ '/' ∧ a ≠ '^' then scanCut st c else .ok { st with cur := st.cur ++ [c] }
  else .ok (scanOther st c)

/-- body of the loop of `ExprParser::parseForMulDiv` (InterpKernelExprParser.cxx 755-800) -/
def stepMul (st : Scan) (c : Char) : M Scan :=
  if c = '/' ∨ c = '*' then
    if st.lvl ≠ 0 then .ok { st with cur := st.cur ++ [c] }
    else if st.cur = [] then throwX else scanCut st c
  else .ok (scanOther st c)

/-- body of the loop of `ExprParser::parseForPow` (InterpKernelExprParser.cxx 819-863) -/
def stepPow (st : Scan) (c : Char) : M Scan :=
  if c = '^' then
    if st.lvl ≠ 0 then .ok { st with cur := st.cur ++ [c] }
    else if st.cur = [] then throwX else scanCut st c
  else .ok (scanOther st c)

/-- end of the four methods: the last sub expression (e.g. InterpKernelExprParser.cxx 669-683); `none` = not parsed -/
def scanEnd (st : Scan) : M (Option (List (List Char) × List Fn)) :=
  if st.ok then (if st.cur = [] then throwX else .ok (some (st.subs ++ [st.cur], st.fs))) else .ok none

def scanWith (step : Scan → Char → M Scan) (s : List Char) : M (Option (List (List Char) × List Fn)) :=
  match s.foldlM step Scan.init with
  | .ok st => scanEnd st
  | .error e => .error e

/-- `ExprParser::simplify` (InterpKernelExprParser.cxx 895-923): a leaf, or sub expressions still to be parsed -/
def simplify (A : Arith V) (s : List Char) : M ((Leaf V × List Fn) ⊕ (List (List Char) × List Fn)) := do
  match ← tryLeaf A s with
  | some l => return .inl l
  | none =>
    match ← parseUnary s with
    | some r => return .inr r
    | none =>
      match ← scanWith stepCmp s with
      | some r => return .inr r
      | none =>
        match ← scanWith stepAdd s with
        | some r => return .inr r
        | none =>
          match ← scanWith stepMul s with
          | some r => return .inr r
          | none =>
            match ← scanWith stepPow s with
            | some r => return .inr r
            | none => throwX

/-- `simplify` and `ExprParser::parseDeeper` (InterpKernelExprParser.cxx 534-541).  The fuel bounds the depth; the sub expressions are
shorter than the expression, so that the length is enough. -/
def parseDeep (A : Arith V) : Nat → List Char → M (PExpr (Leaf V))
  | 0, _ => undef
  | n + 1, s => do
    match ← simplify A s with
    | .inl (l, fs) => return .leaf l fs
    | .inr (subs, fs) => return .node (← subs.mapM (parseDeep A n)) fs

/-- `ExprParser::checkBracketsParity` (InterpKernelExprParser.cxx 925-956) -/
def bracketsGo : List Char → Nat → M Unit
  | [], lvl => if lvl ≠ 0 then throwX else .ok ()
  | c :: r, lvl =>
    if c = '(' then bracketsGo r (lvl + 1)
    else if c = ')' then (if lvl = 0 then throwX else bracketsGo r (lvl - 1))
    else bracketsGo r lvl

/-- `expr.substr(bg, end-bg)` -/
def cutText (s : List Char) (bg : Nat) (e : Option Nat) : List Char :=
  match e with
  | some e => (s.drop bg).take (e - bg)
  | none => s.drop bg

/-- `ExprParser::ReplaceAndTraduce` (InterpKernelExprParser.cxx 963-985): the new text, the value, and `delta` -/
def replaceAndTraduce (A : Arith V) (s : List Char) (id : Nat) (bg : Nat) (e : Option Nat) : M (List Char × V × Int) :=
  let tmp := cutText s bg e
  match readDouble tmp with
  | some (true, t) =>
    let tmp2 := Nat.toDigits 10 id
    .ok (s.take bg ++ tmp2 ++ s.drop (bg + tmp.length), A.lit t, (tmp2.length : Int) - tmp.length)
  | _ => throwX

/-- `pos + delta` on `std::size_t`: `npos` with a negative `delta` is a position after any text, which ends the loop as `npos`
does; `npos` with a positive `delta` wraps to `delta-1`. -/
def posAdd (pos : Option Nat) (delta : Int) : Option Nat :=
  match pos with
  | some p => some (p + delta).toNat
  | none => if 0 < delta then some (delta - 1).toNat else none

/-- `ReplaceAndTraduce`, then the next position: `npos` when `stop`, else `end + delta` -/
def fillEnd (A : Arith V) (s : List Char) (vals : List V) (id pos2 : Nat) (e : Option Nat) (stop : Bool) :
    M (List Char × List V × Nat × Option Nat) :=
  match replaceAndTraduce A s id pos2 e with
  | .ok (s', v, delta) => .ok (s', vals ++ [v], id + 1, if stop then none else posAdd e delta)
  | .error e => .error e

/-- `ExprParser::fillValuesInExpr` (InterpKernelExprParser.cxx 993-1093): one turn of the loop.  `lgth` is the length of the text before
any replacement, as in the code.  The result is the next position (`none` = the loop ends). -/
def fillStep (A : Arith V) (lgth : Nat) (s : List Char) (vals : List V) (id : Nat) (pos : Nat) :
    M (List Char × List V × Nat × Option Nat) :=
  match findFromPos isFig s pos with
  | none => .ok (s, vals, id, none)
  | some pos2 =>
    -- the character before the figure; `other` has no closing bracket, so that the second test of the code is never reached
    if 0 < pos2 ∧ ¬ (s[pos2 - 1]?.any isOther) then .ok (s, vals, id, findFromPos (fun c => !isFig c) s pos2)
    else
      let ending := fillEnd A s vals id pos2
      match findFromPos (fun c => !isFig c) s pos2 with
      | none => ending none true
      | some pos3 =>
        let pos3 := if s[pos3]? = some '.' then pos3 + 1 else pos3
        if pos3 < lgth then
          match findFromPos (fun c => !isFig c) s pos3 with
          | none => ending none true
          | some pos4 =>
            if s[pos4]? ≠ some 'e' ∧ s[pos4]? ≠ some 'E' then ending (some pos4) false
            else
              let pos4 := pos4 + 1
              if pos4 < lgth then
                let pos4 := if s[pos4]?.any isSign then pos4 + 1 else pos4
                if pos4 ≥ lgth then throwX
                else
                  let pos5 := findFromPos (fun c => !isFig c) s pos4
                  if pos5 = some pos4 then throwX else ending pos5 false
              else throwX
        else ending none true

/-- The loop of `fillValuesInExpr`. -/
def fillLoop (A : Arith V) (lgth : Nat) : Nat → List Char → List V → Nat → Option Nat → M (List Char × List V)
  | _, s, vals, _, none => .ok (s, vals)
  | 0, _, _, _, some _ => undef
  | n + 1, s, vals, id, some pos => do
    let (s', vals', id', pos') ← fillStep A lgth s vals id pos
    fillLoop A lgth n s' vals' id' pos'

def fillValues (A : Arith V) (s : List Char) : M (List Char × List V) :=
  fillLoop A s.length (s.length + 1) s [] 0 (some 0)

/-- `LeafExprVal::replaceValues`, `LeafExprVar::replaceValues` (InterpKernelExprParser.cxx 76-87, 196-199) -/
def replaceLeaf (A : Arith V) (vals : List V) : Leaf V → M (Leaf V)
  | .val v =>
    let pos := A.toInt v
    if pos ≥ vals.length ∨ pos < 0 then throwX
    else match vals[pos.toNat]? with | some w => .ok (.val w) | none => undef
  | .var x => .ok (.var x)

mutual
/-- a treatment of all the leaves (`replaceValues`, `prepareExprEvaluationDouble`), the last one of the arguments first or not does
not matter for the result -/
def PExpr.mapLeaves {L L' : Type} (g : L → M L') : PExpr L → M (PExpr L')
  | .leaf l fs => (g l).map (fun l' => .leaf l' fs)
  | .node subs fs => (mapLeavesL g subs).map (fun subs' => .node subs' fs)
def mapLeavesL {L L' : Type} (g : L → M L') : List (PExpr L) → M (List (PExpr L'))
  | [] => .ok []
  | e :: es =>
    match e.mapLeaves g with
    | .ok e' => (match mapLeavesL g es with | .ok es' => .ok (e' :: es') | .error x => .error x)
    | .error x => .error x
end

mutual
/-- `ExprParser::reverseThis` (InterpKernelExprParser.cxx 483-493) -/
def PExpr.reverseThis {L : Type} : PExpr L → PExpr L
  | .leaf l fs => .leaf l fs
  | .node subs fs => .node (reverseThisL subs).reverse fs
def reverseThisL {L : Type} : List (PExpr L) → List (PExpr L)
  | [] => []
  | e :: es => e.reverseThis :: reverseThisL es
end

/-- Constructor and `ExprParser::parse` (InterpKernelExprParser.cxx 219-223, 294-314); `none` for an empty text. -/
def parseExpr (A : Arith V) (text : List Char) : M (Option (PExpr (Leaf V))) := do
  let s := deleteWS text
  if s = [] then return none
  else
    let (s', vals) ← fillValues A s
    bracketsGo s' 0
    let t ← parseDeep A (s'.length + 1) s'
    let t' ← t.mapLeaves (replaceLeaf A vals)
    return some t'.reverseThis

/-! ## Link phase and evaluation -/

/-- A leaf after `prepareExprEvaluationDouble`: a number, the component number `_fast_pos` of the tuple, or a unitary vector (its
number and `_ref_pos`).  A variable which was not linked is kept as such. -/
inductive RLeaf (V : Type)
  | val (v : V)
  | comp (k : Nat)
  | unit (k : Nat) (ref : Nat)
  | unlinked

/-- `LeafExprVar::isRecognizedKeyVar` (InterpKernelExprParser.cxx 174-187): the number of the unitary vector -/
def keyVar (x : List Char) : Option Nat :=
  match x with
  | [c, 'V', 'e', 'c'] => if c < 'I' ∨ 'Z' < c then none else some (c.toNat - 'I'.toNat)
  | _ => none

/-- `LeafExprVar::prepareExprEvaluation` and `prepareExprEvaluationDouble` (InterpKernelExprParser.cxx 100-165) -/
def linkLeaf (vars : List (List Char)) (nbOfCompo target ref : Nat) : Leaf V → M (RLeaf V)
  | .val v => .ok (.val v)
  | .var x =>
    if x ∈ vars then
      let pos := vars.findIdx (fun y => y = x)
      if pos ≥ nbOfCompo then throwX else .ok (.comp pos)
    else
      match keyVar x with
      | none => throwX
      | some k => if k ≥ target then throwX else .ok (.unit k ref)

/-- `ExprParser::prepareExprEvaluationDouble` (InterpKernelExprParser.cxx 371-395) with `sz` the size of the input vector -/
def linkExpr (vars : List (List Char)) (nbOfCompo target ref sz : Nat) (t : PExpr (Leaf V)) : M (PExpr (RLeaf V)) :=
  if vars.length ≠ sz then throwX else t.mapLeaves (linkLeaf vars nbOfCompo target ref)

/-- a tree which is evaluated without link -/
def noLink (t : PExpr (Leaf V)) : M (PExpr (RLeaf V)) :=
  t.mapLeaves (fun l => match l with | .val v => .ok (.val v) | .var _ => .ok .unlinked)

/-- `LeafExprVal::getDoubleValue`, `LeafExprVar::getDoubleValue` (InterpKernelExprParser.cxx 1228-1231, 1265-1275).  For a leaf which was not
linked `_ref_pos` is not initialised. -/
def leafValue (A : Arith V) (buff : List V) : RLeaf V → M V
  | .val v => .ok v
  | .comp k => rd buff k
  | .unit k ref => .ok (if k = ref then A.one else A.zero)
  | .unlinked => undef

/-- `fabs(v) > 1.` is the negation of the test used for `acos` and `asin` -/
def absGt1 (A : Arith V) (v : V) : Bool := A.lt A.one (A.math .abs v)

/-- `operateStackOfDouble` of the unary functions, and `operateStackOfDoubleSafe` when `safe` (InterpKernelFunction.cxx 211-792) -/
def operate1 (A : Arith V) (safe : Bool) (f : Fn1) (v : V) : M V :=
  match f with
  | .identity => .ok v
  | .positive => .ok v
  | .negate => .ok (A.neg v)
  | .acos => if safe && absGt1 A v then throwX else .ok (A.math .acos v)
  | .asin => if safe && absGt1 A v then throwX else .ok (A.math .asin v)
  | .sqrt => if safe && A.lt v A.zero then throwX else .ok (A.math .sqrt v)
  | .ln => if safe && A.lt v A.zero then throwX else .ok (A.math .log v)
  | .log => if safe && A.lt v A.zero then throwX else .ok (A.math .log v)
  | .log10 => if safe && A.lt v A.zero then throwX else .ok (A.math .log10 v)
  | f => .ok (A.math f v)

/-- `std::max(x,y)` -/
def stdMax (A : Arith V) (x y : V) : V := if A.lt x y then y else x
/-- `std::min(x,y)` -/
def stdMin (A : Arith V) (x y : V) : V := if A.lt y x then y else x

/-- `operateStackOfDouble` of the binary functions, and `operateStackOfDoubleSafe` when `safe`, with `a` the top of the stack and
`b` the next value (InterpKernelFunction.cxx 833-1310) -/
def operate2 (A : Arith V) (safe : Bool) (f : Fn2) (a b : V) : M V :=
  match f with
  | .plus => .ok (A.add a b)
  | .minus => .ok (A.sub a b)
  | .mult => .ok (A.mul a b)
  | .div => if safe && A.eq b A.zero then throwX else .ok (A.div a b)
  | .pow => if safe && A.lt a A.zero then throwX else .ok (A.pow a b)
  | .max => .ok (stdMax A b a)
  | .min => .ok (stdMin A b a)
  | .gt => .ok (if A.lt b a then A.top else A.neg A.top)
  | .lt => .ok (if A.lt a b then A.top else A.neg A.top)

/-- `Function::operateStackOfDouble` on the stack (top first); reading or popping an empty stack is undefined -/
def operateStack (A : Arith V) (safe : Bool) (f : Fn) (stck : List V) : M (List V) :=
  match f with
  | .f1 .identity => .ok stck
  | .f1 .positive => .ok stck
  | .f1 f =>
    match stck with
    | v :: r => (operate1 A safe f v).map (fun w => w :: r)
    | _ => undef
  | .f2 f =>
    match stck with
    | a :: b :: r => (operate2 A safe f a b).map (fun w => w :: r)
    | _ => undef
  | .ifte =>
    match stck with
    | cond :: the :: els :: r =>
      if safe && !A.eq cond A.top && !A.eq cond (A.neg A.top) then throwX
      else .ok ((if A.eq cond A.top then the else els) :: r)
    | _ => undef

mutual
/-- `ExprParserOfEval::evaluateDoubleInternal`, `evaluateDoubleInternalSafe` (InterpKernelExprParser.hxx 113-134); the tree made by
`convertMeTo` has the shape of the expression -/
def evalTree (A : Arith V) (safe : Bool) (buff : List V) : PExpr (RLeaf V) → List V → M (List V)
  | .leaf l fs, stck => do
    let v ← leafValue A buff l
    fs.foldlM (fun s f => operateStack A safe f s) (v :: stck)
  | .node subs fs, stck => do
    let s ← evalTreeL A safe buff subs stck
    fs.foldlM (fun s f => operateStack A safe f s) s
def evalTreeL (A : Arith V) (safe : Bool) (buff : List V) : List (PExpr (RLeaf V)) → List V → M (List V)
  | [], stck => .ok stck
  | e :: es, stck => do
    let s ← evalTree A safe buff e stck
    evalTreeL A safe buff es s
end

/-- `ExprParser::evaluateDouble` (InterpKernelExprParser.cxx 408-415) -/
def evaluateDouble (A : Arith V) (t : Option (PExpr (Leaf V))) : M V := do
  match t with
  | none => throwX
  | some t =>
    let r ← noLink t
    match ← evalTree A false [] r [] with
    | v :: _ => return v
    | [] => undef

/-! ## Variables -/

/-- order of `std::string` -/
def strLt : List Char → List Char → Bool
  | [], [] => false
  | [], _ :: _ => true
  | _ :: _, [] => false
  | a :: r, b :: s => if a < b then true else if b < a then false else strLt r s

/-- `std::set<std::string>::insert` -/
def strInsert (x : List Char) : List (List Char) → List (List Char)
  | [] => [x]
  | y :: r => if strLt x y then x :: y :: r else if x = y then y :: r else y :: strInsert x r

mutual
/-- `ExprParser::getSetOfVars` (InterpKernelExprParser.cxx 504-516) -/
def PExpr.setOfVars : PExpr (Leaf V) → List (List Char) → List (List Char)
  | .leaf (.var x) _, acc => strInsert x acc
  | .leaf (.val _) _, acc => acc
  | .node subs _, acc => setOfVarsL subs acc
def setOfVarsL : List (PExpr (Leaf V)) → List (List Char) → List (List Char)
  | [], acc => acc
  | e :: es, acc => setOfVarsL es (e.setOfVars acc)
end

/-- `ExprParser::getTrueSetOfVars` (InterpKernelExprParser.cxx 518-532) -/
def trueVars (t : Option (PExpr (Leaf V))) : List (List Char) :=
  match t with
  | none => []
  | some t => (t.setOfVars []).filter (fun x => (keyVar x).isNone)

/-! ## `DataArrayDouble` -/

/-- Evaluation for one tuple: `evaluateDoubleInternal(Safe)(stck)`, `stck.back()`, `stck.pop_back()`.  The object whose text is empty
has an empty tree: nothing is pushed. -/
def evalPop (A : Arith V) (safe : Bool) (t : Option (PExpr (RLeaf V))) (buff : List V) (stck : List V) : M (V × List V) := do
  let s ← match t with | some t => evalTree A safe buff t stck | none => .ok stck
  match s with
  | v :: r => return (v, r)
  | [] => undef

def linkOpt (vars : List (List Char)) (nbOfCompo target ref sz : Nat) (t : Option (PExpr (Leaf V))) :
    M (Option (PExpr (RLeaf V))) :=
  match t with
  | none => if vars.length ≠ sz then throwX else .ok none
  | some t => (linkExpr vars nbOfCompo target ref sz t).map some

/-- `DataArrayDouble::applyFuncNamedCompo` (MEDCouplingMemArray.cxx 3386-3458) on `nt` tuples of `old` components.  In the safe
mode the error message is built by reading `old` values from `ptr + old*i`, where `ptr` was already moved to tuple `i`. -/
def applyFuncNamedCompo (A : Arith V) (nt old : Nat) (data : List V) (nbOfComp : Nat) (varsOrder : List (List Char)) (func : List Char)
    (safe : Bool) : M (List (Option V)) := do
  if nbOfComp = 0 then throwX
  else
    let varsOrder2 := varsOrder ++ List.replicate (old - varsOrder.length) []
    let t ← parseExpr A func
    let vars := trueVars t
    if vars.length > old then throwX
    else
      let res ← loop nbOfComp (mallocN V (nt * nbOfComp), ([] : List V)) fun iComp st => do
        let r ← linkOpt varsOrder2 old nbOfComp iComp old t
        loop nt st fun i st =>
          match evalPop A safe r ((data.drop (i * old)).take old) st.2 with
          | .ok (v, stck) => do
            let out ← wr st.1 ((i * nbOfComp + iComp : Nat) : Int) (some v)
            return (out, stck)
          | .error .ub => undef
          | .error .exn => if i * old + i * old + old ≤ data.length then throwX else undef
      return res.1

/-- `DataArrayDouble::applyFunc(nbOfComp, func, isSafe)` (MEDCouplingMemArray.cxx 3146-3155) -/
def applyFuncN (A : Arith V) (nt old : Nat) (data : List V) (nbOfComp : Nat) (func : List Char) (safe : Bool) :
    M (List (Option V)) := do
  let t ← parseExpr A func
  applyFuncNamedCompo A nt old data nbOfComp (trueVars t) func safe

/-- `DataArrayDouble::applyFunc(func, isSafe)` (MEDCouplingMemArray.cxx 3176-3254) on `nt` tuples of `nc` components -/
def applyFunc (A : Arith V) (nt nc : Nat) (data : List V) (func : List Char) (safe : Bool) : M (List (Option V)) := do
  if nc = 0 then throwX
  else
    let t ← parseExpr A func
    let vars := trueVars t
    if vars.length > 1 then throwX
    else if vars = [] then
      let v ← evaluateDouble A t
      return List.replicate (nt * nc) (some v)
    else
      let r ← linkOpt vars 1 1 0 1 t
      let res ← loop (nt * nc) (mallocN V (nt * nc), ([] : List V)) fun i st => do
        let x ← rd data i
        let (v, stck) ← evalPop A safe r [x] st.2
        let out ← wr st.1 (i : Int) (some v)
        return (out, stck)
      return res.1

end
end MC
