import Verif.Base

/-!
# Time labels (C28) – model

`MEDCouplingTimeLabel.cxx`.  `GLOBAL_TIME` is a 64 bit counter that is taken as unbounded.
-/

namespace MC

/-- `GLOBAL_TIME`; the labels `_time` of the objects created so far; and for each object the labelled objects it is made of, in the
order in which its `updateTime()` looks at them. -/
structure TLState where
  global : Nat
  time : List Nat
  parts : List (List Nat)
deriving DecidableEq, Repr

/-- `_time` of an object. -/
def getTime (s : TLState) (o : Nat) : M Nat := rd s.time (o : Int)

/-- `TimeLabel::declareAsNew` – MEDCouplingTimeLabel.cxx:42-46; the same as `operator=` on the target, lines 35-40. -/
def declareAsNew (o : Nat) (s : TLState) : M TLState := do
  let t ← wr s.time (o : Int) s.global
  .ok { s with global := s.global + 1, time := t }

/-- `TimeLabel::updateTimeWith` – MEDCouplingTimeLabel.cxx:48-53. -/
def updateTimeWith (o : Nat) (s : TLState) (other : Nat) : M TLState := do
  let a ← getTime s o
  let b ← getTime s other
  if a < b then do
    let t ← wr s.time (o : Int) b
    .ok { s with time := t }
  else .ok s

/-- `updateTime()` of a composite object, e.g. MEDCouplingField.cxx:170-177, MEDCouplingFieldDouble.cxx:1640-1645,
MEDCouplingUMesh.cxx:162-174, MEDCouplingPointSet.cxx:72-79, MEDCouplingTimeDiscretization.txx:39-44,
MEDCouplingMappedExtrudedMesh.cxx:517-524, MEDCouplingCMesh.cxx:131-140: `updateTimeWith` each part; the parts' own `updateTime()` is
not called. -/
def updateTime (o : Nat) (s : TLState) : M TLState :=
  match s.parts[o]? with
  | none => undef
  | some l => l.foldlM (updateTimeWith o) s

/-- What happens in a program. -/
inductive TLOp where
  /-- the constructor `TimeLabel()` – line 31 -/
  | new (parts : List Nat)
  /-- the copy constructor (`= default`, TimeLabel.hxx:38): the label is copied too -/
  | copy (o : Nat) (parts : List Nat)
  /-- a constructor followed by `forceTimeOfThis(f)`, MEDCouplingFieldTemplate.cxx:110-138 -/
  | newForced (o : Nat) (parts : List Nat)
  | declareAsNew (o : Nat)
  /-- `operator=` -/
  | assign (o : Nat)
  | updateTime (o : Nat)
  /-- a setter such as `MEDCouplingPointSet::setCoords`: other parts, then `declareAsNew()` -/
  | setParts (o : Nat) (parts : List Nat)
deriving Repr

def tlStep (s : TLState) : TLOp → M TLState
  | .new ps => .ok { global := s.global + 1, time := s.time ++ [s.global], parts := s.parts ++ [ps] }
  | .copy o ps => do
    let t ← getTime s o
    .ok { s with time := s.time ++ [t], parts := s.parts ++ [ps] }
  | .newForced o ps => do
    let t ← getTime s o
    .ok { global := s.global + 1, time := s.time ++ [t], parts := s.parts ++ [ps] }
  | .declareAsNew o => declareAsNew o s
  | .assign o => declareAsNew o s
  | .updateTime o => updateTime o s
  | .setParts o ps => do
    let p ← wr s.parts (o : Int) ps
    declareAsNew o { s with parts := p }

def tlRun (s : TLState) : List TLOp → M TLState
  | [] => .ok s
  | op :: l => do
    let s' ← tlStep s op
    tlRun s' l

/-- The constructor of `TimeLabelConstOverseer` (and `resetState`) – MEDCouplingTimeLabel.cxx:65-72, 88-98: the state afterwards and
`_ref_time`. -/
def overseerNew (o : Nat) (s : TLState) : M (TLState × Nat) := do
  let s1 ← updateTime o s
  let t ← getTime s1 o
  .ok (s1, t)

/-- `TimeLabelConstOverseer::checkConst` – MEDCouplingTimeLabel.cxx:77-86. -/
def checkConst (o ref : Nat) (s : TLState) : M TLState := do
  let s1 ← updateTime o s
  let t ← getTime s1 o
  if ref ≠ t then throwX else .ok s1

end MC
