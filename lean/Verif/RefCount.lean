import Verif.Base

/-!
# Reference counting and the smart pointer `MCAuto` (C26) – model

`MEDCouplingRefCountObject.cxx` and `MCAuto.hxx`.  Two views:

* a heap of objects that own each other through `MCAuto` members, handled by one thread;
* one object shared by any number of threads, whose calls interleave at the granularity of the atomic operations on `_cnt`.
-/

namespace MC

/-! ## One thread, many objects -/

/-- A ref counted object: `_cnt`, whether its memory is still there, and its `MCAuto` members in the order in which its destructor
destroys them. -/
structure RObj where
  cnt : Int
  alive : Bool
  fields : List (Option Nat)
deriving DecidableEq, Repr

/-- The objects created so far, the `MCAuto` variables, and the raw references that somebody owns (results of `New`, `retn`,
`incrRef` not yet given back). -/
structure RState where
  objs : List RObj
  vars : List (Option Nat)
  raws : List Nat
deriving DecidableEq, Repr

/-- Where an `MCAuto` lives: a variable, or a member of an object. -/
inductive PLoc where
  | var (i : Nat)
  | field (o k : Nat)
deriving DecidableEq, Repr

/-- `RefCountObjectOnly::incrRef` – MEDCouplingRefCountObject.cxx:300-304; on a destroyed object it is undefined. -/
def incrRef (o : Nat) (objs : List RObj) : M (List RObj) :=
  match objs[o]? with
  | none => undef
  | some ob => if ob.alive then .ok (objs.set o { ob with cnt := ob.cnt + 1 }) else undef

/-- `RefCountObjectOnly::decrRef` – MEDCouplingRefCountObject.cxx:291-298, together with the destructors it triggers (`~MCAuto` of
the members, MCAuto.hxx:44, calls `decrRef` in turn).  The work list holds the `decrRef` calls still to be made, innermost first. -/
def releaseLoop : (fuel : Nat) → List Nat → List RObj → M (List RObj)
  | _, [], objs => .ok objs
  | 0, _ :: _, _ => undef
  | fuel + 1, o :: w, objs =>
    match objs[o]? with
    | none => undef
    | some ob =>
      if ob.alive then
        if ob.cnt - 1 = 0 then
          releaseLoop fuel (ob.fields.filterMap id ++ w) (objs.set o { ob with cnt := 0, alive := false })
        else releaseLoop fuel w (objs.set o { ob with cnt := ob.cnt - 1 })
      else undef

/-- The number of members of the objects in existence: a bound on the length of a cascade of destructions. -/
def liveFields (objs : List RObj) : Nat := (objs.map fun ob => if ob.alive then ob.fields.length else 0).sum

/-- `MCAuto::destroyPtr` – MCAuto.hxx:111-115 (also `~MCAuto`, line 44). -/
def destroyPtr (p : Option Nat) (objs : List RObj) : M (List RObj) :=
  match p with
  | none => .ok objs
  | some o => releaseLoop (1 + liveFields objs) [o] objs

/-- Reading `_ptr` of a smart pointer; that of a destroyed object is undefined. -/
def readPtr (s : RState) : PLoc → M (Option Nat)
  | .var i =>
    match s.vars[i]? with
    | none => undef
    | some p => .ok p
  | .field o k =>
    match s.objs[o]? with
    | none => undef
    | some ob =>
      if ob.alive then
        match ob.fields[k]? with
        | none => undef
        | some p => .ok p
      else undef

/-- Writing `_ptr`. -/
def writePtr (s : RState) (p : Option Nat) : PLoc → M RState
  | .var i => if i < s.vars.length then .ok { s with vars := s.vars.set i p } else undef
  | .field o k =>
    match s.objs[o]? with
    | none => undef
    | some ob =>
      if ob.alive = true ∧ k < ob.fields.length then
        .ok { s with objs := s.objs.set o { ob with fields := ob.fields.set k p } }
      else undef

/-- `MCAuto::referPtr` – MCAuto.hxx:105-110. -/
def referPtr (dst : PLoc) (p : Option Nat) (s : RState) : M RState := do
  let s1 ← writePtr s p dst
  match p with
  | none => .ok s1
  | some o => do
    let objs ← incrRef o s1.objs
    .ok { s1 with objs := objs }

/-- `MCAuto::operator=(const MCAuto&)` – MCAuto.hxx:59-67; `other._ptr` is read again after `destroyPtr`. -/
def assignAuto (dst src : PLoc) (s : RState) : M RState := do
  let p ← readPtr s dst
  let q ← readPtr s src
  if p ≠ q then do
    let objs ← destroyPtr p s.objs
    let q' ← readPtr { s with objs := objs } src
    referPtr dst q' { s with objs := objs }
  else .ok s

/-- `MCAuto::operator=(T*)` – MCAuto.hxx:68-76: the smart pointer becomes the owner of the reference of the caller, except when it
points to the object already. -/
def assignRaw (dst : PLoc) (ptr : Option Nat) (s : RState) : M RState := do
  let p ← readPtr s dst
  if p ≠ ptr then do
    let objs ← destroyPtr p s.objs
    let s1 ← writePtr { s with objs := objs } ptr dst
    match ptr with
    | none => .ok s1
    | some o => .ok { s1 with raws := s1.raws.erase o }
  else .ok s

/-- `MCAuto::takeRef` – MCAuto.hxx:77-84. -/
def takeRef (dst : PLoc) (ptr : Option Nat) (s : RState) : M RState := do
  let p ← readPtr s dst
  if p ≠ ptr then do
    let objs ← destroyPtr p s.objs
    referPtr dst ptr { s with objs := objs }
  else .ok s

/-- `MCAuto::nullify` – MCAuto.hxx:52-56. -/
def nullifyPtr (dst : PLoc) (s : RState) : M RState := do
  let p ← readPtr s dst
  let objs ← destroyPtr p s.objs
  writePtr { s with objs := objs } none dst

/-- `MCAuto::retn` – MCAuto.hxx:91-96: the caller owns one more reference. -/
def retnPtr (src : PLoc) (s : RState) : M RState := do
  let p ← readPtr s src
  match p with
  | none => .ok s
  | some o => do
    let objs ← incrRef o s.objs
    .ok { s with objs := objs, raws := o :: s.raws }

/-- The operations of a history. -/
inductive ROp where
  /-- `T::New()` of a class with `n` `MCAuto` members: the caller owns the reference (`_cnt(1)`, RefCountObject.cxx:287). -/
  | new (n : Nat)
  /-- `MCAuto<T> x(ptr);` – MCAuto.hxx:43 -/
  | declRaw (ptr : Option Nat)
  /-- `MCAuto<T> x(other);` – MCAuto.hxx:42 -/
  | declCopy (src : PLoc)
  /-- the variable goes out of scope – MCAuto.hxx:44 -/
  | endScope (i : Nat)
  | assign (dst src : PLoc)
  | assignRaw (dst : PLoc) (ptr : Option Nat)
  | takeRef (dst : PLoc) (ptr : Option Nat)
  | nullify (dst : PLoc)
  | retn (src : PLoc)
  /-- `ptr->incrRef()` -/
  | incr (o : Nat)
  /-- `ptr->decrRef()` -/
  | decr (o : Nat)
deriving Repr

/-- One operation.  Simplification: a variable that left its scope stays in the list as a null pointer. -/
def rstep (s : RState) : ROp → M RState
  | .new n => .ok { s with objs := s.objs ++ [⟨1, true, List.replicate n none⟩], raws := s.objs.length :: s.raws }
  | .declRaw none => .ok { s with vars := s.vars ++ [none] }
  | .declRaw (some o) => .ok { s with vars := s.vars ++ [some o], raws := s.raws.erase o }
  | .declCopy src => do
    let q ← readPtr s src
    referPtr (.var s.vars.length) q { s with vars := s.vars ++ [none] }
  | .endScope i => nullifyPtr (.var i) s
  | .assign dst src => assignAuto dst src s
  | .assignRaw dst ptr => assignRaw dst ptr s
  | .takeRef dst ptr => takeRef dst ptr s
  | .nullify dst => nullifyPtr dst s
  | .retn src => retnPtr src s
  | .incr o => do
    let objs ← incrRef o s.objs
    .ok { s with objs := objs, raws := o :: s.raws }
  | .decr o => do
    let objs ← releaseLoop (1 + liveFields s.objs) [o] s.objs
    .ok { s with objs := objs, raws := s.raws.erase o }

def rrun (s : RState) : List ROp → M RState
  | [] => .ok s
  | op :: l => do
    let s' ← rstep s op
    rrun s' l

/-! ## One object, many threads

`_cnt` is a `std::atomic<int>` (MEDCouplingRefCountObject.hxx:115).  `decrRef` is two steps: the atomic `--_cnt`, then – if the new
value was 0 – `delete this`. -/

/-- A thread: the references it owns, and whether it is between `--_cnt` (which gave 0) and `delete this`. -/
structure TRef where
  owned : Nat
  deleting : Bool
deriving DecidableEq, Repr

/-- The object: its counter, how often it has been deleted; and the threads. -/
structure SharedObj where
  cnt : Int
  deletions : Nat
  threads : List TRef
deriving DecidableEq, Repr

/-- The atomic steps. -/
inductive TAct where
  /-- `incrRef()` by thread `t` -/
  | incr (t : Nat)
  /-- the decrement of `decrRef()` by thread `t` -/
  | decr (t : Nat)
  /-- the `delete this` that thread `t` still has to do -/
  | del (t : Nat)
  /-- thread `t` hands one of its references over to thread `u` (no call on the object) -/
  | give (t u : Nat)
deriving DecidableEq, Repr

/-- One step.  Touching `_cnt` after a deletion, or deleting twice, is undefined. -/
def tstep (s : SharedObj) : TAct → M SharedObj
  | .incr t =>
    match s.threads[t]? with
    | none => undef
    | some th =>
      if s.deletions = 0 then
        .ok { s with cnt := s.cnt + 1, threads := s.threads.set t { th with owned := th.owned + 1 } }
      else undef
  | .decr t =>
    match s.threads[t]? with
    | none => undef
    | some th =>
      if s.deletions = 0 then
        .ok { s with cnt := s.cnt - 1
                     threads := s.threads.set t { owned := th.owned - 1, deleting := decide (s.cnt - 1 = 0) } }
      else undef
  | .del t =>
    match s.threads[t]? with
    | none => undef
    | some th =>
      if s.deletions = 0 then .ok { s with deletions := 1, threads := s.threads.set t { th with deleting := false } } else undef
  | .give t u =>
    match s.threads[t]?, s.threads[u]? with
    | some th, some uh =>
      if t = u then .ok s
      else .ok { s with threads := (s.threads.set t { th with owned := th.owned - 1 }).set u { uh with owned := uh.owned + 1 } }
    | _, _ => undef

def trun (s : SharedObj) : List TAct → M SharedObj
  | [] => .ok s
  | a :: l => do
    let s' ← tstep s a
    trun s' l

end MC
