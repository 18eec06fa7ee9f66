import Verif.Base

/-!
# Memory accounting of a graph of objects (C27) – model

`BigMemoryObject` in `MEDCouplingRefCountObject.cxx`.  Objects are numbered.  A `std::set` of pointers is a list without repetition in
order of insertion; the code iterates in order of addresses, which nothing depends on but the order of the partial sums.
-/

namespace MC

/-- For each object `getHeapMemorySizeWithoutChildren()` and `getDirectChildrenWithNull()`. -/
structure OGraph where
  size : List Nat
  children : List (List (Option Nat))
deriving Repr

/-- `BigMemoryObject::getDirectChildren` – MEDCouplingRefCountObject.cxx:265-274. -/
def directChildren (g : OGraph) (o : Nat) : M (List Nat) :=
  match g.children[o]? with
  | none => undef
  | some l => .ok (l.filterMap id)

/-- `std::set::insert` -/
def insNew (s : List Nat) (x : Nat) : List Nat := if x ∈ s then s else s ++ [x]

/-- One turn of the inner loop of `GetHeapMemoryOfSet` – MEDCouplingRefCountObject.cxx:211-222; the state is (`ret`, `s1`, `s3`). -/
def heapSetStep (g : OGraph) (st : Nat × List Nat × List Nat) (it : Nat) : M (Nat × List Nat × List Nat) :=
  if it ∈ st.2.1 then .ok st
  else do
    let sz ← rd g.size (it : Int)
    let v2 ← directChildren g it
    .ok (st.1 + sz, st.2.1 ++ [it], v2.foldl (fun s3 c => if c ∈ st.2.1 ++ [it] then s3 else insNew s3 c) st.2.2)

/-- `BigMemoryObject::GetHeapMemoryOfSet` – MEDCouplingRefCountObject.cxx:203-227: (`ret`, final `s1`). -/
def heapMemoryOfSet (g : OGraph) : (fuel : Nat) → (ret : Nat) → (s1 s2 : List Nat) → M (Nat × List Nat)
  | _, ret, s1, [] => .ok (ret, s1)
  | 0, _, _, _ :: _ => undef
  | fuel + 1, ret, s1, x :: s2 => do
    let st ← (x :: s2).foldlM (heapSetStep g) (ret, s1, [])
    heapMemoryOfSet g fuel st.1 st.2.1 st.2.2

/-- `BigMemoryObject::getHeapMemorySize` – MEDCouplingRefCountObject.cxx:130-137. -/
def getHeapMemorySize (g : OGraph) (o : Nat) : M Nat := do
  let ret ← rd g.size (o : Int)
  let v ← directChildren g o
  let r ← heapMemoryOfSet g (g.size.length + 2) 0 [] (v.foldl insNew [])
  .ok (ret + r.1)

/-- The loop of `GetHeapMemorySizeOfObjs` – lines 189-199; the state is (`ret`, `s1`, `s2`). -/
def sizeOfObjsStep (g : OGraph) (st : Nat × List Nat × List Nat) (it : Option Nat) : M (Nat × List Nat × List Nat) :=
  match it with
  | none => .ok st
  | some o =>
    if o ∈ st.2.1 then .ok st
    else do
      let v ← directChildren g o
      let sz ← rd g.size (o : Int)
      .ok (st.1 + sz, st.2.1 ++ [o], v.foldl insNew st.2.2)

/-- `BigMemoryObject::GetHeapMemorySizeOfObjs` – MEDCouplingRefCountObject.cxx:184-201. -/
def getHeapMemorySizeOfObjs (g : OGraph) (objs : List (Option Nat)) : M Nat := do
  let st ← objs.foldlM (sizeOfObjsStep g) (0, [], [])
  let r ← heapMemoryOfSet g (g.size.length + 2) 0 st.2.1 st.2.2
  .ok (st.1 + r.1)

/-- The `while` loop of `getAllTheProgeny` – lines 149-165. -/
def progenyLoop (g : OGraph) : (fuel : Nat) → (ret s1 : List Nat) → M (List Nat)
  | _, ret, [] => .ok ret
  | 0, _, _ :: _ => undef
  | fuel + 1, ret, x :: s1 => do
    let cs ← (x :: s1).mapM (directChildren g)
    progenyLoop g fuel (ret ++ x :: s1) (cs.flatten.filter fun c => decide (c ∉ ret ++ x :: s1))

/-- `BigMemoryObject::getAllTheProgeny` – MEDCouplingRefCountObject.cxx:144-167. -/
def getAllTheProgeny (g : OGraph) (o : Nat) : M (List Nat) := do
  let s1 ← directChildren g o
  progenyLoop g (g.size.length + 1) [] s1

/-- `BigMemoryObject::isObjectInTheProgeny` – MEDCouplingRefCountObject.cxx:174-181. -/
def isObjectInTheProgeny (g : OGraph) (o : Nat) (obj : Option Nat) : M Bool :=
  match obj with
  | none => .ok false
  | some x => do
    let objs ← getAllTheProgeny g o
    .ok (decide (x ∈ objs))

end MC
