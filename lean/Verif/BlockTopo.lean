import Verif.Base
import Verif.StdAlg

/-!
# Distribution of elements over processors: `BlockTopology` and `ComponentTopology`

Model of `src/ParaMEDMEM/BlockTopology.cxx` and `src/ParaMEDMEM/ComponentTopology.cxx`.

Simplifications:
- numbers of elements, ranks and positions are natural numbers (the constructors only produce such numbers); overflow is not modelled;
- `_dimension` is the number of offset arrays: every constructor and `unserialize` resizes the arrays to `_dimension`;
- a processor group is the list of the world ranks of its processors, in the order of their ranks inside the group, and the rank of the calling
  processor inside the group is a parameter `me`;
- the result of `allGather` is a parameter: the list of the numbers given by the processors of the group, in the order of their ranks.
-/

namespace MC

/-- `v[i]` of a `std::vector` -/
def vget {α : Type} (l : List α) (i : Nat) : M α :=
  match l[i]? with
  | some a => .ok a
  | none => undef

/-- `a / b` on integers -/
def divC (a b : Nat) : M Nat := if b = 0 then undef else .ok (a / b)

/-- `a % b` on integers -/
def modC (a b : Nat) : M Nat := if b = 0 then undef else .ok (a % b)

/-- members of `BlockTopology` (BlockTopology.hxx:67-80); `group`: world ranks of the processors of `_proc_group` -/
structure BTopo where
  nbProcsPerDim : List Nat
  axes : List (List Nat)
  cyc : List Nat
  group : List Nat
  nbElems : Nat
deriving DecidableEq, Repr

/-- members of `ComponentTopology` (ComponentTopology.hxx:60-62); the group is absent for the null pointer -/
structure CTopo where
  arr : List Nat
  group : Option (List Nat)
deriving DecidableEq, Repr

/-- The loop filling the offsets of an axis of `n` elements over `p` blocks: BlockTopology.cxx:73-82, ComponentTopology.cxx:36-43 and 54-61.
`arr` starts with the offset 0 and one offset is appended per round, from the last one. -/
def splitAxis (n p : Nat) : M (List Nat) :=
  loop p [0] fun k arr => do
    let i := k + 1
    let prev ← vget arr (i - 1)
    let q ← divC n p
    let r ← modC n p
    let x := prev + q
    return arr ++ [if i ≤ r then x + 1 else x]

/-- `BlockTopology(group, grid)`: BlockTopology.cxx:58-92; `dims`: number of coordinates along each axis -/
def BTopo.ofGrid (group dims : List Nat) : M BTopo := do
  let nb := dims.foldl (· * ·) 1
  let n0 ← vget dims 0
  let a0 ← splitAxis n0 group.length
  return { nbProcsPerDim := group.length :: (dims.drop 1).map fun _ => 1
           axes := a0 :: (dims.drop 1).map fun n => [0, n]
           cyc := dims.map fun _ => 0
           group := group
           nbElems := nb }

/-- `BlockTopology(group, nb_elem)`: BlockTopology.cxx:145-171; `counts`: the result of `allGather` -/
def BTopo.ofCounts (group counts : List Nat) : M BTopo := do
  let r ← loop group.length ([0], 0) fun k (arr, nb) => do
    let i := k + 1
    let prev ← vget arr (i - 1)
    let c ← vget counts (i - 1)
    return (arr ++ [prev + c], nb + c)
  return { nbProcsPerDim := [group.length], axes := [r.1], cyc := [0], group := group, nbElems := r.2 }

/-- `ComponentTopology(nb_comp, group)`: ComponentTopology.cxx:29-44 -/
def CTopo.ofGroup (nbComp : Nat) (group : List Nat) : M CTopo :=
  if group.length > nbComp then throwX else do
    let a ← splitAxis nbComp group.length
    return { arr := a, group := some group }

/-- `ComponentTopology(nb_comp, nb_blocks)`: ComponentTopology.cxx:49-62 -/
def CTopo.ofBlocks (nbComp nbBlocks : Nat) : M CTopo :=
  if nbBlocks > nbComp then throwX else do
    let a ← splitAxis nbComp nbBlocks
    return { arr := a, group := none }

/-- `ComponentTopology(nb_comp)`: ComponentTopology.cxx:65-70 -/
def CTopo.one (nbComp : Nat) : CTopo := { arr := [0, nbComp], group := none }

/-- `nbComponents`: ComponentTopology.hxx:46 -/
def CTopo.nbComponents (t : CTopo) : M Nat := vget t.arr (t.arr.length - 1)

/-- `nbBlocks`: ComponentTopology.hxx:52 -/
def CTopo.nbBlocks (t : CTopo) : Nat := t.arr.length - 1

/-- `nbLocalComponents`: ComponentTopology.cxx:82-95; `me` is absent for a processor outside the group -/
def CTopo.nbLocalComponents (t : CTopo) (me : Option Nat) : M Nat :=
  match t.group with
  | none => t.nbComponents
  | some _ =>
    match me with
    | some r => do return (← vget t.arr (r + 1)) - (← vget t.arr r)
    | none => .ok 0

/-- `firstLocalComponent`: ComponentTopology.cxx:97-110 -/
def CTopo.firstLocalComponent (t : CTopo) (me : Option Nat) : M Int :=
  match t.group with
  | none => .ok 0
  | some _ =>
    match me with
    | some r => do return ((← vget t.arr r : Nat) : Int)
    | none => .ok (-1)

/-- `BlockTopology(geom_topo, comp_topo)`: BlockTopology.cxx:103-134.  When the components are split, the group is the one of the component topology;
a null group is kept as it is by the code and every later use is undefined: the model says so here. -/
def BTopo.combine (g : BTopo) (c : CTopo) : M BTopo :=
  if g.group.length > 1 ∧ c.nbBlocks > 1 then throwX else do
    let nc ← c.nbComponents
    if nc = 1 then return g
    else do
      let grp ← if c.nbBlocks > 1 then (match c.group with | some l => .ok l | none => undef) else .ok g.group
      return { nbProcsPerDim := g.nbProcsPerDim ++ [c.nbBlocks]
               axes := g.axes ++ [c.arr]
               cyc := g.cyc ++ [0]
               group := grp
               nbElems := g.nbElems * nc }

/-- The loop `while (_local_array_indices[idim][iaxis] <= axis_pos)`: BlockTopology.cxx:205-210.  `left` bounds the number of rounds: a read outside the
array stops it. -/
def findBlock (ax : List Nat) (pos : Nat) : (left iaxis : Nat) → M Nat
  | 0, _ => undef
  | left + 1, iaxis => do
    let x ← vget ax iaxis
    if x ≤ pos then findBlock ax pos left (iaxis + 1) else return iaxis

/-- The first loop of `globalToLocal`: BlockTopology.cxx:197-213.  State: `subdomain_id`, `position`, `increment`, and for every axis met so far
its array, `axis_position` and `axis_offset`, the last axis first. -/
def gtlAxis (sizeProcs : Nat) (s : Nat × Nat × Nat × List (List Nat × Nat × Nat)) (ax : List Nat) :
    M (Nat × Nat × Nat × List (List Nat × Nat × Nat)) := do
  let (sub, position, increment, acc) := s
  let axisSize := ax.length - 1
  let axisNb ← vget ax axisSize
  let increment ← divC increment axisNb
  let procInc ← divC sizeProcs axisSize
  let axisPos ← divC position increment
  let position ← modC position increment
  let iaxis ← findBlock ax axisPos ax.length 1
  let x ← vget ax (iaxis - 1)
  return (sub + procInc * (iaxis - 1), position, increment, (ax, axisPos - x, iaxis) :: acc)

/-- The second loop: BlockTopology.cxx:214-221. -/
def gtlLocal (s : Nat × Nat) (e : List Nat × Nat × Nat) : M (Nat × Nat) := do
  let (loc, inc) := s
  let (ax, pos, off) := e
  let hi ← vget ax off
  let lo ← vget ax (off - 1)
  return (loc + pos * inc, inc * (hi - lo))

/-- `globalToLocal`: BlockTopology.cxx:187-223 -/
def BTopo.globalToLocal (t : BTopo) (glob : Nat) : M (Nat × Nat) := do
  let r ← t.axes.foldlM (gtlAxis t.group.length) (0, glob, t.nbElems, [])
  let l ← r.2.2.2.foldlM gtlLocal (0, 1)
  return (r.1, l.1)

/-- One round of the loop of `getNbLocalElements`: BlockTopology.cxx:259-267; state: `position`, `nb_elem`, `increment` -/
def nbLocAxis (s : Nat × Nat × Nat) (e : List Nat × Nat) : M (Nat × Nat × Nat) := do
  let (position, nb, increment) := s
  let (ax, np) := e
  let increment := increment * np
  let idim ← modC position increment
  let position ← divC position increment
  let imin ← vget ax idim
  let imax ← vget ax (idim + 1)
  return (position, nb * (imax - imin), increment)

/-- `getNbLocalElements`: BlockTopology.cxx:253-269, for the processor of rank `me` -/
def BTopo.nbLocal (t : BTopo) (me : Nat) : M Nat := do
  let r ← (t.axes.zip t.nbProcsPerDim).reverse.foldlM nbLocAxis (me, 1, 1)
  return r.2.1

/-- One round of the loop of `localToGlobal`: BlockTopology.cxx:235-248; state: `subdomain_id`, `global`, `loc`, `increment`, `proc_increment`,
`local_increment` -/
def ltgAxis (s : Nat × Nat × Nat × Nat × Nat × Nat) (ax : List Nat) : M (Nat × Nat × Nat × Nat × Nat × Nat) := do
  let (sub, glob, loc, increment, procInc, locInc) := s
  let axisSize := ax.length - 1
  let axisNb ← vget ax axisSize
  let increment := if axisNb = 0 then 0 else increment / axisNb
  let procInc ← divC procInc axisSize
  let procAxis ← divC sub procInc
  let sub ← modC sub procInc
  let hi ← vget ax (procAxis + 1)
  let lo ← vget ax procAxis
  let locNb := hi - lo
  let locInc := if locNb = 0 then 0 else locInc / locNb
  let iaxis := (if locInc = 0 then 0 else loc / locInc) + lo
  return (sub, glob + increment * iaxis, if locInc = 0 then 0 else loc % locInc, increment, procInc, locInc)

/-- `localToGlobal`: BlockTopology.cxx:226-250, called by the processor of rank `me` for the processor `sub` -/
def BTopo.localToGlobal (t : BTopo) (me : Nat) (sub loc : Nat) : M Nat := do
  let nl ← t.nbLocal me
  let r ← t.axes.foldlM ltgAxis (sub, 0, loc, t.nbElems, t.group.length, nl)
  return r.2.1

/-- One round of the loop of `getLocalArrayMinMax`: BlockTopology.cxx:282-289; state: `increment` and the ranges met so far -/
def minMaxAxis (me : Nat) (s : Nat × List (Nat × Nat)) (e : List Nat × Nat) : M (Nat × List (Nat × Nat)) := do
  let (increment, acc) := s
  let (ax, np) := e
  let increment := increment * np
  let idim ← modC me increment
  let lo ← vget ax idim
  let hi ← vget ax (idim + 1)
  return (increment, (lo, hi) :: acc)

/-- `getLocalArrayMinMax`: BlockTopology.cxx:276-291 (without the printing) -/
def BTopo.localMinMax (t : BTopo) (me : Nat) : M (List (Nat × Nat)) := do
  let r ← (t.axes.zip t.nbProcsPerDim).reverse.foldlM (minMaxAxis me) (1, [])
  return r.2

/-! ## Sending a topology -/

/-- `serialize`: BlockTopology.cxx:295-323 -/
def BTopo.serialize (t : BTopo) : List Nat :=
  [t.axes.length, t.nbElems]
    ++ ((t.nbProcsPerDim.zip (t.cyc.zip t.axes)).map fun (np, cy, ax) => np :: cy :: ax.length :: ax).flatten
    ++ t.group.length :: t.group

/-- `*(ptr_serializer++)` -/
def pop : List Nat → M (Nat × List Nat)
  | [] => undef
  | a :: r => .ok (a, r)

/-- `n` times `*(ptr_serializer++)` -/
def popN : Nat → List Nat → M (List Nat × List Nat)
  | 0, l => .ok ([], l)
  | n + 1, l => do
    let (a, l) ← pop l
    let (as, l) ← popN n l
    return (a :: as, l)

/-- The loop over the axes: BlockTopology.cxx:340-347 -/
def popAxes : Nat → List Nat → M (List (Nat × Nat × List Nat) × List Nat)
  | 0, l => .ok ([], l)
  | n + 1, l => do
    let (np, l) ← pop l
    let (cy, l) ← pop l
    let (sz, l) ← pop l
    let (ax, l) ← popN sz l
    let (r, l) ← popAxes n l
    return ((np, cy, ax) :: r, l)

/-- `unserialize`: BlockTopology.cxx:331-356; the group is rebuilt from the set of the ranks (`std::set<int>`,
iterated in increasing order) -/
def BTopo.unserialize (l : List Nat) : M BTopo := do
  let (dim, l) ← pop l
  let (nb, l) ← pop l
  let (axs, l) ← popAxes dim l
  let (sz, l) ← pop l
  let (procs, _) ← popN sz l
  return { nbProcsPerDim := axs.map (·.1), axes := axs.map (·.2.2), cyc := axs.map (·.2.1)
           group := setInsertAll [] procs
           nbElems := nb }

end MC
