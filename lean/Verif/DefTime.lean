import Verif.Base
import Mathlib.Algebra.Order.Field.Basic
import Mathlib.Algebra.Order.AbsoluteValue.Basic

/-!
# The time definition of a field over time (MEDCouplingDefinitionTime.cxx)

A field over time is a list of fields, each on an instant or on a time interval; its time definition tells, at a given time, which mesh and
which array hold the values.  Times are in an ordered field.  The tolerance `_eps` is `none` when the constructor leaves it uninitialised;
reading it is then undefined.  Meshes and arrays are pointers, that is numbers, or `none` for the null pointer.
-/

namespace MC

/-- `TypeOfTimeDiscretization` (MEDCouplingRefCountObject.hxx:53-59) -/
inductive TDisc | noTime | oneTime | linearTime | constOnInterval
deriving DecidableEq

/-- numbers of the enumeration (MEDCouplingRefCountObject.hxx:55-58) -/
def TDisc.toInt : TDisc → Int
  | .noTime => 4
  | .oneTime => 5
  | .linearTime => 6
  | .constOnInterval => 7

/-- what the time definition asks to a field: `getTimeDiscretization`, `getTimeTolerance`, `getStartTime`, `getEndTime` and the pointers
given by `getMesh` and `getArrays` -/
structure TField (K : Type) where
  disc : TDisc
  tol : K
  t1 : K
  t2 : K
  mesh : Option Nat
  arrs : List (Option Nat)

/-- `MEDCouplingDefinitionTimeSlice` and its three subclasses (MEDCouplingDefinitionTime.hxx:36-164) -/
inductive TSlice (K : Type)
  | inst (mesh arr fld : Int) (t : K)
  | cst (mesh arr fld : Int) (s e : K)
  | lin (mesh arr fld arrEnd : Int) (s e : K)
deriving DecidableEq

variable {K : Type}

namespace TSlice

/-- `getStartTime` (MEDCouplingDefinitionTime.cxx:264-268, 349-353, 478-482) -/
def start : TSlice K → K
  | inst _ _ _ t => t
  | cst _ _ _ s _ => s
  | lin _ _ _ _ s _ => s

/-- `getEndTime` (MEDCouplingDefinitionTime.cxx:270-274, 355-359, 484-488) -/
def stop : TSlice K → K
  | inst _ _ _ t => t
  | cst _ _ _ _ e => e
  | lin _ _ _ _ _ e => e

/-- the id of the mesh -/
def meshId : TSlice K → Int
  | inst m _ _ _ => m
  | cst m _ _ _ _ => m
  | lin m _ _ _ _ _ => m

/-- `getStartId` (MEDCouplingDefinitionTime.cxx:100-104) -/
def startId : TSlice K → Int
  | inst _ a _ _ => a
  | cst _ a _ _ _ => a
  | lin _ a _ _ _ _ => a

/-- `getEndId` (MEDCouplingDefinitionTime.cxx:106-110, 490-494) -/
def endId : TSlice K → Int
  | inst _ a _ _ => a
  | cst _ a _ _ _ => a
  | lin _ _ _ b _ _ => b

/-- the id of the field -/
def fieldId : TSlice K → Int
  | inst _ _ f _ => f
  | cst _ _ f _ _ => f
  | lin _ _ f _ _ _ => f

/-- `getTimeType` (MEDCouplingDefinitionTime.cxx:210-214, 385-389, 520-524) -/
def ty : TSlice K → TDisc
  | inst .. => .oneTime
  | cst .. => .constOnInterval
  | lin .. => .linearTime

/-- `getTinySerializationInformation`, integers (MEDCouplingDefinitionTime.cxx:188-199, 361-373, 496-507) -/
def tiI : TSlice K → List Int
  | inst m a f _ => [m, a, f]
  | cst m a f _ _ => [m, a, f]
  | lin m a f b _ _ => [m, a, f, b]

/-- `getTinySerializationInformation`, times (MEDCouplingDefinitionTime.cxx:188-199, 361-373, 496-507) -/
def tiD : TSlice K → List K
  | inst _ _ _ t => [t]
  | cst _ _ _ s e => [s, e]
  | lin _ _ _ _ s e => [s, e]

end TSlice

section
variable [Field K] [LinearOrder K]

/-- `isContaining` (MEDCouplingDefinitionTime.cxx:251-255, 336-340, 464-468) -/
def dtContains (s : TSlice K) (tm eps : K) : Bool :=
  match s with
  | .inst _ _ _ t => decide (|tm - t| < eps)
  | .cst _ _ _ s e => decide (s - eps < tm) && decide (e + eps > tm)
  | .lin _ _ _ _ s e => decide (s - eps < tm) && decide (e + eps > tm)

/-- `getIdsOnTime` of a slice: the mesh, the array, its number in the field and the field
(MEDCouplingDefinitionTime.cxx:240-249, 325-334, 440-462) -/
def dtSliceIds (s : TSlice K) (tm eps : K) : M (Int × Int × Int × Int) :=
  match s with
  | .inst m a f _ => .ok (m, a, 0, f)
  | .cst m a f _ _ => .ok (m, a, 0, f)
  | .lin m a f b s e =>
    if |tm - s| < eps then .ok (m, a, 0, f) else if |tm - e| < eps then .ok (m, b, 1, f) else throwX

/-- `getHotSpotsTime` of a slice (MEDCouplingDefinitionTime.cxx:233-238, 318-323, 432-438) -/
def dtSliceHot (s : TSlice K) : List K :=
  match s with
  | .inst _ _ _ t => [t]
  | .cst _ _ _ s e => [(s + e) / 2]
  | .lin _ _ _ _ s e => [s, e]

/-- `isAfterMe` (MEDCouplingDefinitionTime.cxx:162-169) -/
def dtIsAfter (me other : TSlice K) (eps : K) : Bool :=
  decide (other.start > me.stop - eps) && decide (other.stop > me.stop - eps)

/-- `isEqual` of slices; the ids first, the class, then the times (MEDCouplingDefinitionTime.cxx:88-98, 222-231, 304-316, 417-430) -/
def dtSliceEq (s o : TSlice K) (eps : K) : Bool :=
  match s, o with
  | .inst m a f t, .inst m' a' f' t' => m == m' && a == a' && f == f' && decide (|t' - t| < eps)
  | .cst m a f s e, .cst m' a' f' s' e' =>
    m == m' && a == a' && f == f' && !decide (|s' - s| > eps) && decide (|e' - e| < eps)
  | .lin m a f b s e, .lin m' a' f' b' s' e' =>
    m == m' && a == a' && f == f' && b == b' && !decide (|s' - s| > eps) && decide (|e' - e| < eps)
  | _, _ => false

/-- `MEDCouplingDefinitionTimeSlice::New` on a field, with the constructors; the instant is the start of the field
(MEDCouplingDefinitionTime.cxx:30-66, 117-128, 275-288, 390-401, 525-536) -/
def dtSliceNew (f : Option (TField K)) (meshId : Int) (arrId : List Int) (fieldId : Int) : M (TSlice K) :=
  match f with
  | none => throwX
  | some f =>
    match f.disc, arrId with
    | .oneTime, [a] => if f.t2 < f.t1 then throwX else if |f.t1 - f.t2| > f.tol then throwX else .ok (.inst meshId a fieldId f.t1)
    | .constOnInterval, [a] => if f.t2 < f.t1 then throwX else .ok (.cst meshId a fieldId f.t1 f.t2)
    | .linearTime, [a, b] => if f.t2 < f.t1 then throwX else .ok (.lin meshId a fieldId b f.t1 f.t2)
    | _, _ => throwX

/-- `MEDCouplingDefinitionTime` -/
structure DefTime (K : Type) where
  eps : Option K
  slices : List (TSlice K)
deriving DecidableEq

/-- reading `_eps` -/
def dtEps (d : DefTime K) : M K :=
  match d.eps with
  | some e => .ok e
  | none => undef

/-- the loop comparing each slice with the one before it (MEDCouplingDefinitionTime.cxx:565-579) -/
def dtOrdered (eps : K) : TSlice K → List (TSlice K) → Bool
  | _, [] => true
  | r, s :: l => dtIsAfter r s eps && dtOrdered eps s l

/-- the slice number i (MEDCouplingDefinitionTime.cxx:559) -/
def dtMk (fs : List (Option (TField K))) (meshRefs : List Int) (arrRefs : List (List Int)) (i : Nat) : M (TSlice K) := do
  let f ← rd fs i
  let m ← rd meshRefs i
  let a ← rd arrRefs i
  dtSliceNew f m a i

/-- the end of the constructor, from two fields on (MEDCouplingDefinitionTime.cxx:561-580) -/
def dtCheck (fs : List (Option (TField K))) (sl : List (TSlice K)) : M (DefTime K) :=
  match fs, sl with
  | some f :: _ :: _, s :: l => if dtOrdered f.tol s l then .ok ⟨some f.tol, sl⟩ else throwX
  | none :: _ :: _, _ => undef
  | _, _ => .ok ⟨none, sl⟩

/-- the constructor on fields; `_eps` is not set when there is at most one field (MEDCouplingDefinitionTime.cxx:539-580) -/
def dtNew (fs : List (Option (TField K))) (meshRefs : List Int) (arrRefs : List (List Int)) : M (DefTime K) :=
  if fs.length ≠ arrRefs.length then throwX else do
    let sl ← (List.range fs.length).mapM (dtMk fs meshRefs arrRefs)
    dtCheck fs sl

/-- `assign`: the tolerance of this is kept (MEDCouplingDefinitionTime.cxx:594-600) -/
def dtAssign (d other : DefTime K) : DefTime K := ⟨d.eps, other.slices⟩

/-- the slices compared by `isEqual` -/
def dtEqSlices (eps : K) : List (TSlice K) → List (TSlice K) → Bool
  | s :: l, o :: l' => dtSliceEq s o eps && dtEqSlices eps l l'
  | _, _ => true

/-- `isEqual` (MEDCouplingDefinitionTime.cxx:602-612) -/
def dtIsEqual (d o : DefTime K) : M Bool :=
  if d.slices.length ≠ o.slices.length then .ok false
  else if d.slices = [] then .ok true
  else do
    let e ← dtEps d
    pure (dtEqSlices e d.slices o.slices)

/-- one step of the loop on the slices in `getIdsOnTime` (MEDCouplingDefinitionTime.cxx:653-656) -/
def dtIdsStep (tm eps : K) (st : List Nat × Nat) (s : TSlice K) : List Nat × Nat :=
  (if dtContains s tm eps then st.1 ++ [st.2] else st.1, st.2 + 1)

/-- the slices containing a time (MEDCouplingDefinitionTime.cxx:651-656) -/
def dtMatching (d : DefTime K) (tm : K) : M (List Nat) :=
  if d.slices = [] then .ok []
  else do
    let e ← dtEps d
    pure (d.slices.foldl (dtIdsStep tm e) ([], 0)).1

/-- the ids given by the slice number i (MEDCouplingDefinitionTime.cxx:668) -/
def dtIdsAt (d : DefTime K) (tm : K) (i : Nat) : M (Int × Int × Int × Int) := do
  let s ← rd d.slices i
  let e ← dtEps d
  dtSliceIds s tm e

/-- `getIdsOnTime` (MEDCouplingDefinitionTime.cxx:642-669) -/
def dtIdsOnTime (d : DefTime K) (tm : K) : M (List (Int × Int × Int × Int)) := do
  let ids ← dtMatching d tm
  if ids = [] then throwX
  else if ids.length > 2 then throwX
  else ids.mapM (dtIdsAt d tm)

/-- `getIdsOnTimeLeft` (MEDCouplingDefinitionTime.cxx:628-640) -/
def dtIdsLeft (d : DefTime K) (tm : K) : M (Int × Int × Int × Int) := do
  let r ← dtIdsOnTime d tm
  rd r 0

/-- `getIdsOnTimeRight` (MEDCouplingDefinitionTime.cxx:614-626) -/
def dtIdsRight (d : DefTime K) (tm : K) : M (Int × Int × Int × Int) := do
  let r ← dtIdsOnTime d tm
  rd r ((r.length : Int) - 1)

/-- one step of `getHotSpotsTime` (MEDCouplingDefinitionTime.cxx:678-689) -/
def dtHotStep (eps : Option K) (ret : List K) (s : TSlice K) : M (List K) :=
  match ret.getLast?, dtSliceHot s with
  | none, tmp => .ok (ret ++ tmp)
  | some _, [] => undef
  | some b, t :: tmp =>
    match eps with
    | none => undef
    | some e => .ok (if |b - t| > e then ret ++ t :: tmp else ret ++ tmp)

/-- `getHotSpotsTime` (MEDCouplingDefinitionTime.cxx:671-691) -/
def dtHotSpots (d : DefTime K) : M (List K) := d.slices.foldlM (dtHotStep d.eps) []

/-- `getTinySerializationInformation` (MEDCouplingDefinitionTime.cxx:706-730) -/
def dtSerialize (d : DefTime K) : M (List Int × List K) := do
  let e ← dtEps d
  let core := (d.slices.map TSlice.tiI).flatten
  pure ([(d.slices.length : Int), (core.length : Int)] ++ d.slices.map (fun s => s.ty.toInt)
      ++ d.slices.map (fun s => (s.tiI.length : Int)) ++ d.slices.map (fun s => (s.tiD.length : Int)) ++ core,
    e :: (d.slices.map TSlice.tiD).flatten)

/-- `std::vector<T>(v.begin() + a, v.begin() + a + n)` -/
def subVec {α : Type} (v : List α) (a n : Int) : M (List α) :=
  if 0 ≤ a ∧ 0 ≤ n ∧ a + n ≤ v.length then .ok ((v.drop a.toNat).take n.toNat) else undef

/-- `MEDCouplingDefinitionTimeSlice::New` from arrays, with `unserialize` of the three classes
(MEDCouplingDefinitionTime.cxx:68-86, 180-186, 201-208, 290-296, 375-383, 403-409, 509-518) -/
def dtSliceUnser (ty : Int) (tiI : List Int) (tiD : List K) : M (TSlice K) :=
  if ty = 5 then do
    let m ← rd tiI 0; let a ← rd tiI 1; let f ← rd tiI 2; let t ← rd tiD 0
    pure (.inst m a f t)
  else if ty = 7 then do
    let m ← rd tiI 0; let a ← rd tiI 1; let f ← rd tiI 2; let s ← rd tiD 0; let e ← rd tiD 1
    pure (.cst m a f s e)
  else if ty = 6 then do
    let m ← rd tiI 0; let a ← rd tiI 1; let f ← rd tiI 2; let b ← rd tiI 3; let s ← rd tiD 0; let e ← rd tiD 1
    pure (.lin m a f b s e)
  else throwX

/-- one step of `unserialize` with the offsets (MEDCouplingDefinitionTime.cxx:740-751) -/
def dtUnserStep (I : List Int) (D : List K) (sz : Int) (i : Nat) (st : List (TSlice K) × Int × Int) :
    M (List (TSlice K) × Int × Int) := do
  let ty ← rd I (i + 2)
  let sz1 ← rd I (i + sz + 2)
  let sz2 ← rd I (i + 2 * sz + 2)
  let t1 ← subVec I (3 * sz + 2 + st.2.1) sz1
  let t2 ← subVec D st.2.2 sz2
  let s ← dtSliceUnser ty t1 t2
  pure (st.1 ++ [s], st.2.1 + sz1, st.2.2 + sz2)

/-- `unserialize` (MEDCouplingDefinitionTime.cxx:732-752) -/
def dtUnserialize (I : List Int) (D : List K) : M (DefTime K) := do
  let sz ← rd I 0
  let e ← rd D 0
  let st ← loop sz.toNat ([], 0, 1) (dtUnserStep I D sz)
  pure ⟨some e, st.1⟩

end

/-! ## The different meshes and arrays -/

/-- one pointer: `std::find` among the pointers found, else it is added (MEDCouplingMultiFields.cxx:254-266, 302-314) -/
def diffStep (st : List Nat × List Int) (p : Option Nat) : List Nat × List Int :=
  match p with
  | none => (st.1, st.2 ++ [-1])
  | some p =>
    if p ∈ st.1 then (st.1, st.2 ++ [(st.1.idxOf p : Int)]) else (st.1 ++ [p], st.2 ++ [(st.1.length : Int)])

/-- `getDifferentMeshes` on fields which are not null (MEDCouplingMultiFields.cxx:243-269) -/
def diffMeshes (fs : List (TField K)) : List Nat × List Int := (fs.map (·.mesh)).foldl diffStep ([], [])

/-- one field of `getDifferentArrays` (MEDCouplingMultiFields.cxx:289-316) -/
def diffArrStep (st : List Nat × List (List Int)) (f : TField K) : List Nat × List (List Int) :=
  let r := f.arrs.foldl diffStep (st.1, [])
  (r.1, st.2 ++ [r.2])

/-- `getDifferentArrays` on fields which are not null (MEDCouplingMultiFields.cxx:283-318) -/
def diffArrays (fs : List (TField K)) : List Nat × List (List Int) := fs.foldl diffArrStep ([], [])

/-- `MEDCouplingFieldOverTime::getDefinitionTimeZone` after `checkConsistencyLight` (MEDCouplingFieldOverTime.cxx:169-178) -/
def dtZone [Field K] [LinearOrder K] (fs : List (TField K)) : M (DefTime K) :=
  dtNew (fs.map some) (diffMeshes fs).2 (diffArrays fs).2

end MC
