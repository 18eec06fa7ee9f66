import Verif.GaussTab2D
import Verif.GaussTabTetra
import Verif.GaussTabPenta
import Verif.GaussTabHexa
import Mathlib.Algebra.Order.Field.Basic
import Mathlib.Data.Rat.Cast.Order

/-!
# Location of the Gauss points (`INTERP_KERNEL::GaussInfo`, `INTERP_KERNEL::GaussCoords`)

`GaussInfo::initLocalInfo` recognises the reference cell among the ones it knows for the geometric type, and evaluates the
shape functions at the Gauss points; `GaussCoords::calculateCoords` combines the nodes of a cell with these values.

`double` is any ordered field.  The arrays `_my_function_value` and `_my_derivative_func_value`, which are flat in C++, are
lists of rows, one for each Gauss point; the array of the coordinates of the nodes of the mesh is a list of points.
-/

namespace MC

section
variable {K : Type} [Field K] [LinearOrder K]

/-- `IsEqual` (InterpKernelGaussCoords.cxx:187-194) -/
def isEqualG (a b : K) : Bool :=
  if |a| + |b| > 1 / 1000 then decide (|a - b| / (|a| + |b|) < 1 / 1000) else true

/-- The coordinates `gc` of a point. -/
def ptOf (p : List K) : Nat → K := fun k => p.getD k 0

/-- `std::abs(gc[2] - 1.0) < 1e-12`, the test of the pyramids (e.g. InterpKernelGaussCoords.cxx:2315). -/
def nearApex (p : List K) : Bool := decide (|ptOf p 2 - 1| < 1 / 1000000000000)

/-- Literal constants as values of type `double`. -/
def castL (l : List Rat) : List K := l.map fun q : Rat => (q : K)

/-- The values `funValue` of the shape functions at a point (`SHAPE_FUN_MACRO_BEGIN`, InterpKernelGaussCoords.cxx:159-166). -/
def RefElt.values (e : RefElt) (p : List K) : List K :=
  match e.apex with
  | some a => if nearApex p then castL a.1 else e.fn.map (PExp.eval (ptOf p))
  | none => e.fn.map (PExp.eval (ptOf p))

/-- The derivatives `devFunValue` of the shape functions at a point, one row for each node
(`DEV_SHAPE_FUN_MACRO_BEGIN`, InterpKernelGaussCoords.cxx:168-174). In `pyra13bInit` the first branch does not assign
`devFunValue[17]`, which keeps the value 0 written before by `pyra13aInit`. -/
def RefElt.derivs (e : RefElt) (p : List K) : List (List K) :=
  match e.apex with
  | some a =>
    if nearApex p then a.2.map castL else e.dev.map (fun l => l.map (PExp.eval (ptOf p)))
  | none => e.dev.map (fun l => l.map (PExp.eval (ptOf p)))

/-- The reference cells which `GaussInfo::initLocalInfo` tries for each type, in this order
(InterpKernelGaussCoords.cxx:783-1057); the types are the codes of `NormalizedCellType`. -/
def gaussTable : List (Int × List RefElt) :=
  [ (1, [ge_seg2a, ge_seg2b]),
    (2, [ge_seg3]),
    (10, [ge_seg4]),
    (3, [ge_tria3a, ge_tria3b]),
    (6, [ge_tria6a, ge_tria6b]),
    (7, [ge_tria7a]),
    (4, [ge_quad4a, ge_quad4b, ge_quad4c, ge_quad4DegSeg2]),
    (8, [ge_quad8a, ge_quad8b]),
    (9, [ge_quad9a]),
    (14, [ge_tetra4a, ge_tetra4b]),
    (20, [ge_tetra10a, ge_tetra10b]),
    (15, [ge_pyra5a, ge_pyra5b]),
    (23, [ge_pyra13a, ge_pyra13b]),
    (16, [ge_penta6a, ge_penta6b, ge_penta6DegTria3a, ge_penta6DegTria3b]),
    (25, [ge_penta15a, ge_penta15b]),
    (28, [ge_penta18a, ge_penta18b]),
    (18, [ge_hexa8a, ge_hexa8b, ge_hexa8DegQuad4a, ge_hexa8DegQuad4b, ge_hexa8DegQuad4c]),
    (30, [ge_hexa20a, ge_hexa20b]),
    (27, [ge_hexa27a]) ]

/-- Members of `GaussInfo` (InterpKernelGaussCoords.hxx). -/
structure GaussI (K : Type) where
  geo : Int
  nbGauss : Nat
  gauss : List K
  nbRef : Nat
  ref : List K
  fval : List (List K)
  dval : List (List K)

/-- `GaussInfo::getGaussCoordDim` (InterpKernelGaussCoords.cxx:229-240) -/
def GaussI.gaussDim (g : GaussI K) : Nat := if g.nbGauss ≠ 0 then g.gauss.length / g.nbGauss else 0

/-- `GaussInfo::getReferenceCoordDim` (InterpKernelGaussCoords.cxx:245-256) -/
def GaussI.refDim (g : GaussI K) : Nat := if g.nbRef ≠ 0 then g.ref.length / g.nbRef else 0

/-- `GaussInfo::GaussInfo` (InterpKernelGaussCoords.cxx:203-219): the values are null. -/
def mkGaussI (geo : Int) (gauss : List K) (nbGauss : Nat) (ref : List K) (nbRef : Nat) : GaussI K :=
  let g : GaussI K := ⟨geo, nbGauss, gauss, nbRef, ref, [], []⟩
  { g with fval := List.replicate nbGauss (List.replicate nbRef 0)
           dval := List.replicate nbGauss (List.replicate (nbRef * g.refDim) 0) }

/-- The part of a function `GaussInfo::...Init` done for one Gauss point: it reads `dim` coordinates from
`_my_gauss_coord[gaussId * getGaussCoordDim()]` on, and writes all the values in a row of `_my_nb_ref` values and all the
derivatives in a row of `_my_nb_ref * getReferenceCoordDim()` values.  Writing past the end of the last row is undefined.
(When `dim` differs from `getReferenceCoordDim()`, the row of derivatives is written as it comes; `isSatisfy` fails then.) -/
def initRow (e : RefElt) (g : GaussI K) (i : Nat) : M (List K × List K) :=
  if i * g.gaussDim + e.dim ≤ g.gauss.length then
    if e.fn.length ≤ g.nbRef ∧ e.fn.length * e.dim ≤ g.nbRef * g.refDim then
      let p := (g.gauss.drop (i * g.gaussDim)).take e.dim
      .ok (e.values p ++ List.replicate (g.nbRef - e.fn.length) 0,
        (e.derivs p).flatten ++ List.replicate (g.nbRef * g.refDim - e.fn.length * e.dim) 0)
    else undef
  else undef

/-- A function `GaussInfo::...Init` (InterpKernelGaussCoords.cxx:1087-5357): the loops on the Gauss points. -/
def initElt (e : RefElt) (g : GaussI K) : M (GaussI K) := do
  let rows ← (List.range g.nbGauss).mapM (initRow e g)
  return { g with fval := rows.map (·.1), dval := rows.map (·.2) }

/-- `GaussInfo::isSatisfy` (InterpKernelGaussCoords.cxx:458-481) after the call to the `...Init` of `e` -/
def isSatisfyG (e : RefElt) (g : GaussI K) : Bool :=
  e.fn.length = g.nbRef && e.dim = g.refDim &&
    (List.zip (castL e.ref.flatten) g.ref).all fun (l, r) => isEqualG l r

/-- The reference cells are tried one after the other until one is recognised; an exception is thrown when none is
(`CHECK_MACRO`). -/
def tryElts : List RefElt → GaussI K → M (GaussI K)
  | [], _ => throwX
  | e :: es, g => do
    let g' ← initElt e g
    if isSatisfyG e g then return g' else tryElts es g'

/-- `GaussInfo::point1Init` (InterpKernelGaussCoords.cxx:1077-1082): the only value written is the first one. -/
def point1Init (g : GaussI K) : M (GaussI K) :=
  match g.fval with
  | (_ :: r) :: rows => .ok { g with fval := (1 :: r) :: rows }
  | _ => undef

/-- The case `NORM_POINT1` of `GaussInfo::initLocalInfo` (InterpKernelGaussCoords.cxx:790-796) -/
def initPoint1 (g : GaussI K) : M (GaussI K) := do
  let g' ← point1Init g
  if g.nbRef = 1 ∧ g.refDim = 0 then return g' else throwX

/-- `GaussInfo::initLocalInfo` (InterpKernelGaussCoords.cxx:783-1057) -/
def initLocalInfo (g : GaussI K) : M (GaussI K) :=
  if g.geo = 0 then initPoint1 g
  else match gaussTable.lookup g.geo with
    | some es => tryElts es g
    | none => throwX

/-- Construction of the `GaussInfo` in `GaussCoords::addGaussInfo` (InterpKernelGaussCoords.cxx:5401-5410); reading past the
end of the given arrays is undefined. -/
def newGaussInfo (geo : Int) (coordDim : Nat) (gauss : List K) (nbGauss : Nat) (ref : List K) (nbRef : Nat) :
    M (GaussI K) :=
  if nbGauss * coordDim ≤ gauss.length ∧ nbRef * coordDim ≤ ref.length then
    initLocalInfo (mkGaussI geo (gauss.take (nbGauss * coordDim)) nbGauss (ref.take (nbRef * coordDim)) nbRef)
  else undef

/-- Replaces the first information of the same type, or adds one (InterpKernelGaussCoords.cxx:5392-5399, 5412-5425). -/
def putInfo (i : GaussI K) : List (GaussI K) → List (GaussI K)
  | [] => [i]
  | j :: l => if j.geo = i.geo then i :: l else j :: putInfo i l

/-- `GaussCoords::addGaussInfo` (InterpKernelGaussCoords.cxx:5382-5426) -/
def addGaussInfo (l : List (GaussI K)) (geo : Int) (coordDim : Nat) (gauss : List K) (nbGauss : Nat) (ref : List K)
    (nbRef : Nat) : M (List (GaussI K)) := do
  let i ← newGaussInfo geo coordDim gauss nbGauss ref nbRef
  return putInfo i l

/-- `GaussCoords::getInfoGivenCellType` (InterpKernelGaussCoords.cxx:5477-5486) -/
def getInfoG (l : List (GaussI K)) (geo : Int) : M (GaussI K) :=
  match l.find? fun i => i.geo = geo with
  | some i => .ok i
  | none => throwX

/-- Component `d` of the sum of the `nodeCoord[d] * function[connId]`. -/
def combineAt (d : Nat) (w : List K) (nodes : List (List K)) : K :=
  (List.zipWith (fun wi p => ptOf p d * wi) w nodes).sum

/-- The nodes of a cell combined with the values of the shape functions at a Gauss point. -/
def combineG (sd : Nat) (w : List K) (nodes : List (List K)) : List K :=
  (List.range sd).map fun d => combineAt d w nodes

/-- The node `connId` of a cell. -/
def cellNode (coords : List (List K)) (index : List Int) (c : Nat) : M (List K) := do
  let id ← rd index c
  rd coords id

/-- `GaussCoords::calculateCoordsAlg` for one Gauss point (InterpKernelGaussCoords.cxx:5465-5474) -/
def calcPoint (g : GaussI K) (coords : List (List K)) (sd : Nat) (index : List Int) (w : List K) : M (List K) := do
  let nodes ← (List.range g.nbRef).mapM (cellNode coords index)
  return combineG sd w nodes

/-- `GaussCoords::calculateCoordsAlg` (InterpKernelGaussCoords.cxx:5455-5475) -/
def calcCoordsAlg (g : GaussI K) (coords : List (List K)) (sd : Nat) (index : List Int) : M (List (List K)) :=
  g.fval.mapM (calcPoint g coords sd index)

/-- `GaussCoords::calculateCoords` (InterpKernelGaussCoords.cxx:5430-5453) -/
def calculateCoords (l : List (GaussI K)) (geo : Int) (coords : List (List K)) (sd : Nat) (index : List Int) :
    M (List (List K)) := do
  let g ← getInfoG l geo
  calcCoordsAlg g coords sd index

end

end MC
