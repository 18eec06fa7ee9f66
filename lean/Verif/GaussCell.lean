import Verif.GaussInfo
import Verif.CellModel

/-!
# Static functions of `INTERP_KERNEL::GaussInfo` on the reference cells, and conversion to linear cells

`double` is any ordered field.  The points given by a pointer are lists; reading past their end is undefined.
-/

namespace MC

/-- The groups of cases of the three `switch` on the type (InterpKernelGaussCoords.cxx:574-627, 636-705, 714-777). -/
inductive RefShape | seg | tri | quad | tetra | hexa | penta | pyra
  deriving DecidableEq, Repr

/-- The group of a type (InterpKernelGaussCoords.cxx:574-627); the types are the codes of `NormalizedCellType`. -/
def refShape (ct : Int) : Option RefShape :=
  if ct = 1 ∨ ct = 2 ∨ ct = 10 then some .seg
  else if ct = 3 ∨ ct = 6 ∨ ct = 7 then some .tri
  else if ct = 4 ∨ ct = 8 ∨ ct = 9 then some .quad
  else if ct = 14 ∨ ct = 20 then some .tetra
  else if ct = 18 ∨ ct = 30 ∨ ct = 27 then some .hexa
  else if ct = 16 ∨ ct = 25 ∨ ct = 28 then some .penta
  else if ct = 15 ∨ ct = 23 then some .pyra
  else none

/-- Number of coordinates read. -/
def RefShape.dim : RefShape → Nat
  | .seg => 1
  | .tri => 2
  | .quad => 2
  | _ => 3

/-- `refCoo` is only read for the segments and the triangles. -/
def RefShape.usesRef : RefShape → Bool
  | .seg => true
  | .tri => true
  | _ => false

section
variable {K : Type} [Field K] [LinearOrder K]

/-- `GaussInfo::GetDefaultReferenceCoordinatesOf` (InterpKernelGaussCoords.cxx:520-567) -/
def defaultRef (ct : Int) : M (List K) :=
  let r (e : RefElt) : M (List K) := .ok (castL e.ref.flatten)
  if ct = 1 then r ge_seg2a
  else if ct = 2 then r ge_seg3
  else if ct = 10 then r ge_seg4
  else if ct = 3 then r ge_tria3a
  else if ct = 6 then r ge_tria6a
  else if ct = 7 then r ge_tria7a
  else if ct = 4 then r ge_quad4a
  else if ct = 8 then r ge_quad8a
  else if ct = 9 then r ge_quad9a
  else if ct = 14 then r ge_tetra4a
  else if ct = 20 then r ge_tetra10a
  else if ct = 15 then r ge_pyra5a
  else if ct = 23 then r ge_pyra13a
  else if ct = 16 then r ge_penta6a
  else if ct = 25 then r ge_penta15a
  else if ct = 28 then r ge_penta18a
  else if ct = 18 then r ge_hexa8a
  else if ct = 30 then r ge_hexa20a
  else if ct = 27 then r ge_hexa27a
  else throwX

/-- The cases of `GaussInfo::GetReferenceCoordinatesOfBarycenterOf` (InterpKernelGaussCoords.cxx:576-623);
`r0` is `refCoo[0]`. -/
def barycenterOf (s : RefShape) (r0 : K) : List K :=
  match s with
  | .seg => if r0 < -(1 / 2) then [0] else [1 / 2]
  | .tri => if r0 < -(1 / 2) then [0, 0] else [1 / 3, 1 / 3]
  | .quad => [0, 0]
  | .tetra => [1 / 4, 1 / 4, 1 / 4]
  | .hexa => [0, 0, 0]
  | .penta => [0, 1 / 3, 1 / 3]
  | .pyra => [0, 0, 1 / 5]

/-- `GaussInfo::GetReferenceCoordinatesOfBarycenterOf` (InterpKernelGaussCoords.cxx:571-628) -/
def barycenterRef (ct : Int) (ref : List K) : M (List K) :=
  match refShape ct with
  | none => throwX
  | some s => if s.usesRef = true ∧ ref = [] then undef else .ok (barycenterOf s (ptOf ref 0))

/-- The cases of `GaussInfo::IsInOrOutForReference` (InterpKernelGaussCoords.cxx:638-702) -/
def inOrOut (s : RefShape) (r0 : K) (p : List K) (eps : K) : Bool :=
  let xi := ptOf p 0
  let eta := ptOf p 1
  let zeta := ptOf p 2
  match s with
  | .seg => if r0 < -(1 / 2) then decide (|xi| < 1 + eps) else decide (xi > -eps ∧ xi < 1 + eps)
  | .tri =>
    if r0 < -(1 / 2) then
      decide (xi > -1 - eps ∧ xi < 1 + eps ∧ eta > -1 - eps ∧ eta < 1 + eps ∧ xi + eta < 0 + eps)
    else decide (xi > -eps ∧ xi < 1 + eps ∧ eta > -eps ∧ eta < 1 + eps ∧ xi + eta < 1 + eps)
  | .quad => decide (¬ |xi| > 1 + eps ∧ ¬ |eta| > 1 + eps)
  | .tetra =>
    decide (xi > -eps ∧ xi < 1 + eps ∧ eta > -eps ∧ eta < 1 + eps ∧ zeta > -eps ∧ zeta < 1 + eps ∧
      xi + eta + zeta < 1 + eps)
  | .hexa => decide (¬ |xi| > 1 + eps ∧ ¬ |eta| > 1 + eps ∧ ¬ |zeta| > 1 + eps)
  | .penta =>
    decide (|xi| < 1 + eps ∧ eta > -eps ∧ eta < 1 + eps ∧ zeta > -eps ∧ zeta < 1 + eps ∧ eta + zeta < 1 + eps)
  | .pyra => decide (|xi| + |eta| + zeta < 1 + eps)

/-- `GaussInfo::IsInOrOutForReference` (InterpKernelGaussCoords.cxx:633-706) -/
def isInOrOut (ct : Int) (ref p : List K) (eps : K) : M Bool :=
  match refShape ct with
  | none => throwX
  | some s =>
    if (s.usesRef = true ∧ ref = []) ∨ p.length < s.dim then undef else .ok (inOrOut s (ptOf ref 0) p eps)

/-- The triangles of `GaussInfo::AdapatCoorForReference` (InterpKernelGaussCoords.cxx:727-750) -/
def adaptTri (r0 x y : K) : K × K :=
  if x ≤ r0 then (r0, max (min y 1) r0)
  else if y ≤ r0 then (max (min x 1) r0, r0)
  else if x + y > 1 then (x / (x + y), y / (x + y))
  else (x, y)

/-- The cases of `GaussInfo::AdapatCoorForReference` (InterpKernelGaussCoords.cxx:716-774): the new coordinates. -/
def adapted (s : RefShape) (r0 : K) (p : List K) : M (List K) :=
  match s with
  | .seg => .ok [max (min (ptOf p 0) 1) r0]
  | .tri => .ok [(adaptTri r0 (ptOf p 0) (ptOf p 1)).1, (adaptTri r0 (ptOf p 0) (ptOf p 1)).2]
  | .quad => .ok [max (min (ptOf p 0) 1) (-1), max (min (ptOf p 1) 1) (-1)]
  | .hexa => .ok [max (min (ptOf p 0) 1) (-1), max (min (ptOf p 1) 1) (-1), max (min (ptOf p 2) 1) (-1)]
  | _ => throwX

/-- `GaussInfo::AdapatCoorForReference` (InterpKernelGaussCoords.cxx:711-778): the point is changed in place, the values
after its coordinates stay. -/
def adaptCoor (ct : Int) (ref p : List K) : M (List K) :=
  match refShape ct with
  | none => throwX
  | some s => do
    let q ← adapted s (ptOf ref 0) p
    if (s.usesRef = true ∧ ref = []) ∨ p.length < s.dim then undef else .ok (q ++ p.drop s.dim)

/-- One item of `GaussInfo::NormalizeCoordinatesIfNecessary` (InterpKernelGaussCoords.cxx:500-516) -/
def normItem (dim base : Nat) (a : List K) (i : Nat) : List K :=
  (List.range base).map fun j => if j < dim then a.getD (i * dim + j) 0 else 0

/-- `GaussInfo::NormalizeCoordinatesIfNecessary` (InterpKernelGaussCoords.cxx:482-518) -/
def normalizeCoords (ct : Int) (dim : Nat) (a : List K) : M (List K) :=
  if dim = 0 then throwX
  else if a.length % dim ≠ 0 then throwX
  else match getCellModel ct with
    | .error e => .error e
    | .ok cm =>
      if cm.dim = dim then .ok a
      else .ok ((List.range (a.length / dim)).flatMap (normItem dim cm.dim a))

/-- The static `GaussInfo::IsSatisfy` (InterpKernelGaussCoords.cxx:442-453) -/
def isSatisfyS (r1 r2 : List K) : Bool :=
  r1.length = r2.length && (List.zip r1 r2).all fun (l, r) => isEqualG l r

/-- The patterns of `GaussInfo::convertToLinear` (InterpKernelGaussCoords.cxx:287-433): for each quadratic type, the linear
type, and the reference cells which are recognised with the linear reference cell which replaces them. -/
def linTable : List (Int × Int × List (RefElt × RefElt)) :=
  [ (2, 1, [(ge_seg3, ge_seg2a)]),
    (6, 3, [(ge_tria6a, ge_tria3a), (ge_tria6b, ge_tria3b)]),
    (7, 3, [(ge_tria7a, ge_tria3b)]),
    (8, 4, [(ge_quad8a, ge_quad4a), (ge_quad8b, ge_quad4b)]),
    (9, 4, [(ge_quad9a, ge_quad4b)]),
    (20, 14, [(ge_tetra10a, ge_tetra4a), (ge_tetra10b, ge_tetra4b)]),
    (23, 15, [(ge_pyra13a, ge_pyra5a), (ge_pyra13b, ge_pyra5b)]),
    (25, 16, [(ge_penta15a, ge_penta6a), (ge_penta15b, ge_penta6b)]),
    (28, 16, [(ge_penta18a, ge_penta6a), (ge_penta18b, ge_penta6b)]),
    (30, 18, [(ge_hexa20a, ge_hexa8a), (ge_hexa20b, ge_hexa8b)]),
    (27, 18, [(ge_hexa27a, ge_hexa8b)]) ]

/-- The patterns are tried one after the other. -/
def tryLin (g : GaussI K) (lt : Int) : List (RefElt × RefElt) → M (GaussI K)
  | [] => throwX
  | (q, l) :: ps =>
    if isSatisfyS (castL q.ref.flatten) g.ref then
      .ok (mkGaussI lt g.gauss g.nbGauss (castL l.ref.flatten) l.ref.length)
    else tryLin g lt ps

/-- `GaussInfo::convertToLinear` (InterpKernelGaussCoords.cxx:284-440) -/
def convertToLinear (g : GaussI K) : M (GaussI K) :=
  match linTable.lookup g.geo with
  | some (lt, ps) => tryLin g lt ps
  | none => throwX

end

end MC
