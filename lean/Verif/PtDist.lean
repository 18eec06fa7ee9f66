import Verif.Base
import Mathlib.Algebra.Order.Field.Basic

/-!
# Distances from a point to a segment and to a triangle (INTERP_KERNEL/VolSurfUser.cxx)

The numbers are the elements of an ordered field `K` instead of doubles: the roundings are not modelled.  The square root is a parameter.
-/

namespace MC
section
variable {K : Type} [Field K] [LinearOrder K] [IsStrictOrderedRing K]

/-- a point or a vector of the plane -/
structure V2 (K : Type) where
  x : K
  y : K
deriving Repr, DecidableEq

/-- a point or a vector of the space -/
structure V3 (K : Type) where
  x : K
  y : K
  z : K
deriving Repr, DecidableEq

/-- `dotprod<3>` (INTERP_KERNEL/InterpolationUtils.hxx:1174-1181) -/
def dot3 (a b : V3 K) : K := a.x * b.x + a.y * b.y + a.z * b.z

/-- the difference of two points, as in the loops of VolSurfUser.cxx:82-86 and 159-161 -/
def sub3 (a b : V3 K) : V3 K := ⟨a.x - b.x, a.y - b.y, a.z - b.z⟩

/-- `SquareDistanceFromPtToSegInSpaceDim2` (VolSurfUser.cxx:54-75), without the counter `nbOfHint` -/
def sqDistSeg2 (sqrtF : K → K) (pt p0 p1 : V2 K) : K :=
  let dx := p1.x - p0.x
  let dy := p1.y - p0.y
  let norm := sqrtF (dx * dx + dy * dy)
  if norm = 0 then (pt.x - p0.x) * (pt.x - p0.x) + (pt.y - p0.y) * (pt.y - p0.y)
  else
    let dx := dx / norm
    let dy := dy / norm
    let dx2 := pt.x - p0.x
    let dy2 := pt.y - p0.y
    let dotP := dx2 * dx + dy2 * dy
    if dotP < 0 ∨ dotP > norm then
      if dotP < 0 then (pt.x - p0.x) * (pt.x - p0.x) + (pt.y - p0.y) * (pt.y - p0.y)
      else (pt.x - p1.x) * (pt.x - p1.x) + (pt.y - p1.y) * (pt.y - p1.y)
    else
      let x := p0.x + dotP * dx
      let y := p0.y + dotP * dy
      (x - pt.x) * (x - pt.x) + (y - pt.y) * (y - pt.y)

/-- `DistanceFromPtToSegInSpaceDim3` (VolSurfUser.cxx:80-101) -/
def distSeg3 (sqrtF : K → K) (pt p0 p1 : V3 K) : K :=
  let v := sub3 p1 p0
  let w := sub3 pt p0
  let c1 := dot3 w v
  if c1 ≤ 0 then sqrtF (dot3 w w)
  else
    let c2 := dot3 v v
    if c2 ≤ c1 then sqrtF (dot3 (sub3 pt p1) (sub3 pt p1))
    else
      let b := c1 / c2
      let w : V3 K := ⟨p0.x + b * v.x - pt.x, p0.y + b * v.y - pt.y, p0.z + b * v.z - pt.z⟩
      sqrtF (dot3 w w)

/-- `_HelperDistancePtToTri3D_1` (VolSurfUser.cxx:106-114) -/
def triHelper1 (aXX bX c : K) : K :=
  if bX ≥ 0 then c
  else if -bX ≥ aXX then aXX + 2 * bX + c
  else bX * (-bX / aXX) + c

/-- `_HelperDistancePtToTri3D_2` (VolSurfUser.cxx:119-150) -/
def triHelper2 (a01 aXX aYY bX bY c : K) : K :=
  let tmp0 := a01 + bX
  let tmp1 := aXX + bY
  if tmp1 > tmp0 then
    let numer := tmp1 - tmp0
    let denom := aXX - 2 * a01 + aYY
    if numer ≥ denom then aXX + 2 * bX + c
    else
      let s := numer / denom
      let t := 1 - s
      s * (aXX * s + a01 * t + 2 * bX) + t * (a01 * s + aYY * t + 2 * bY) + c
  else if tmp1 ≤ 0 then aYY + 2 * bY + c
  else if bY ≥ 0 then c
  else bY * (-bY / aYY) + c

/-- `DistanceFromPtToTriInSpaceDim3` (VolSurfUser.cxx:155-251).  `tiny` is the constant `1.0e-12`. -/
def distTri3 (sqrtF : K → K) (tiny : K) (pt p0 p1 p2 : V3 K) : K :=
  let diff := sub3 p0 pt
  let edge0 := sub3 p1 p0
  let edge1 := sub3 p2 p0
  let a00 := dot3 edge0 edge0
  let a01 := dot3 edge0 edge1
  let a11 := dot3 edge1 edge1
  let b0 := dot3 diff edge0
  let b1 := dot3 diff edge1
  let c := dot3 diff diff
  let det := |a00 * a11 - a01 * a01|
  let s := a01 * b1 - a11 * b0
  let t := a01 * b0 - a00 * b1
  let finish := fun sDist : K => sqrtF (if sDist < 0 then 0 else sDist)
  if s + t ≤ det then
    if s < 0 then
      if t < 0 then
        if b0 < 0 then
          if -b0 ≥ a00 then finish (a00 + 2 * b0 + c) else finish (b0 * (-b0 / a00) + c)
        else finish (triHelper1 a11 b1 c)
      else finish (triHelper1 a11 b1 c)
    else if t < 0 then finish (triHelper1 a00 b0 c)
    else if |det| < tiny then min (distSeg3 sqrtF pt p0 p1) (distSeg3 sqrtF pt p1 p2)
    else
      let invDet := 1 / det
      let s := s * invDet
      let t := t * invDet
      finish (s * (a00 * s + a01 * t + 2 * b0) + t * (a01 * s + a11 * t + 2 * b1) + c)
  else if s < 0 then finish (triHelper2 a01 a00 a11 b0 b1 c)
  else if t < 0 then finish (triHelper2 a01 a11 a00 b1 b0 c)
  else
    let numer := a11 + b1 - a01 - b0
    if numer ≤ 0 then finish (a11 + 2 * b1 + c)
    else
      let denom := a00 - 2 * a01 + a11
      if numer ≥ denom then finish (a00 + 2 * b0 + c)
      else
        let s := numer / denom
        let t := 1 - s
        finish (s * (a00 * s + a01 * t + 2 * b0) + t * (a01 * s + a11 * t + 2 * b1) + c)

end
end MC
