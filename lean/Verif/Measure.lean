import Mathlib.Algebra.Order.Field.Basic
import Verif.CellModel
import Verif.UMesh
import Mathlib.Tactic.LinearCombination
import Mathlib.Tactic.Ring
import Mathlib.Tactic.FieldSimp
import Mathlib.Tactic.Positivity

/-!
# Lengths, areas and volumes of cells (`VolSurfFormulae.hxx`, `VolSurfUser.txx`, `getMeasureField`)

`double` is any ordered field `K`; `sqrtF` is `sqrt`.  A point is a function giving its coordinates, as the pointers
`const double *` of the code.  The array of coordinates is the list of its tuples.  What is made of arcs of circle
(`QuadraticPolygon::getArea`, `Edge::getCurveLength`) is a parameter `arcs`.
-/

namespace MC

section
variable {K : Type} [Field K]

/-- `calculateLgthForSeg2` (VolSurfFormulae.hxx:47-58) -/
def lgthSeg2 (sqrtF : K → K) (sd : Nat) (p1 p2 : Nat → K) : K :=
  if sd = 1 then p2 0 - p1 0
  else sqrtF (((List.range sd).map fun i => (p2 i - p1 i) * (p2 i - p1 i)).sum)

/-- The two first coordinates of the triangle are in the plane (VolSurfFormulae.hxx:84-87). -/
def areaTria2 (p1 p2 p3 : Nat → K) : K := -((p2 0 - p1 0) * (p3 1 - p1 1) - (p3 0 - p1 0) * (p2 1 - p1 1)) / 2

/-- What is under the square root in the space (VolSurfFormulae.hxx:90-97); also the two parts of the quadrangle (130-145),
where the nodes are in another order. -/
def triaNorm2 (p1 p2 p3 : Nat → K) : K :=
  ((p2 1 - p1 1) * (p3 2 - p1 2) - (p3 1 - p1 1) * (p2 2 - p1 2)) *
      ((p2 1 - p1 1) * (p3 2 - p1 2) - (p3 1 - p1 1) * (p2 2 - p1 2)) +
    ((p3 0 - p1 0) * (p2 2 - p1 2) - (p2 0 - p1 0) * (p3 2 - p1 2)) *
      ((p3 0 - p1 0) * (p2 2 - p1 2) - (p2 0 - p1 0) * (p3 2 - p1 2)) +
    ((p2 0 - p1 0) * (p3 1 - p1 1) - (p3 0 - p1 0) * (p2 1 - p1 1)) *
      ((p2 0 - p1 0) * (p3 1 - p1 1) - (p3 0 - p1 0) * (p2 1 - p1 1))

/-- `calculateAreaForTria` (VolSurfFormulae.hxx:79-103) -/
def areaTria (sqrtF : K → K) (sd : Nat) (p1 p2 p3 : Nat → K) : K :=
  if sd = 2 then areaTria2 p1 p2 p3 else sqrtF (triaNorm2 p1 p2 p3) / 2

/-- The quadrangle in the plane (VolSurfFormulae.hxx:115-122) -/
def areaQuad2 (p1 p2 p3 p4 : Nat → K) : K :=
  let a1 := (p2 0 - p1 0) / 4
  let a2 := (p2 1 - p1 1) / 4
  let b1 := (p3 0 - p4 0) / 4
  let b2 := (p3 1 - p4 1) / 4
  let c1 := (p3 0 - p2 0) / 4
  let c2 := (p3 1 - p2 1) / 4
  let d1 := (p4 0 - p1 0) / 4
  let d2 := (p4 1 - p1 1) / 4
  (-4 * (b1 * c2 - c1 * b2 + a1 * c2 - c1 * a2 + b1 * d2 - d1 * b2 + a1 * d2 - d1 * a2))

/-- `calculateAreaForQuad` (VolSurfFormulae.hxx:108-145) -/
def areaQuad (sqrtF : K → K) (sd : Nat) (p1 p2 p3 p4 : Nat → K) : K :=
  if sd = 2 then areaQuad2 p1 p2 p3 p4 else (sqrtF (triaNorm2 p1 p2 p4) + sqrtF (triaNorm2 p3 p4 p2)) / 2

/-- `calculateBarycenterDyn` (VolSurfFormulae.hxx:799-812) -/
def baryDyn (ps : List (Nat → K)) : Nat → K := fun i => (ps.map fun p => p i).sum / (ps.length : K)

/-- Point of rank `i`; only used for `i < ps.length`. -/
def ptRk (ps : List (Nat → K)) (i : Nat) : Nat → K := ps.getD i fun _ => 0

/-- `calculateAreaForPolyg` (VolSurfFormulae.hxx:212-226) -/
def areaPolyg (sqrtF : K → K) (sd : Nat) (ps : List (Nat → K)) : K :=
  ((List.range ps.length).map fun i =>
    areaTria sqrtF sd (ptRk ps i) (ptRk ps ((i + 1) % ps.length)) (baryDyn ps)).sum

/-- `calculateVolumeForTetra` (VolSurfFormulae.hxx:253-260) -/
def volTetra (p1 p2 p3 p4 : Nat → K) : K :=
  ((p3 0 - p1 0) * ((p2 1 - p1 1) * (p4 2 - p1 2) - (p2 2 - p1 2) * (p4 1 - p1 1)) - (p2 0 - p1 0) * ((p3 1 - p1 1) * (p4
    2 - p1 2) - (p3 2 - p1 2) * (p4 1 - p1 1)) + (p4 0 - p1 0) * ((p3 1 - p1 1) * (p2 2 - p1 2) - (p3 2 - p1 2) * (p2 1 - p1
    1))) / 6

/-- `calculateVolumeForPyra` (VolSurfFormulae.hxx:265-275) -/
def volPyra (p1 p2 p3 p4 p5 : Nat → K) : K :=
  (((p3 0 - p1 0) * ((p2 1 - p1 1) * (p5 2 - p1 2) - (p2 2 - p1 2) * (p5 1 - p1 1)) - (p2 0 - p1 0) * ((p3 1 - p1 1) * (p5
    2 - p1 2) - (p3 2 - p1 2) * (p5 1 - p1 1)) + (p5 0 - p1 0) * ((p3 1 - p1 1) * (p2 2 - p1 2) - (p3 2 - p1 2) * (p2 1 - p1
    1))) + ((p4 0 - p1 0) * ((p3 1 - p1 1) * (p5 2 - p1 2) - (p3 2 - p1 2) * (p5 1 - p1 1)) - (p3 0 - p1 0) * ((p4 1 - p1 1)
    * (p5 2 - p1 2) - (p4 2 - p1 2) * (p5 1 - p1 1)) + (p5 0 - p1 0) * ((p4 1 - p1 1) * (p3 2 - p1 2) - (p4 2 - p1 2) * (p3
    1 - p1 1)))) / 6

/-- `calculateVolumeForPenta` (VolSurfFormulae.hxx:280-307) -/
def volPenta (p1 p2 p3 p4 p5 p6 : Nat → K) : K :=
  let a1 := (p2 0 - p3 0) / 2
  let a2 := (p2 1 - p3 1) / 2
  let a3 := (p2 2 - p3 2) / 2
  let b1 := (p5 0 - p6 0) / 2
  let b2 := (p5 1 - p6 1) / 2
  let b3 := (p5 2 - p6 2) / 2
  let c1 := (p4 0 - p1 0) / 2
  let c2 := (p4 1 - p1 1) / 2
  let c3 := (p4 2 - p1 2) / 2
  let d1 := (p5 0 - p2 0) / 2
  let d2 := (p5 1 - p2 1) / 2
  let d3 := (p5 2 - p2 2) / 2
  let e1 := (p6 0 - p3 0) / 2
  let e2 := (p6 1 - p3 1) / 2
  let e3 := (p6 2 - p3 2) / 2
  let f1 := (p1 0 - p3 0) / 2
  let f2 := (p1 1 - p3 1) / 2
  let f3 := (p1 2 - p3 2) / 2
  let h1 := (p4 0 - p6 0) / 2
  let h2 := (p4 1 - p6 1) / 2
  let h3 := (p4 2 - p6 2) / 2
  let A := a1 * c2 * f3 - a1 * c3 * f2 - a2 * c1 * f3 + a2 * c3 * f1 + a3 * c1 * f2 - a3 * c2 * f1
  let B := b1 * c2 * h3 - b1 * c3 * h2 - b2 * c1 * h3 + b2 * c3 * h1 + b3 * c1 * h2 - b3 * c2 * h1
  let C := (a1 * c2 * h3 + b1 * c2 * f3) - (a1 * c3 * h2 + b1 * c3 * f2) - (a2 * c1 * h3 + b2 * c1 * f3) + (a2 * c3 * h1 + b2 *
      c3 * f1) + (a3 * c1 * h2 + b3 * c1 * f2) - (a3 * c2 * h1 + b3 * c2 * f1)
  let D := a1 * d2 * f3 - a1 * d3 * f2 - a2 * d1 * f3 + a2 * d3 * f1 + a3 * d1 * f2 - a3 * d2 * f1
  let E := b1 * d2 * h3 - b1 * d3 * h2 - b2 * d1 * h3 + b2 * d3 * h1 + b3 * d1 * h2 - b3 * d2 * h1
  let F := (a1 * d2 * h3 + b1 * d2 * f3) - (a1 * d3 * h2 + b1 * d3 * f2) - (a2 * d1 * h3 + b2 * d1 * f3) + (a2 * d3 * h1 + b2 *
      d3 * f1) + (a3 * d1 * h2 + b3 * d1 * f2) - (a3 * d2 * h1 + b3 * d2 * f1)
  let G := a1 * e2 * f3 - a1 * e3 * f2 - a2 * e1 * f3 + a2 * e3 * f1 + a3 * e1 * f2 - a3 * e2 * f1
  let H := b1 * e2 * h3 - b1 * e3 * h2 - b2 * e1 * h3 + b2 * e3 * h1 + b3 * e1 * h2 - b3 * e2 * h1
  let P := (a1 * e2 * h3 + b1 * e2 * f3) - (a1 * e3 * h2 + b1 * e3 * f2) - (a2 * e1 * h3 + b2 * e1 * f3) + (a2 * e3 * h1 + b2 *
      e3 * f1) + (a3 * e1 * h2 + b3 * e1 * f2) - (a3 * e2 * h1 + b3 * e2 * f1)
  (-2 * (2 * (A + B + D + E + G + H) + C + F + P) / 9)

/-- `calculateVolumeForHexa` (VolSurfFormulae.hxx:312-409) -/
def volHexa (pt1 pt2 pt3 pt4 pt5 pt6 pt7 pt8 : Nat → K) : K :=
  let a1 := (pt3 0 - pt4 0) / 8
  let a2 := (pt3 1 - pt4 1) / 8
  let a3 := (pt3 2 - pt4 2) / 8
  let b1 := (pt2 0 - pt1 0) / 8
  let b2 := (pt2 1 - pt1 1) / 8
  let b3 := (pt2 2 - pt1 2) / 8
  let c1 := (pt7 0 - pt8 0) / 8
  let c2 := (pt7 1 - pt8 1) / 8
  let c3 := (pt7 2 - pt8 2) / 8
  let d1 := (pt6 0 - pt5 0) / 8
  let d2 := (pt6 1 - pt5 1) / 8
  let d3 := (pt6 2 - pt5 2) / 8
  let e1 := (pt3 0 - pt2 0) / 8
  let e2 := (pt3 1 - pt2 1) / 8
  let e3 := (pt3 2 - pt2 2) / 8
  let f1 := (pt4 0 - pt1 0) / 8
  let f2 := (pt4 1 - pt1 1) / 8
  let f3 := (pt4 2 - pt1 2) / 8
  let h1 := (pt7 0 - pt6 0) / 8
  let h2 := (pt7 1 - pt6 1) / 8
  let h3 := (pt7 2 - pt6 2) / 8
  let p1 := (pt8 0 - pt5 0) / 8
  let p2 := (pt8 1 - pt5 1) / 8
  let p3 := (pt8 2 - pt5 2) / 8
  let q1 := (pt3 0 - pt7 0) / 8
  let q2 := (pt3 1 - pt7 1) / 8
  let q3 := (pt3 2 - pt7 2) / 8
  let r1 := (pt4 0 - pt8 0) / 8
  let r2 := (pt4 1 - pt8 1) / 8
  let r3 := (pt4 2 - pt8 2) / 8
  let s1 := (pt2 0 - pt6 0) / 8
  let s2 := (pt2 1 - pt6 1) / 8
  let s3 := (pt2 2 - pt6 2) / 8
  let t1 := (pt1 0 - pt5 0) / 8
  let t2 := (pt1 1 - pt5 1) / 8
  let t3 := (pt1 2 - pt5 2) / 8
  let A := a1 * e2 * q3 - a1 * e3 * q2 - a2 * e1 * q3 + a2 * e3 * q1 + a3 * e1 * q2 - a3 * e2 * q1
  let B := c1 * h2 * q3 - c1 * h3 * q2 - c2 * h1 * q3 + c2 * h3 * q1 + c3 * h1 * q2 - c3 * h2 * q1
  let C := (a1 * h2 + c1 * e2) * q3 - (a1 * h3 + c1 * e3) * q2 - (a2 * h1 + c2 * e1) * q3 + (a2 * h3 + c2 * e3) * q1 + (a3 * h1 +
      c3 * e1) * q2 - (a3 * h2 + c3 * e2) * q1
  let D := b1 * e2 * s3 - b1 * e3 * s2 - b2 * e1 * s3 + b2 * e3 * s1 + b3 * e1 * s2 - b3 * e2 * s1
  let E := d1 * h2 * s3 - d1 * h3 * s2 - d2 * h1 * s3 + d2 * h3 * s1 + d3 * h1 * s2 - d3 * h2 * s1
  let F := (b1 * h2 + d1 * e2) * s3 - (b1 * h3 + d1 * e3) * s2 - (b2 * h1 + d2 * e1) * s3 + (b2 * h3 + d2 * e3) * s1 + (b3 * h1 +
      d3 * e1) * s2 - (b3 * h2 + d3 * e2) * s1
  let G := (a1 * e2 * s3 + b1 * e2 * q3) - (a1 * e3 * s2 + b1 * e3 * q2) - (a2 * e1 * s3 + b2 * e1 * q3) + (a2 * e3 * s1 + b2 *
      e3 * q1) + (a3 * e1 * s2 + b3 * e1 * q2) - (a3 * e2 * s1 + b3 * e2 * q1)
  let H := (c1 * h2 * s3 + d1 * h2 * q3) - (c1 * h3 * s2 + d1 * h3 * q2) - (c2 * h1 * s3 + d2 * h1 * q3) + (c2 * h3 * s1 + d2 *
      h3 * q1) + (c3 * h1 * s2 + d3 * h1 * q2) - (c3 * h2 * s1 + d3 * h2 * q1)
  let I := ((a1 * h2 + c1 * e2) * s3 + (b1 * h2 + d1 * e2) * q3) - ((a1 * h3 + c1 * e3) * s2 + (b1 * h3 + d1 * e3) * q2) - ((a2 *
      h1 + c2 * e1) * s3 + (b2 * h1 + d2 * e1) * q3) + ((a2 * h3 + c2 * e3) * s1 + (b2 * h3 + d2 * e3) * q1) + ((a3 * h1 +
      c3 * e1) * s2 + (b3 * h1 + d3 * e1) * q2) - ((a3 * h2 + c3 * e2) * s1 + (b3 * h2 + d3 * e2) * q1)
  let J := a1 * f2 * r3 - a1 * f3 * r2 - a2 * f1 * r3 + a2 * f3 * r1 + a3 * f1 * r2 - a3 * f2 * r1
  let K := c1 * p2 * r3 - c1 * p3 * r2 - c2 * p1 * r3 + c2 * p3 * r1 + c3 * p1 * r2 - c3 * p2 * r1
  let L := (a1 * p2 + c1 * f2) * r3 - (a1 * p3 + c1 * f3) * r2 - (a2 * p1 + c2 * f1) * r3 + (a2 * p3 + c2 * f3) * r1 + (a3 * p1 +
      c3 * f1) * r2 - (a3 * p2 + c3 * f2) * r1
  let M := b1 * f2 * t3 - b1 * f3 * t2 - b2 * f1 * t3 + b2 * f3 * t1 + b3 * f1 * t2 - b3 * f2 * t1
  let N := d1 * p2 * t3 - d1 * p3 * t2 - d2 * p1 * t3 + d2 * p3 * t1 + d3 * p1 * t2 - d3 * p2 * t1
  let O := (b1 * p2 + d1 * f2) * t3 - (b1 * p3 + d1 * f3) * t2 - (b2 * p1 + d2 * f1) * t3 + (b2 * p3 + d2 * f3) * t1 + (b3 * p1 +
      d3 * f1) * t2 - (b3 * p2 + d3 * f2) * t1
  let P := (a1 * f2 * t3 + b1 * f2 * r3) - (a1 * f3 * t2 + b1 * f3 * r2) - (a2 * f1 * t3 + b2 * f1 * r3) + (a2 * f3 * t1 + b2 *
      f3 * r1) + (a3 * f1 * t2 + b3 * f1 * r2) - (a3 * f2 * t1 + b3 * f2 * r1)
  let Q := (c1 * p2 * t3 + d1 * p2 * r3) - (c1 * p3 * t2 + d1 * p3 * r2) - (c2 * p1 * t3 + d2 * p1 * r3) + (c2 * p3 * t1 + d2 *
      p3 * r1) + (c3 * p1 * t2 + d3 * p1 * r2) - (c3 * p2 * t1 + d3 * p2 * r1)
  let R := ((a1 * p2 + c1 * f2) * t3 + (b1 * p2 + d1 * f2) * r3) - ((a1 * p3 + c1 * f3) * t2 + (b1 * p3 + d1 * f3) * r2) - ((a2 *
      p1 + c2 * f1) * t3 + (b2 * p1 + d2 * f1) * r3) + ((a2 * p3 + c2 * f3) * t1 + (b2 * p3 + d2 * f3) * r1) + ((a3 * p1 +
      c3 * f1) * t2 + (b3 * p1 + d3 * f1) * r2) - ((a3 * p2 + c3 * f2) * t1 + (b3 * p2 + d3 * f2) * r1)
  let S := (a1 * e2 * r3 + a1 * f2 * q3) - (a1 * e3 * r2 + a1 * f3 * q2) - (a2 * e1 * r3 + a2 * f1 * q3) + (a2 * e3 * r1 + a2 *
      f3 * q1) + (a3 * e1 * r2 + a3 * f1 * q2) - (a3 * e2 * r1 + a3 * f2 * q1)
  let T := (c1 * h2 * r3 + c1 * p2 * q3) - (c1 * h3 * r2 + c1 * p3 * q2) - (c2 * h1 * r3 + c2 * p1 * q3) + (c2 * h3 * r1 + c2 *
      p3 * q1) + (c3 * h1 * r2 + c3 * p1 * q2) - (c3 * h2 * r1 + c3 * p2 * q1)
  let U := ((a1 * h2 + c1 * e2) * r3 + (a1 * p2 + c1 * f2) * q3) - ((a1 * h3 + c1 * e3) * r2 + (a1 * p3 + c1 * f3) * q2) - ((a2 *
      h1 + c2 * e1) * r3 + (a2 * p1 + c2 * f1) * q3) + ((a2 * h3 + c2 * e3) * r1 + (a2 * p3 + c2 * f3) * q1) + ((a3 * h1 +
      c3 * e1) * r2 + (a3 * p1 + c3 * f1) * q2) - ((a3 * h2 + c3 * e2) * r1 + (a3 * p2 + c3 * f2) * q1)
  let V := (b1 * e2 * t3 + b1 * f2 * s3) - (b1 * e3 * t2 + b1 * f3 * s2) - (b2 * e1 * t3 + b2 * f1 * s3) + (b2 * e3 * t1 + b2 *
      f3 * s1) + (b3 * e1 * t2 + b3 * f1 * s2) - (b3 * e2 * t1 + b3 * f2 * s1)
  let W := (d1 * h2 * t3 + d1 * p2 * s3) - (d1 * h3 * t2 + d1 * p3 * s2) - (d2 * h1 * t3 + d2 * p1 * s3) + (d2 * h3 * t1 + d2 *
      p3 * s1) + (d3 * h1 * t2 + d3 * p1 * s2) - (d3 * h2 * t1 + d3 * p2 * s1)
  let X := ((b1 * h2 + d1 * e2) * t3 + (b1 * p2 + d1 * f2) * s3) - ((b1 * h3 + d1 * e3) * t2 + (b1 * p3 + d1 * f3) * s2) - ((b2 *
      h1 + d2 * e1) * t3 + (b2 * p1 + d2 * f1) * s3) + ((b2 * h3 + d2 * e3) * t1 + (b2 * p3 + d2 * f3) * s1) + ((b3 * h1 +
      d3 * e1) * t2 + (b3 * p1 + d3 * f1) * s2) - ((b3 * h2 + d3 * e2) * t1 + (b3 * p2 + d3 * f2) * s1)
  let Y := (a1 * e2 * t3 + a1 * f2 * s3 + b1 * e2 * r3 + b1 * f2 * q3) - (a1 * e3 * t2 + a1 * f3 * s2 + b1 * e3 * r2 + b1 * f3 *
      q2) - (a2 * e1 * t3 + a2 * f1 * s3 + b2 * e1 * r3 + b2 * f1 * q3) + (a2 * e3 * t1 + a2 * f3 * s1 + b2 * e3 * r1 + b2 *
      f3 * q1) + (a3 * e1 * t2 + a3 * f1 * s2 + b3 * e1 * r2 + b3 * f1 * q2) - (a3 * e2 * t1 + a3 * f2 * s1 + b3 * e2 * r1 +
      b3 * f2 * q1)
  let Z := (c1 * h2 * t3 + c1 * p2 * s3 + d1 * h2 * r3 + d1 * p2 * q3) - (c1 * h3 * t2 + c1 * p3 * s2 + d1 * h3 * r2 + d1 * p3 *
      q2) - (c2 * h1 * t3 + c2 * p1 * s3 + d2 * h1 * r3 + d2 * p1 * q3) + (c2 * h3 * t1 + c2 * p3 * s1 + d2 * h3 * r1 + d2 *
      p3 * q1) + (c3 * h1 * t2 + c3 * p1 * s2 + d3 * h1 * r2 + d3 * p1 * q2) - (c3 * h2 * t1 + c3 * p2 * s1 + d3 * h2 * r1 +
      d3 * p2 * q1)
  let AA := ((a1 * h2 + c1 * e2) * t3 + (a1 * p2 + c1 * f2) * s3 + (b1 * h2 + d1 * e2) * r3 + (b1 * p2 + d1 * f2) * q3) - ((a1 *
      h3 + c1 * e3) * t2 + (a1 * p3 + c1 * f3) * s2 + (b1 * h3 + d1 * e3) * r2 + (b1 * p3 + d1 * f3) * q2) - ((a2 * h1 + c2
      * e1) * t3 + (a2 * p1 + c2 * f1) * s3 + (b2 * h1 + d2 * e1) * r3 + (b2 * p1 + d2 * f1) * q3) + ((a2 * h3 + c2 * e3) *
      t1 + (a2 * p3 + c2 * f3) * s1 + (b2 * h3 + d2 * e3) * r1 + (b2 * p3 + d2 * f3) * q1) + ((a3 * h1 + c3 * e1) * t2 + (a3
      * p1 + c3 * f1) * s2 + (b3 * h1 + d3 * e1) * r2 + (b3 * p1 + d3 * f1) * q2) - ((a3 * h2 + c3 * e2) * t1 + (a3 * p2 +
      c3 * f2) * s1 + (b3 * h2 + d3 * e2) * r1 + (b3 * p2 + d3 * f2) * q1)
  64 * (8 * (A + B + D + E + J + K + M + N) + 4 * (C + F + G + H + L + O + P + Q + S + T + V + W) + 2 * (I + R + U + X + Y
    + Z) + AA) / 27

/-- The sum `areaVector` over the edges of a face (VolSurfFormulae.hxx:447-455, 473-489) -/
def areaVector (ps : List (Nat → K)) (k : Nat) : K :=
  ((List.range ps.length).map fun i =>
    let a := ptRk ps i
    let b := ptRk ps ((i + 1) % ps.length)
    if k = 0 then a 1 * b 2 - a 2 * b 1 else if k = 1 then a 2 * b 0 - a 0 * b 2 else a 0 * b 1 - a 1 * b 0).sum

/-- The term of one face in `calculateVolumeForPolyh2` (VolSurfFormulae.hxx:456-458) -/
def faceTerm (ps : List (Nat → K)) : K :=
  ptRk ps 0 0 * areaVector ps 0 + ptRk ps 0 1 * areaVector ps 1 + ptRk ps 0 2 * areaVector ps 2

/-- One face of a polyhedron: `std::find(work + 1, end, -1)`, and what comes after the separator
(VolSurfFormulae.hxx:445-446, 459) -/
def nextFace : List Int → M (List Int × List Int)
  | [] => undef
  | a :: l => .ok (a :: l.takeWhile (· ≠ -1), (l.dropWhile (· ≠ -1)).drop 1)

/-- The faces found by the loop (VolSurfFormulae.hxx:443-460) -/
def facesLoop : Nat → List Int → M (List (List Int))
  | 0, _ => .ok []
  | n + 1, l => do
    let f ← nextFace l
    let r ← facesLoop n f.2
    .ok (f.1 :: r)

/-- `nbOfFaces` then the loop (VolSurfFormulae.hxx:440-460) -/
def facesOfPolyh (conn : List Int) : M (List (List Int)) := facesLoop (conn.count (-1) + 1) conn

/-- The coordinates of a tuple -/
def tupPt (p : List K) : Nat → K := fun k => p.getD k 0

/-- The point `coords + spaceDim * n` -/
def nodePt (coords : List (List K)) (n : Int) : M (Nat → K) := do
  let p ← rd coords n
  .ok (tupPt p)

/-- The points of the nodes of the given ranks in the cell -/
def nodePts (coords : List (List K)) (nodes : List Int) (n : Nat) : M (List (Nat → K)) :=
  (List.range n).mapM fun (i : Nat) => do
    let c ← rd nodes i
    nodePt coords c

/-- `calculateVolumeForPolyh2` (VolSurfFormulae.hxx:436-463), numbering of nodes from 0 -/
def volPolyh (coords : List (List K)) (conn : List Int) : M K := do
  let fs ← facesOfPolyh conn
  let ts ← fs.mapM fun f => do
    let ps ← nodePts coords f f.length
    .ok (faceTerm ps)
  .ok (ts.sum / 6)

/-- `connecHexa12` (VolSurfUser.txx:205-247): ranks of the nodes, -1 between the faces -/
def hexgp12Faces : List Int :=
  [0, 1, 2, 3, 4, 5, -1, 6, 11, 10, 9, 8, 7, -1, 0, 6, 7, 1, -1, 1, 7, 8, 2, -1, 2, 8, 9, 3, -1, 3, 9, 10, 4, -1,
    4, 10, 11, 5, -1, 5, 11, 6, 0]

/-- The nodes of the cell in the place of the ranks -/
def hexgp12Conn (nodes : List Int) : M (List Int) :=
  hexgp12Faces.mapM fun r => if r = -1 then .ok (-1) else rd nodes r

/-- What depends on arcs of circle: length of a SEG3 of the plane, `QuadraticPolygon::getArea`. -/
structure Arcs (K : Type) where
  lgth : List (Nat → K) → K
  area : List (Nat → K) → K

/-- `calculateAreaForQPolyg` (VolSurfFormulae.hxx:228-250) -/
def areaQPolyg (arcs : Arcs K) (sqrtF : K → K) (sd : Nat) (ps : List (Nat → K)) : M K :=
  if ps.length % 2 = 0 then
    if sd = 2 then .ok (-arcs.area ps) else .ok (areaPolyg sqrtF sd (ps.take (ps.length / 2)))
  else throwX

/-- `computeVolSurfOfCell2` and `computeVolSurfOfCell` (VolSurfUser.txx:31-281).  Cells of dimension 2 on a line and cells of
dimension 3 out of the space are not modelled: they read coordinates of other nodes, or past the end. -/
def cellMeasure (arcs : Arcs K) (sqrtF : K → K) (sd : Nat) (coords : List (List K)) (t : Int) (nodes : List Int) : M K :=
  if ¬ (sd = 1 ∨ sd = 2 ∨ sd = 3) then throwX
  else if t = 1 ∨ t = 10 then do
    let ps ← nodePts coords nodes 2
    .ok (lgthSeg2 sqrtF sd (ptRk ps 0) (ptRk ps 1))
  else if t = 2 then do
    let ps ← nodePts coords nodes 3
    if sd = 2 then .ok (arcs.lgth ps) else .ok (lgthSeg2 sqrtF sd (ptRk ps 0) (ptRk ps 1))
  else if t ∈ ([3, 6, 7, 4, 8, 9, 5, 32] : List Int) then
    if sd = 1 then undef
    else if t = 3 then do
      let ps ← nodePts coords nodes 3
      .ok (areaTria sqrtF sd (ptRk ps 0) (ptRk ps 1) (ptRk ps 2))
    else if t = 6 ∨ t = 7 then do
      let ps ← nodePts coords nodes 6
      areaQPolyg arcs sqrtF sd ps
    else if t = 4 then do
      let ps ← nodePts coords nodes 4
      .ok (areaQuad sqrtF sd (ptRk ps 0) (ptRk ps 1) (ptRk ps 2) (ptRk ps 3))
    else if t = 8 ∨ t = 9 then do
      let ps ← nodePts coords nodes 8
      areaQPolyg arcs sqrtF sd ps
    else if t = 5 then do
      let ps ← nodePts coords nodes nodes.length
      .ok (areaPolyg sqrtF sd ps)
    else do
      let ps ← nodePts coords nodes nodes.length
      areaQPolyg arcs sqrtF sd ps
  else if t ∈ ([14, 20, 15, 23, 16, 25, 28, 18, 30, 27, 22, 31] : List Int) then
    if sd ≠ 3 then undef
    else if t = 14 ∨ t = 20 then do
      let ps ← nodePts coords nodes 4
      .ok (volTetra (ptRk ps 0) (ptRk ps 1) (ptRk ps 2) (ptRk ps 3))
    else if t = 15 ∨ t = 23 then do
      let ps ← nodePts coords nodes 5
      .ok (volPyra (ptRk ps 0) (ptRk ps 1) (ptRk ps 2) (ptRk ps 3) (ptRk ps 4))
    else if t = 16 ∨ t = 25 ∨ t = 28 then do
      let ps ← nodePts coords nodes 6
      .ok (volPenta (ptRk ps 0) (ptRk ps 1) (ptRk ps 2) (ptRk ps 3) (ptRk ps 4) (ptRk ps 5))
    else if t = 18 ∨ t = 30 ∨ t = 27 then do
      let ps ← nodePts coords nodes 8
      .ok (volHexa (ptRk ps 0) (ptRk ps 1) (ptRk ps 2) (ptRk ps 3) (ptRk ps 4) (ptRk ps 5) (ptRk ps 6) (ptRk ps 7))
    else if t = 22 then do
      let c ← hexgp12Conn nodes
      volPolyh coords c
    else volPolyh coords nodes
  else throwX

end

section
variable {K : Type} [Field K] [LinearOrder K]

/-- `MEDCouplingUMesh::getMeasureField` (MEDCouplingUMesh.cxx:4327-4365): the values of the field, for a mesh of dimension
other than -1 -/
def measureField (arcs : Arcs K) (sqrtF : K → K) (sd : Nat) (coords : List (List K)) (conn connI : List Int) (isAbs : Bool) :
    M (List K) :=
  forCells conn connI [] fun _ c out => do
    let v ← cellMeasure arcs sqrtF sd coords c.type c.nodes
    .ok (out ++ [if isAbs then |v| else v])

/-- `MEDCouplingUMesh::getPartMeasureField` (MEDCouplingUMesh.cxx:4389-4422) -/
def partMeasureField (arcs : Arcs K) (sqrtF : K → K) (sd : Nat) (coords : List (List K)) (conn connI : List Int) (isAbs : Bool)
    (ids : List Int) : M (List K) :=
  ids.mapM fun i => do
    let c ← rdCell conn connI i
    let v ← cellMeasure arcs sqrtF sd coords c.type c.nodes
    .ok (if isAbs then |v| else v)

end

end MC
