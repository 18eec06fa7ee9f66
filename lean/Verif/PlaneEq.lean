import Verif.MatInvThm

/-!
# The planes of the faces

`MEDCouplingUMesh::computePlaneEquationOf3DFaces` of `MEDCoupling/MEDCouplingUMesh.cxx`, on one cell.  Numbers are in an ordered field, `sqrt`
is a function of this field.
-/

namespace MC

section
variable {K : Type} [Field K] [LinearOrder K]

/-- the three coordinates of a node (MEDCouplingUMesh.cxx 8533-8542, 8551, 8580) -/
def plNode (coor : List K) (id : Int) : M (K × K × K) := do
  let x ← rd coor (id * 3 + 0)
  let y ← rd coor (id * 3 + 1)
  let z ← rd coor (id * 3 + 2)
  .ok (x, y, z)

/-- `aa`, `bb`: differences (MEDCouplingUMesh.cxx 8533-8542) -/
def plSub (p q : K × K × K) : K × K × K := (p.1 - q.1, p.2.1 - q.2.1, p.2.2 - q.2.2)

/-- `std::plus` on three coordinates (MEDCouplingUMesh.cxx 8579-8582) -/
def plAdd (p q : K × K × K) : K × K × K := (p.1 + q.1, p.2.1 + q.2.1, p.2.2 + q.2.2)

/-- `cc` (MEDCouplingUMesh.cxx 8543-8545) -/
def plCross (a b : K × K × K) : K × K × K := (a.2.1 * b.2.2 - a.2.2 * b.2.1, a.2.2 * b.1 - a.1 * b.2.2, a.1 * b.2.1 - a.2.1 * b.1)

/-- the square of a norm (MEDCouplingUMesh.cxx 8546-8547, 8560) -/
def plSq (a : K × K × K) : K := a.1 * a.1 + a.2.1 * a.2.1 + a.2.2 * a.2.2

/-- `matrix` (MEDCouplingUMesh.cxx 8530, 8551): three points, and the sum of the coefficients -/
def plMatrix (p q r : K × K × K) : List K := [p.1, p.2.1, p.2.2, 1, q.1, q.2.1, q.2.2, 1, r.1, r.2.1, r.2.2, 1, 1, 1, 1, 0]

/-- the last column of the inverse (MEDCouplingUMesh.cxx 8562-8566, 8591-8595) -/
def plSolve (p q r : K × K × K) : M (List K) := do
  let m ← inverseMatrix (plMatrix p q r) 4
  let a ← rd m 3
  let b ← rd m 7
  let c ← rd m 11
  let d ← rd m 15
  .ok [a, b, c, d]

/-- the middle of the nodes (MEDCouplingUMesh.cxx 8577-8589) -/
def plMiddle (coor : List K) (nodes : List Int) : M (K × K × K) := do
  let ps ← nodes.mapM (plNode coor)
  let s := ps.foldl (fun s p => plAdd p s) (0, 0, 0)
  .ok (s.1 * (1 / (nodes.length : K)), s.2.1 * (1 / (nodes.length : K)), s.2.2 * (1 / (nodes.length : K)))

/-- the check of the three first nodes (MEDCouplingUMesh.cxx 8547-8558) -/
def plCheck (nbNodes : Nat) (ids : List Int) : M Unit := if ids.all fun i => 0 ≤ i ∧ i < nbNodes then .ok () else throwX

/-- the three first points are not nearly on a line (MEDCouplingUMesh.cxx 8560) -/
def plWide (sqrt : K → K) (p q r : K × K × K) : Prop :=
  sqrt (plSq (plCross (plSub q p) (plSub r p))) > 1 / 1000 * sqrt (plSq (plSub q p)) * sqrt (plSq (plSub r p))

instance (sqrt : K → K) (p q r : K × K × K) : Decidable (plWide sqrt p q r) := by unfold plWide; infer_instance

/-- the equation from three points, or from the middle when they are nearly on a line (MEDCouplingUMesh.cxx 8560-8596) -/
def plFrom (sqrt : K → K) (coor : List K) (nodes : List Int) (p q r : K × K × K) : M (List K) :=
  if plWide sqrt p q r then plSolve p q r
  else if nodes.length = 3 then throwX
  else do
    let g ← plMiddle coor nodes
    plSolve p q g

/-- one turn of the loop (MEDCouplingUMesh.cxx 8530-8604): the coordinates are read before the nodes are checked -/
def planeEquation (sqrt : K → K) (coor : List K) (nbNodes : Nat) (nodes : List Int) : M (List K) :=
  match nodes with
  | i :: j :: k :: _ => do
    let p ← plNode coor i
    let q ← plNode coor j
    let r ← plNode coor k
    plCheck nbNodes [i, j, k]
    plFrom sqrt coor nodes p q r
  | _ => throwX

end

end MC
