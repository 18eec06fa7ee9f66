import Verif.GaussInfo
import Verif.ShapeDeriv

/-!
# Checks of the tables of shape functions

Boolean checks on the tables, by computation on the expressions; the theorems of `GaussProps` turn them into statements on
all the points.
-/

namespace MC

/-- sum of expressions -/
def sumE (l : List PExp) : PExp := l.foldr PExp.add (.num 0)

namespace RefElt

/-- the functions have poles -/
def pole (e : RefElt) : Bool := e.apex.isSome

/-- sizes of the lists -/
def wf (e : RefElt) : Bool :=
  e.ref.length = e.fn.length && e.dev.length = e.fn.length && e.ref.all (fun r => r.length = e.dim) &&
    e.dev.all (fun r => r.length = e.dim) &&
    (match e.apex with
      | none => true
      | some a => a.1.length = e.fn.length && a.2.length = e.fn.length && a.2.all (fun r => r.length = e.dim))

/-- the functions sum to 1 -/
def unity (e : RefElt) : Bool :=
  PExp.eqv e.pole (sumE e.fn) (.num 1) && (match e.apex with
    | none => true
    | some a => a.1.sum = 1)

/-- the combinations of the coordinates `k` of the reference nodes -/
def combE (e : RefElt) (k : Nat) : PExp :=
  sumE (List.zipWith (fun r f => .mul (.num (r.getD k 0)) f) e.ref e.fn)

/-- the reference nodes combine to the point itself -/
def repro (e : RefElt) : Bool := (List.range e.dim).all fun k => PExp.eqv e.pole (e.combE k) (.gc k)

/-- the functions of the other nodes vanish at a node -/
def kron (e : RefElt) : Bool :=
  e.ref.zipIdx.all fun (r, j) => e.values r = (List.range e.fn.length).map fun i => if i = j then 1 else 0

/-- the derivatives are the derivatives of the functions -/
def devs (e : RefElt) : Bool :=
  (List.zip e.fn e.dev).all fun (f, d) => d.zipIdx.all fun (x, k) => PExp.devOK e.pole f k x

end RefElt

/-- all the checks -/
def RefElt.chk (e : RefElt) : Bool := e.wf && e.unity && e.devs && e.repro && e.kron

/-- the checks which hold for the degenerated cells -/
def RefElt.chkDeg (e : RefElt) : Bool := e.wf && e.unity && e.devs

end MC
