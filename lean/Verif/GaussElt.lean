import Verif.ShapeExp

/-!
# Reference cells of the Gauss localizations (`INTERP_KERNEL::GaussInfo`)
-/

namespace MC

/-- What one of the functions `GaussInfo::...Init` of InterpKernelGaussCoords.cxx writes: the coordinates of the reference
nodes (`_my_local_reference_coord`), the shape function of each node (`funValue[i]`) and its partial derivatives
(`devFunValue[i * dim + k]`).  The pyramids have constants in the place of the functions and of the derivatives where
`std::abs(gc[2] - 1.0) < 1e-12`: they are in `apex`. The order in which the functions are assigned is not kept. -/
structure RefElt where
  dim : Nat
  ref : List (List Rat)
  fn : List PExp
  dev : List (List PExp)
  apex : Option (List Rat × List (List Rat)) := none

end MC
