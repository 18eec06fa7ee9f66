import Verif.GaussChk

/-!
# Results of the checks of the tables of shape functions (pyra, penta)
-/

namespace MC

theorem chk_pyra5a : ge_pyra5a.chk = true := by decide +kernel
theorem chk_pyra5b : ge_pyra5b.chk = true := by decide +kernel
theorem chk_pyra13a : ge_pyra13a.chk = true := by decide +kernel
theorem chk_pyra13b : ge_pyra13b.chk = true := by decide +kernel
theorem chk_penta6a : ge_penta6a.chk = true := by decide +kernel
theorem chk_penta6b : ge_penta6b.chk = true := by decide +kernel
theorem chk_penta15a : ge_penta15a.chk = true := by decide +kernel
theorem chk_penta15b : ge_penta15b.chk = true := by decide +kernel
theorem chk_penta18a : ge_penta18a.chk = true := by decide +kernel
theorem chk_penta18b : ge_penta18b.chk = true := by decide +kernel
theorem chk_penta6DegTria3a : ge_penta6DegTria3a.chkDeg = true := by decide +kernel
theorem chk_penta6DegTria3b : ge_penta6DegTria3b.chkDeg = true := by decide +kernel

end MC
