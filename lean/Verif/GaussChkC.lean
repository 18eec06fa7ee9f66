import Verif.GaussChk

/-!
# Results of the checks of the tables of shape functions (hexa)
-/

namespace MC

theorem chk_hexa8a : ge_hexa8a.chk = true := by decide +kernel
theorem chk_hexa8b : ge_hexa8b.chk = true := by decide +kernel
theorem chk_hexa20a : ge_hexa20a.chk = true := by decide +kernel
theorem chk_hexa20b : ge_hexa20b.chk = true := by decide +kernel
theorem chk_hexa27a : ge_hexa27a.chk = true := by decide +kernel
theorem chk_hexa8DegQuad4a : ge_hexa8DegQuad4a.chkDeg = true := by decide +kernel
theorem chk_hexa8DegQuad4b : ge_hexa8DegQuad4b.chkDeg = true := by decide +kernel
theorem chk_hexa8DegQuad4c : ge_hexa8DegQuad4c.chkDeg = true := by decide +kernel

end MC
