import Verif.GaussChk

/-!
# Results of the checks of the tables of shape functions (seg, tria, quad, tetra)
-/

namespace MC

theorem chk_seg2a : ge_seg2a.chk = true := by decide +kernel
theorem chk_seg2b : ge_seg2b.chk = true := by decide +kernel
theorem chk_seg3 : ge_seg3.chk = true := by decide +kernel
theorem chk_seg4 : ge_seg4.chk = true := by decide +kernel
theorem chk_tria3a : ge_tria3a.chk = true := by decide +kernel
theorem chk_tria3b : ge_tria3b.chk = true := by decide +kernel
theorem chk_tria6b : ge_tria6b.chk = true := by decide +kernel
theorem chk_tria7a : ge_tria7a.chk = true := by decide +kernel
theorem chk_quad4a : ge_quad4a.chk = true := by decide +kernel
theorem chk_quad4b : ge_quad4b.chk = true := by decide +kernel
theorem chk_quad4c : ge_quad4c.chk = true := by decide +kernel
theorem chk_quad8a : ge_quad8a.chk = true := by decide +kernel
theorem chk_quad8b : ge_quad8b.chk = true := by decide +kernel
theorem chk_quad9a : ge_quad9a.chk = true := by decide +kernel
theorem chk_tetra4a : ge_tetra4a.chk = true := by decide +kernel
theorem chk_tetra4b : ge_tetra4b.chk = true := by decide +kernel
theorem chk_tetra10a : ge_tetra10a.chk = true := by decide +kernel
theorem chk_tetra10b : ge_tetra10b.chk = true := by decide +kernel
theorem chk_quad4DegSeg2 : ge_quad4DegSeg2.chkDeg = true := by decide +kernel
theorem chk_tria6a : (ge_tria6a.wf && ge_tria6a.devs) = true := by decide +kernel

end MC
