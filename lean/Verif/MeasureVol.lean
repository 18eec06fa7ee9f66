import Verif.Measure

namespace MC

section
variable {K : Type} [Field K] [CharZero K]

/-- The volume of a PENTA6 is that of three tetrahedra and of the halves of the tetrahedra made by its quadrangles. -/
theorem volPenta_eq (p0 p1 p2 p3 p4 p5 : Nat → K) :
    volPenta p0 p1 p2 p3 p4 p5 =
      volTetra p0 p1 p2 p3 + volTetra p3 p5 p4 p2 + volTetra p4 p2 p1 p3 +
        (volTetra p0 p3 p4 p1 + volTetra p1 p4 p5 p2 - volTetra p2 p5 p3 p0) / 2 := by
  simp only [volPenta, volTetra]
  ring

/-- The volume of a HEXA8 is that of five tetrahedra and of the halves of the tetrahedra made by its faces. -/
theorem volHexa_eq (p0 p1 p2 p3 p4 p5 p6 p7 : Nat → K) :
    volHexa p0 p1 p2 p3 p4 p5 p6 p7 =
      volTetra p0 p5 p1 p2 + volTetra p0 p4 p5 p7 + volTetra p0 p3 p7 p2 + volTetra p5 p7 p6 p2 + volTetra p0 p5 p2 p7 +
        (-volTetra p0 p1 p2 p3 + volTetra p4 p7 p6 p5 - volTetra p0 p4 p5 p1 + volTetra p1 p5 p6 p2 - volTetra p2 p6 p7 p3 +
          volTetra p3 p7 p4 p0) / 2 := by
  simp only [volHexa, volTetra]
  ring

theorem volPyra_eq (p0 p1 p2 p3 p4 : Nat → K) :
    volPyra p0 p1 p2 p3 p4 = volTetra p0 p1 p2 p4 + volTetra p0 p2 p3 p4 := by
  simp only [volPyra, volTetra]
  ring
end
end MC
