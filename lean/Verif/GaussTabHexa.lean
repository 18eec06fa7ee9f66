import Verif.GaussElt

/-!
# Shape functions of the reference cells: hexahedra

Transcription of the functions `GaussInfo::...Init` of InterpKernelGaussCoords.cxx: `x`, `y`, `z` stand for `gc[0]`, `gc[1]`, `gc[2]`;
the literal `0.3333333333333333` of the reference coordinates is read `1 / 3`.
-/

namespace MC

local notation "x" => PExp.gc 0
local notation "y" => PExp.gc 1
local notation "z" => PExp.gc 2

/-- `GaussInfo::hexa8aInit` (InterpKernelGaussCoords.cxx:4158-4250), reference nodes `HEXA8A_REF` (lines 118-119). -/
def ge_hexa8a : RefElt where
  dim := 3
  ref :=
    [[-1, -1, -1], [1, -1, -1], [1, 1, -1], [-1, 1, -1], [-1, -1, 1], [1, -1, 1], [1, 1, 1], [-1, 1, 1]]
  fn :=
    [ 0.125 * (1.0 - x) * (1.0 - y) * (1.0 - z),
    0.125 * (1.0 + x) * (1.0 - y) * (1.0 - z),
    0.125 * (1.0 + x) * (1.0 + y) * (1.0 - z),
    0.125 * (1.0 - x) * (1.0 + y) * (1.0 - z),
    0.125 * (1.0 - x) * (1.0 - y) * (1.0 + z),
    0.125 * (1.0 + x) * (1.0 - y) * (1.0 + z),
    0.125 * (1.0 + x) * (1.0 + y) * (1.0 + z),
    0.125 * (1.0 - x) * (1.0 + y) * (1.0 + z) ]
  dev :=
    [ [0.125 * (-1.0) * (1.0 - y) * (1.0 - z), 0.125 * (1.0 - x) * (-1.0) * (1.0 - z), 0.125 * (1.0 - x) * (1.0 - y) *
        (-1.0)],
    [0.125 * (1.0 - y) * (1.0 - z), 0.125 * (1.0 + x) * (-1.0) * (1.0 - z), 0.125 * (1.0 + x) * (1.0 - y) * (-1.0)],
    [0.125 * (1.0 + y) * (1.0 - z), 0.125 * (1.0 + x) * (1.0 - z), 0.125 * (1.0 + x) * (1.0 + y) * (-1.0)],
    [0.125 * (-1.0) * (1.0 + y) * (1.0 - z), 0.125 * (1.0 - x) * (1.0 - z), 0.125 * (1.0 - x) * (1.0 + y) * (-1.0)],
    [0.125 * (-1.0) * (1.0 - y) * (1.0 + z), 0.125 * (1.0 - x) * (-1.0) * (1.0 + z), 0.125 * (1.0 - x) * (1.0 - y)],
    [0.125 * (1.0 - y) * (1.0 + z), 0.125 * (1.0 + x) * (-1.0) * (1.0 + z), 0.125 * (1.0 + x) * (1.0 - y)],
    [0.125 * (1.0 + y) * (1.0 + z), 0.125 * (1.0 + x) * (1.0 + z), 0.125 * (1.0 + x) * (1.0 + y)],
    [0.125 * (-1.0) * (1.0 + y) * (1.0 + z), 0.125 * (1.0 - x) * (1.0 + z), 0.125 * (1.0 - x) * (1.0 + y)] ]

/-- `GaussInfo::hexa8bInit` (InterpKernelGaussCoords.cxx:4257-4347), reference nodes `HEXA8B_REF` (lines 121-122). -/
def ge_hexa8b : RefElt where
  dim := 3
  ref :=
    [[-1, -1, -1], [-1, 1, -1], [1, 1, -1], [1, -1, -1], [-1, -1, 1], [-1, 1, 1], [1, 1, 1], [1, -1, 1]]
  fn :=
    [ 0.125 * (1.0 - x) * (1.0 - y) * (1.0 - z),
    0.125 * (1.0 - x) * (1.0 + y) * (1.0 - z),
    0.125 * (1.0 + x) * (1.0 + y) * (1.0 - z),
    0.125 * (1.0 + x) * (1.0 - y) * (1.0 - z),
    0.125 * (1.0 - x) * (1.0 - y) * (1.0 + z),
    0.125 * (1.0 - x) * (1.0 + y) * (1.0 + z),
    0.125 * (1.0 + x) * (1.0 + y) * (1.0 + z),
    0.125 * (1.0 + x) * (1.0 - y) * (1.0 + z) ]
  dev :=
    [ [0.125 * (-1.0) * (1.0 - y) * (1.0 - z), 0.125 * (1.0 - x) * (-1.0) * (1.0 - z), 0.125 * (1.0 - x) * (1.0 - y) *
        (-1.0)],
    [0.125 * (-1.0) * (1.0 + y) * (1.0 - z), 0.125 * (1.0 - x) * (1.0 - z), 0.125 * (1.0 - x) * (1.0 + y) * (-1.0)],
    [0.125 * (1.0 + y) * (1.0 - z), 0.125 * (1.0 + x) * (1.0 - z), 0.125 * (1.0 + x) * (1.0 + y) * (-1.0)],
    [0.125 * (1.0 - y) * (1.0 - z), 0.125 * (1.0 + x) * (-1.0) * (1.0 - z), 0.125 * (1.0 + x) * (1.0 - y) * (-1.0)],
    [0.125 * (-1.0) * (1.0 - y) * (1.0 + z), 0.125 * (1.0 - x) * (-1.0) * (1.0 + z), 0.125 * (1.0 - x) * (1.0 - y)],
    [0.125 * (-1.0) * (1.0 + y) * (1.0 + z), 0.125 * (1.0 - x) * (1.0 + z), 0.125 * (1.0 - x) * (1.0 + y)],
    [0.125 * (1.0 + y) * (1.0 + z), 0.125 * (1.0 + x) * (1.0 + z), 0.125 * (1.0 + x) * (1.0 + y)],
    [0.125 * (1.0 - y) * (1.0 + z), 0.125 * (1.0 + x) * (-1.0) * (1.0 + z), 0.125 * (1.0 + x) * (1.0 - y)] ]

/-- `GaussInfo::hexa8DegQuad4aInit` (InterpKernelGaussCoords.cxx:4353-4442). -/
def ge_hexa8DegQuad4a : RefElt where
  dim := 3
  ref :=
    [[-1, 1, 0], [-1, -1, 0], [1, -1, 0], [1, 1, 0], [0, 0, 0], [0, 0, 0], [0, 0, 0], [0, 0, 0]]
  fn :=
    [ 0.25 * (1.0 + y) * (1.0 - x),
    0.25 * (1.0 - y) * (1.0 - x),
    0.25 * (1.0 - y) * (1.0 + x),
    0.25 * (1.0 + x) * (1.0 + y),
    0.0,
    0.0,
    0.0,
    0.0 ]
  dev :=
    [ [-0.25 * (1.0 + y), 0.25 * (1.0 - x), 0.0],
    [-0.25 * (1 - y), -0.25 * (1.0 - x), 0.0],
    [0.25 * (1.0 - y), -0.25 * (1.0 + x), 0.0],
    [0.25 * (1.0 + y), 0.25 * (1.0 + x), 0.0],
    [0.0, 0.0, 0.0],
    [0.0, 0.0, 0.0],
    [0.0, 0.0, 0.0],
    [0.0, 0.0, 0.0] ]

/-- `GaussInfo::hexa8DegQuad4bInit` (InterpKernelGaussCoords.cxx:4448-4537). -/
def ge_hexa8DegQuad4b : RefElt where
  dim := 3
  ref :=
    [[-1, -1, 0], [1, -1, 0], [1, 1, 0], [-1, 1, 0], [0, 0, 0], [0, 0, 0], [0, 0, 0], [0, 0, 0]]
  fn :=
    [ 0.25 * (1.0 - x) * (1.0 - y),
    0.25 * (1.0 + x) * (1.0 - y),
    0.25 * (1.0 + x) * (1.0 + y),
    0.25 * (1.0 - x) * (1.0 + y),
    0.0,
    0.0,
    0.0,
    0.0 ]
  dev :=
    [ [-0.25 * (1.0 - y), -0.25 * (1.0 - x), 0.0],
    [0.25 * (1 - y), -0.25 * (1.0 + x), 0.0],
    [0.25 * (1.0 + y), 0.25 * (1.0 + x), 0.0],
    [-0.25 * (1.0 + y), 0.25 * (1.0 - x), 0.0],
    [0.0, 0.0, 0.0],
    [0.0, 0.0, 0.0],
    [0.0, 0.0, 0.0],
    [0.0, 0.0, 0.0] ]

/-- `GaussInfo::hexa8DegQuad4cInit` (InterpKernelGaussCoords.cxx:4543-4633). -/
def ge_hexa8DegQuad4c : RefElt where
  dim := 3
  ref :=
    [[-1, -1, 0], [-1, 1, 0], [1, 1, 0], [1, -1, 0], [0, 0, 0], [0, 0, 0], [0, 0, 0], [0, 0, 0]]
  fn :=
    [ 0.25 * (1.0 - x) * (1.0 - y),
    0.25 * (1.0 - x) * (1.0 + y),
    0.25 * (1.0 + x) * (1.0 + y),
    0.25 * (1.0 + x) * (1.0 - y),
    0.0,
    0.0,
    0.0,
    0.0 ]
  dev :=
    [ [-0.25 * (1.0 - y), -0.25 * (1.0 - x), 0.0],
    [-0.25 * (1.0 + y), 0.25 * (1.0 - x), 0.0],
    [0.25 * (1.0 + y), 0.25 * (1.0 + x), 0.0],
    [0.25 * (1.0 - y), -0.25 * (1.0 + x), 0.0],
    [0.0, 0.0, 0.0],
    [0.0, 0.0, 0.0],
    [0.0, 0.0, 0.0],
    [0.0, 0.0, 0.0] ]

/-- `GaussInfo::hexa20aInit` (InterpKernelGaussCoords.cxx:4640-4852), reference nodes `HEXA20A_REF` (lines 124-128).
-/
def ge_hexa20a : RefElt where
  dim := 3
  ref :=
    [[-1, -1, -1], [1, -1, -1], [1, 1, -1], [-1, 1, -1], [-1, -1, 1], [1, -1, 1], [1, 1, 1], [-1, 1, 1], [0, -1, -1],
        [1, 0, -1], [0, 1, -1], [-1, 0, -1], [-1, -1, 0], [1, -1, 0], [1, 1, 0], [-1, 1, 0], [0, -1, 1], [1, 0, 1],
        [0, 1, 1], [-1, 0, 1]]
  fn :=
    [ 0.125 * (1.0 - x) * (1.0 - y) * (1.0 - z) * (-2.0 - x - y - z),
    0.125 * (1.0 + x) * (1.0 - y) * (1.0 - z) * (-2.0 + x - y - z),
    0.125 * (1.0 + x) * (1.0 + y) * (1.0 - z) * (-2.0 + x + y - z),
    0.125 * (1.0 - x) * (1.0 + y) * (1.0 - z) * (-2.0 - x + y - z),
    0.125 * (1.0 - x) * (1.0 - y) * (1.0 + z) * (-2.0 - x - y + z),
    0.125 * (1.0 + x) * (1.0 - y) * (1.0 + z) * (-2.0 + x - y + z),
    0.125 * (1.0 + x) * (1.0 + y) * (1.0 + z) * (-2.0 + x + y + z),
    0.125 * (1.0 - x) * (1.0 + y) * (1.0 + z) * (-2.0 - x + y + z),
    0.25 * (1.0 - x * x) * (1.0 - y) * (1.0 - z),
    0.25 * (1.0 - y * y) * (1.0 + x) * (1.0 - z),
    0.25 * (1.0 - x * x) * (1.0 + y) * (1.0 - z),
    0.25 * (1.0 - y * y) * (1.0 - x) * (1.0 - z),
    0.25 * (1.0 - z * z) * (1.0 - x) * (1.0 - y),
    0.25 * (1.0 - z * z) * (1.0 + x) * (1.0 - y),
    0.25 * (1.0 - z * z) * (1.0 + x) * (1.0 + y),
    0.25 * (1.0 - z * z) * (1.0 - x) * (1.0 + y),
    0.25 * (1.0 - x * x) * (1.0 - y) * (1.0 + z),
    0.25 * (1.0 - y * y) * (1.0 + x) * (1.0 + z),
    0.25 * (1.0 - x * x) * (1.0 + y) * (1.0 + z),
    0.25 * (1.0 - y * y) * (1.0 - x) * (1.0 + z) ]
  dev :=
    [ [0.125 * (1.0 + y + z + 2 * x) * (1.0 - y) * (1.0 - z), 0.125 * (1.0 - x) * (1.0 + x + z + 2 * y) * (1.0 - z),
        0.125 * (1.0 - x) * (1.0 - y) * (1.0 + x + y + 2 * z)],
    [0.125 * (-1.0 - y - z + 2 * x) * (1.0 - y) * (1.0 - z), 0.125 * (1.0 + x) * (1 - x + z + 2 * y) * (1.0 - z),
        0.125 * (1.0 + x) * (1.0 - y) * (1 - x + y + 2 * z)],
    [0.125 * (-1.0 + y - z + 2 * x) * (1.0 + y) * (1.0 - z), 0.125 * (1.0 + x) * (-1 + x - z + 2 * y) * (1.0 - z),
        0.125 * (1.0 + x) * (1.0 + y) * (1.0 - x - y + 2 * z)],
    [0.125 * (1.0 - y + z + 2 * x) * (1.0 + y) * (1.0 - z), 0.125 * (1.0 - x) * (-1 - x - z + 2 * y) * (1.0 - z),
        0.125 * (1.0 - x) * (1.0 + y) * (1.0 + x - y + 2 * z)],
    [0.125 * (1.0 + y - z + 2 * x) * (1.0 - y) * (1.0 + z), 0.125 * (1.0 - x) * (1 + x - z + 2 * y) * (1.0 + z), 0.125
        * (1.0 - x) * (1.0 - y) * (-1.0 - x - y + 2 * z)],
    [0.125 * (-1.0 - y + z + 2 * x) * (1.0 - y) * (1.0 + z), 0.125 * (1.0 + x) * (1 - x - z + 2 * y) * (1.0 + z),
        0.125 * (1.0 + x) * (1.0 - y) * (-1.0 + x - y + 2 * z)],
    [0.125 * (-1.0 + y + z + 2 * x) * (1.0 + y) * (1.0 + z), 0.125 * (1.0 + x) * (-1 + x + z + 2 * y) * (1.0 + z),
        0.125 * (1.0 + x) * (1.0 + y) * (-1.0 + x + y + 2 * z)],
    [0.125 * (1.0 - y - z + 2 * x) * (1.0 + y) * (1.0 + z), 0.125 * (1.0 - x) * (-1 - x + z + 2 * y) * (1.0 + z),
        0.125 * (1.0 - x) * (1.0 + y) * (-1.0 - x + y + 2 * z)],
    [0.25 * (-2.0 * x) * (1.0 - y) * (1.0 - z), 0.25 * (1.0 - x * x) * (-1) * (1.0 - z), 0.25 * (1.0 - x * x) * (1.0 -
        y) * (-1.0)],
    [0.25 * (1.0 - y * y) * (1.0 - z), 0.25 * (-2.0 * y) * (1.0 + x) * (1.0 - z), 0.25 * (1.0 - y * y) * (1.0 + x) *
        (-1.0)],
    [0.25 * (-2.0 * x) * (1.0 + y) * (1.0 - z), 0.25 * (1.0 - x * x) * (1.0) * (1.0 - z), 0.25 * (1.0 - x * x) * (1.0
        + y) * (-1.0)],
    [0.25 * (1.0 - y * y) * (-1.0) * (1.0 - z), 0.25 * (-2.0 * y) * (1.0 - x) * (1.0 - z), 0.25 * (1.0 - y * y) * (1.0
        - x) * (-1.0)],
    [0.25 * (1.0 - z * z) * (-1.0) * (1.0 - y), 0.25 * (1.0 - z * z) * (1.0 - x) * (-1.0), 0.25 * (-2.0 * z) * (1.0 -
        x) * (1.0 - y)],
    [0.25 * (1.0 - z * z) * (1.0 - y), 0.25 * (1.0 - z * z) * (1.0 + x) * (-1.0), 0.25 * (-2.0 * z) * (1.0 + x) * (1.0
        - y)],
    [0.25 * (1.0 - z * z) * (1.0 + y), 0.25 * (1.0 - z * z) * (1.0 + x), 0.25 * (-2.0 * z) * (1.0 + x) * (1.0 + y)],
    [0.25 * (1.0 - z * z) * (-1.0) * (1.0 + y), 0.25 * (1.0 - z * z) * (1.0 - x), 0.25 * (-2.0 * z) * (1.0 - x) * (1.0
        + y)],
    [0.25 * (-2.0 * x) * (1.0 - y) * (1.0 + z), 0.25 * (1.0 - x * x) * (-1.0) * (1.0 + z), 0.25 * (1.0 - x * x) * (1.0
        - y)],
    [0.25 * (1.0 - y * y) * (1.0 + z), 0.25 * (-2.0 * y) * (1.0 + x) * (1.0 + z), 0.25 * (1.0 - y * y) * (1.0 + x)],
    [0.25 * (-2.0 * x) * (1.0 + y) * (1.0 + z), 0.25 * (1.0 - x * x) * (1.0 + z), 0.25 * (1.0 - x * x) * (1.0 + y)],
    [0.25 * (1.0 - y * y) * (-1.0) * (1.0 + z), 0.25 * (-2.0 * y) * (1.0 - x) * (1.0 + z), 0.25 * (1.0 - y * y) * (1.0
        - x)] ]

/-- `GaussInfo::hexa20bInit` (InterpKernelGaussCoords.cxx:4859-5070), reference nodes `HEXA20B_REF` (lines 130-134).
-/
def ge_hexa20b : RefElt where
  dim := 3
  ref :=
    [[-1, -1, -1], [-1, 1, -1], [1, 1, -1], [1, -1, -1], [-1, -1, 1], [-1, 1, 1], [1, 1, 1], [1, -1, 1], [-1, 0, -1],
        [0, 1, -1], [1, 0, -1], [0, -1, -1], [-1, 0, 1], [0, 1, 1], [1, 0, 1], [0, -1, 1], [-1, -1, 0], [-1, 1, 0],
        [1, 1, 0], [1, -1, 0]]
  fn :=
    [ 0.125 * (1.0 - x) * (1.0 - y) * (1.0 - z) * (-2.0 - x - y - z),
    0.125 * (1.0 - x) * (1.0 + y) * (1.0 - z) * (-2.0 - x + y - z),
    0.125 * (1.0 + x) * (1.0 + y) * (1.0 - z) * (-2.0 + x + y - z),
    0.125 * (1.0 + x) * (1.0 - y) * (1.0 - z) * (-2.0 + x - y - z),
    0.125 * (1.0 - x) * (1.0 - y) * (1.0 + z) * (-2.0 - x - y + z),
    0.125 * (1.0 - x) * (1.0 + y) * (1.0 + z) * (-2.0 - x + y + z),
    0.125 * (1.0 + x) * (1.0 + y) * (1.0 + z) * (-2.0 + x + y + z),
    0.125 * (1.0 + x) * (1.0 - y) * (1.0 + z) * (-2.0 + x - y + z),
    0.25 * (1.0 - y * y) * (1.0 - x) * (1.0 - z),
    0.25 * (1.0 - x * x) * (1.0 + y) * (1.0 - z),
    0.25 * (1.0 - y * y) * (1.0 + x) * (1.0 - z),
    0.25 * (1.0 - x * x) * (1.0 - y) * (1.0 - z),
    0.25 * (1.0 - y * y) * (1.0 - x) * (1.0 + z),
    0.25 * (1.0 - x * x) * (1.0 + y) * (1.0 + z),
    0.25 * (1.0 - y * y) * (1.0 + x) * (1.0 + z),
    0.25 * (1.0 - x * x) * (1.0 - y) * (1.0 + z),
    0.25 * (1.0 - z * z) * (1.0 - x) * (1.0 - y),
    0.25 * (1.0 - z * z) * (1.0 - x) * (1.0 + y),
    0.25 * (1.0 - z * z) * (1.0 + x) * (1.0 + y),
    0.25 * (1.0 - z * z) * (1.0 + x) * (1.0 - y) ]
  dev :=
    [ [0.125 * (1.0 + y + z + 2 * x) * (1.0 - y) * (1.0 - z), 0.125 * (1.0 - x) * (1.0 + x + z + 2 * y) * (1.0 - z),
        0.125 * (1.0 - x) * (1.0 - y) * (1.0 + x + y + 2 * z)],
    [0.125 * (1.0 - y + z + 2 * x) * (1.0 + y) * (1.0 - z), 0.125 * (1.0 - x) * (-1 - x - z + 2 * y) * (1.0 - z),
        0.125 * (1.0 - x) * (1.0 + y) * (1.0 + x - y + 2 * z)],
    [0.125 * (-1.0 + y - z + 2 * x) * (1.0 + y) * (1.0 - z), 0.125 * (1.0 + x) * (-1 + x - z + 2 * y) * (1.0 - z),
        0.125 * (1.0 + x) * (1.0 + y) * (1.0 - x - y + 2 * z)],
    [0.125 * (-1.0 - y - z + 2 * x) * (1.0 - y) * (1.0 - z), 0.125 * (1.0 + x) * (1 - x + z + 2 * y) * (1.0 - z),
        0.125 * (1.0 + x) * (1.0 - y) * (1 - x + y + 2 * z)],
    [0.125 * (1.0 + y - z + 2 * x) * (1.0 - y) * (1.0 + z), 0.125 * (1.0 - x) * (1 + x - z + 2 * y) * (1.0 + z), 0.125
        * (1.0 - x) * (1.0 - y) * (-1.0 - x - y + 2 * z)],
    [0.125 * (1.0 - y - z + 2 * x) * (1.0 + y) * (1.0 + z), 0.125 * (1.0 - x) * (-1 - x + z + 2 * y) * (1.0 + z),
        0.125 * (1.0 - x) * (1.0 + y) * (-1.0 - x + y + 2 * z)],
    [0.125 * (-1.0 + y + z + 2 * x) * (1.0 + y) * (1.0 + z), 0.125 * (1.0 + x) * (-1 + x + z + 2 * y) * (1.0 + z),
        0.125 * (1.0 + x) * (1.0 + y) * (-1.0 + x + y + 2 * z)],
    [0.125 * (-1.0 - y + z + 2 * x) * (1.0 - y) * (1.0 + z), 0.125 * (1.0 + x) * (1 - x - z + 2 * y) * (1.0 + z),
        0.125 * (1.0 + x) * (1.0 - y) * (-1.0 + x - y + 2 * z)],
    [0.25 * (1.0 - y * y) * (-1.0) * (1.0 - z), 0.25 * (-2.0 * y) * (1.0 - x) * (1.0 - z), 0.25 * (1.0 - y * y) * (1.0
        - x) * (-1.0)],
    [0.25 * (-2.0 * x) * (1.0 + y) * (1.0 - z), 0.25 * (1.0 - x * x) * (1.0) * (1.0 - z), 0.25 * (1.0 - x * x) * (1.0
        + y) * (-1.0)],
    [0.25 * (1.0 - y * y) * (1.0 - z), 0.25 * (-2.0 * y) * (1.0 + x) * (1.0 - z), 0.25 * (1.0 - y * y) * (1.0 + x) *
        (-1.0)],
    [0.25 * (-2.0 * x) * (1.0 - y) * (1.0 - z), 0.25 * (1.0 - x * x) * (-1) * (1.0 - z), 0.25 * (1.0 - x * x) * (1.0 -
        y) * (-1.0)],
    [0.25 * (1.0 - y * y) * (-1.0) * (1.0 + z), 0.25 * (-2.0 * y) * (1.0 - x) * (1.0 + z), 0.25 * (1.0 - y * y) * (1.0
        - x)],
    [0.25 * (-2.0 * x) * (1.0 + y) * (1.0 + z), 0.25 * (1.0 - x * x) * (1.0 + z), 0.25 * (1.0 - x * x) * (1.0 + y)],
    [0.25 * (1.0 - y * y) * (1.0 + z), 0.25 * (-2.0 * y) * (1.0 + x) * (1.0 + z), 0.25 * (1.0 - y * y) * (1.0 + x)],
    [0.25 * (-2.0 * x) * (1.0 - y) * (1.0 + z), 0.25 * (1.0 - x * x) * (-1.0) * (1.0 + z), 0.25 * (1.0 - x * x) * (1.0
        - y)],
    [0.25 * (1.0 - z * z) * (-1.0) * (1.0 - y), 0.25 * (1.0 - z * z) * (1.0 - x) * (-1.0), 0.25 * (-2.0 * z) * (1.0 -
        x) * (1.0 - y)],
    [0.25 * (1.0 - z * z) * (-1.0) * (1.0 + y), 0.25 * (1.0 - z * z) * (1.0 - x), 0.25 * (-2.0 * z) * (1.0 - x) * (1.0
        + y)],
    [0.25 * (1.0 - z * z) * (1.0 + y), 0.25 * (1.0 - z * z) * (1.0 + x), 0.25 * (-2.0 * z) * (1.0 + x) * (1.0 + y)],
    [0.25 * (1.0 - z * z) * (1.0 - y), 0.25 * (1.0 - z * z) * (1.0 + x) * (-1.0), 0.25 * (-2.0 * z) * (1.0 + x) * (1.0
        - y)] ]

/-- `GaussInfo::hexa27aInit` (InterpKernelGaussCoords.cxx:5073-5356), reference nodes `HEXA27A_REF` (lines 136-142).
-/
def ge_hexa27a : RefElt where
  dim := 3
  ref :=
    [[-1, -1, -1], [-1, 1, -1], [1, 1, -1], [1, -1, -1], [-1, -1, 1], [-1, 1, 1], [1, 1, 1], [1, -1, 1], [-1, 0, -1],
        [0, 1, -1], [1, 0, -1], [0, -1, -1], [-1, 0, 1], [0, 1, 1], [1, 0, 1], [0, -1, 1], [-1, -1, 0], [-1, 1, 0],
        [1, 1, 0], [1, -1, 0], [0, 0, -1], [-1, 0, 0], [0, 1, 0], [1, 0, 0], [0, -1, 0], [0, 0, 1], [0, 0, 0]]
  fn :=
    [ 0.125 * x * (x - 1.0) * y * (y - 1.0) * z * (z - 1.0),
    0.125 * x * (x - 1.0) * y * (y + 1.0) * z * (z - 1.0),
    0.125 * x * (x + 1.0) * y * (y + 1.0) * z * (z - 1.0),
    0.125 * x * (x + 1.0) * y * (y - 1.0) * z * (z - 1.0),
    0.125 * x * (x - 1.0) * y * (y - 1.0) * z * (z + 1.0),
    0.125 * x * (x - 1.0) * y * (y + 1.0) * z * (z + 1.0),
    0.125 * x * (x + 1.0) * y * (y + 1.0) * z * (z + 1.0),
    0.125 * x * (x + 1.0) * y * (y - 1.0) * z * (z + 1.0),
    0.25 * x * (x - 1.0) * (1.0 - y * y) * z * (z - 1.0),
    0.25 * (1.0 - x * x) * y * (y + 1.0) * z * (z - 1.0),
    0.25 * x * (x + 1.0) * (1.0 - y * y) * z * (z - 1.0),
    0.25 * (1.0 - x * x) * y * (y - 1.0) * z * (z - 1.0),
    0.25 * x * (x - 1.0) * (1.0 - y * y) * z * (z + 1.0),
    0.25 * (1.0 - x * x) * y * (y + 1.0) * z * (z + 1.0),
    0.25 * x * (x + 1.0) * (1.0 - y * y) * z * (z + 1.0),
    0.25 * (1.0 - x * x) * y * (y - 1.0) * z * (z + 1.0),
    0.25 * x * (x - 1.0) * y * (y - 1.0) * (1.0 - z * z),
    0.25 * x * (x - 1.0) * y * (y + 1.0) * (1.0 - z * z),
    0.25 * x * (x + 1.0) * y * (y + 1.0) * (1.0 - z * z),
    0.25 * x * (x + 1.0) * y * (y - 1.0) * (1.0 - z * z),
    0.5 * (1.0 - x * x) * (1.0 - y * y) * z * (z - 1.0),
    0.5 * x * (x - 1.0) * (1.0 - y * y) * (1.0 - z * z),
    0.5 * (1.0 - x * x) * y * (y + 1.0) * (1.0 - z * z),
    0.5 * x * (x + 1.0) * (1.0 - y * y) * (1.0 - z * z),
    0.5 * (1.0 - x * x) * y * (y - 1.0) * (1.0 - z * z),
    0.5 * (1.0 - x * x) * (1.0 - y * y) * z * (z + 1.0),
    (1.0 - x * x) * (1.0 - y * y) * (1.0 - z * z) ]
  dev :=
    [ [0.125 * (2 * x - 1.0) * y * (y - 1.0) * z * (z - 1.0), 0.125 * x * (x - 1.0) * (2 * y - 1.0) * z * (z - 1.0),
        0.125 * x * (x - 1.0) * y * (y - 1.0) * (2 * z - 1.0)],
    [0.125 * (2 * x - 1.0) * y * (y + 1.0) * z * (z - 1.0), 0.125 * x * (x - 1.0) * (2 * y + 1.0) * z * (z - 1.0),
        0.125 * x * (x - 1.0) * y * (y + 1.0) * (2 * z - 1.0)],
    [0.125 * (2 * x + 1.0) * y * (y + 1.0) * z * (z - 1.0), 0.125 * x * (x + 1.0) * (2 * y + 1.0) * z * (z - 1.0),
        0.125 * x * (x + 1.0) * y * (y + 1.0) * (2 * z - 1.0)],
    [0.125 * (2 * x + 1.0) * y * (y - 1.0) * z * (z - 1.0), 0.125 * x * (x + 1.0) * (2 * y - 1.0) * z * (z - 1.0),
        0.125 * x * (x + 1.0) * y * (y - 1.0) * (2 * z - 1.0)],
    [0.125 * (2 * x - 1.0) * y * (y - 1.0) * z * (z + 1.0), 0.125 * x * (x - 1.0) * (2 * y - 1.0) * z * (z + 1.0),
        0.125 * x * (x - 1.0) * y * (y - 1.0) * (2 * z + 1.0)],
    [0.125 * (2 * x - 1.0) * y * (y + 1.0) * z * (z + 1.0), 0.125 * x * (x - 1.0) * (2 * y + 1.0) * z * (z + 1.0),
        0.125 * x * (x - 1.0) * y * (y + 1.0) * (2 * z + 1.0)],
    [0.125 * (2 * x + 1.0) * y * (y + 1.0) * z * (z + 1.0), 0.125 * x * (x + 1.0) * (2 * y + 1.0) * z * (z + 1.0),
        0.125 * x * (x + 1.0) * y * (y + 1.0) * (2 * z + 1.0)],
    [0.125 * (2 * x + 1.0) * y * (y - 1.0) * z * (z + 1.0), 0.125 * x * (x + 1.0) * (2 * y - 1.0) * z * (z + 1.0),
        0.125 * x * (x + 1.0) * y * (y - 1.0) * (2 * z + 1.0)],
    [0.25 * (2 * x - 1.0) * (1.0 - y * y) * z * (z - 1.0), 0.25 * x * (x - 1.0) * (-2 * y) * z * (z - 1.0), 0.25 * x *
        (x - 1.0) * (1.0 - y * y) * (2 * z - 1.0)],
    [0.25 * (-2 * x) * y * (y + 1.0) * z * (z - 1.0), 0.25 * (1.0 - x * x) * (2 * y + 1.0) * z * (z - 1.0), 0.25 *
        (1.0 - x * x) * y * (y + 1.0) * (2 * z - 1.0)],
    [0.25 * (2 * x + 1.0) * (1.0 - y * y) * z * (z - 1.0), 0.25 * x * (x + 1.0) * (-2 * y) * z * (z - 1.0), 0.25 * x *
        (x + 1.0) * (1.0 - y * y) * (2 * z - 1.0)],
    [0.25 * (-2 * x) * y * (y - 1.0) * z * (z - 1.0), 0.25 * (1.0 - x * x) * (2 * y - 1.0) * z * (z - 1.0), 0.25 *
        (1.0 - x * x) * y * (y - 1.0) * (2 * z - 1.0)],
    [0.25 * (2 * x - 1.0) * (1.0 - y * y) * z * (z + 1.0), 0.25 * x * (x - 1.0) * (-2 * y) * z * (z + 1.0), 0.25 * x *
        (x - 1.0) * (1.0 - y * y) * (2 * z + 1.0)],
    [0.25 * (-2 * x) * y * (y + 1.0) * z * (z + 1.0), 0.25 * (1.0 - x * x) * (2 * y + 1.0) * z * (z + 1.0), 0.25 *
        (1.0 - x * x) * y * (y + 1.0) * (2 * z + 1.0)],
    [0.25 * (2 * x + 1.0) * (1.0 - y * y) * z * (z + 1.0), 0.25 * x * (x + 1.0) * (-2 * y) * z * (z + 1.0), 0.25 * x *
        (x + 1.0) * (1.0 - y * y) * (2 * z + 1.0)],
    [0.25 * (-2 * x) * y * (y - 1.0) * z * (z + 1.0), 0.25 * (1.0 - x * x) * (2 * y - 1.0) * z * (z + 1.0), 0.25 *
        (1.0 - x * x) * y * (y - 1.0) * (2 * z + 1.0)],
    [0.25 * (2 * x - 1.0) * y * (y - 1.0) * (1.0 - z * z), 0.25 * x * (x - 1.0) * (2 * y - 1.0) * (1.0 - z * z), 0.25
        * x * (x - 1.0) * y * (y - 1.0) * (-2 * z)],
    [0.25 * (2 * x - 1.0) * y * (y + 1.0) * (1.0 - z * z), 0.25 * x * (x - 1.0) * (2 * y + 1.0) * (1.0 - z * z), 0.25
        * x * (x - 1.0) * y * (y + 1.0) * (-2 * z)],
    [0.25 * (2 * x + 1.0) * y * (y + 1.0) * (1.0 - z * z), 0.25 * x * (x + 1.0) * (2 * y + 1.0) * (1.0 - z * z), 0.25
        * x * (x + 1.0) * y * (y + 1.0) * (-2 * z)],
    [0.25 * (2 * x + 1.0) * y * (y - 1.0) * (1.0 - z * z), 0.25 * x * (x + 1.0) * (2 * y - 1.0) * (1.0 - z * z), 0.25
        * x * (x + 1.0) * y * (y - 1.0) * (-2 * z)],
    [0.5 * (-2 * x) * (1.0 - y * y) * z * (z - 1.0), 0.5 * (1.0 - x * x) * (-2 * y) * z * (z - 1.0), 0.5 * (1.0 - x *
        x) * (1.0 - y * y) * (2 * z - 1.0)],
    [0.5 * (2 * x - 1.0) * (1.0 - y * y) * (1.0 - z * z), 0.5 * x * (x - 1.0) * (-2 * y) * (1.0 - z * z), 0.5 * x * (x
        - 1.0) * (1.0 - y * y) * (-2 * z)],
    [0.5 * (-2 * x) * y * (y + 1.0) * (1.0 - z * z), 0.5 * (1.0 - x * x) * (2 * y + 1.0) * (1.0 - z * z), 0.5 * (1.0 -
        x * x) * y * (y + 1.0) * (-2 * z)],
    [0.5 * (2 * x + 1.0) * (1.0 - y * y) * (1.0 - z * z), 0.5 * x * (x + 1.0) * (-2 * y) * (1.0 - z * z), 0.5 * x * (x
        + 1.0) * (1.0 - y * y) * (-2 * z)],
    [0.5 * (-2 * x) * y * (y - 1.0) * (1.0 - z * z), 0.5 * (1.0 - x * x) * (2 * y - 1.0) * (1.0 - z * z), 0.5 * (1.0 -
        x * x) * y * (y - 1.0) * (-2 * z)],
    [0.5 * (-2 * x) * (1.0 - y * y) * z * (z + 1.0), 0.5 * (1.0 - x * x) * (-2 * y) * z * (z + 1.0), 0.5 * (1.0 - x *
        x) * (1.0 - y * y) * (2 * z + 1.0)],
    [(-2 * x) * (1.0 - y * y) * (1.0 - z * z), (1.0 - x * x) * (-2 * y) * (1.0 - z * z), (1.0 - x * x) * (1.0 - y * y)
        * (-2 * z)] ]

end MC
