import Verif.GaussElt

/-!
# Shape functions of the reference cells: prisms

Transcription of the functions `GaussInfo::...Init` of InterpKernelGaussCoords.cxx: `x`, `y`, `z` stand for `gc[0]`, `gc[1]`, `gc[2]`;
the literal `0.3333333333333333` of the reference coordinates is read `1 / 3`.
-/

namespace MC

local notation "x" => PExp.gc 0
local notation "y" => PExp.gc 1
local notation "z" => PExp.gc 2

/-- `GaussInfo::penta6aInit` (InterpKernelGaussCoords.cxx:3116-3188), reference nodes `PENTA6A_REF` (lines 90-92). -/
def ge_penta6a : RefElt where
  dim := 3
  ref :=
    [[-1, 1, 0], [-1, 0, 1], [-1, 0, 0], [1, 1, 0], [1, 0, 1], [1, 0, 0]]
  fn :=
    [ 0.5 * y * (1.0 - x),
    0.5 * z * (1.0 - x),
    0.5 * (1.0 - y - z) * (1.0 - x),
    0.5 * y * (x + 1.0),
    0.5 * z * (x + 1.0),
    0.5 * (1.0 - y - z) * (1.0 + x) ]
  dev :=
    [ [0.5 * y * (-1.0), 0.5 * (1.0 - x), 0.0],
    [0.5 * z * (-1.0), 0.0, 0.5 * (1.0 - x)],
    [0.5 * (1.0 - y - z) * (-1.0), 0.5 * (-1.0) * (1.0 - x), 0.5 * (-1.0) * (1.0 - x)],
    [0.5 * y, 0.5 * (x + 1.0), 0.0],
    [0.5 * z, 0.0, 0.5 * (x + 1.0)],
    [0.5 * (1.0 - y - z), 0.5 * (-1.0) * (1.0 + x), 0.5 * (-1.0) * (1.0 + x)] ]

/-- `GaussInfo::penta6bInit` (InterpKernelGaussCoords.cxx:3195-3264), reference nodes `PENTA6B_REF` (lines 94-96). -/
def ge_penta6b : RefElt where
  dim := 3
  ref :=
    [[-1, 1, 0], [-1, 0, 0], [-1, 0, 1], [1, 1, 0], [1, 0, 0], [1, 0, 1]]
  fn :=
    [ 0.5 * y * (1.0 - x),
    0.5 * (1.0 - y - z) * (1.0 - x),
    0.5 * z * (1.0 - x),
    0.5 * y * (x + 1.0),
    0.5 * (1.0 - y - z) * (1.0 + x),
    0.5 * z * (x + 1.0) ]
  dev :=
    [ [0.5 * y * (-1.0), 0.5 * (1.0 - x), 0.0],
    [0.5 * (1.0 - y - z) * (-1.0), 0.5 * (-1.0) * (1.0 - x), 0.5 * (-1.0) * (1.0 - x)],
    [0.5 * z * (-1.0), 0.0, 0.5 * (1.0 - x)],
    [0.5 * y, 0.5 * (x + 1.0), 0.0],
    [0.5 * (1.0 - y - z), 0.5 * (-1.0) * (1.0 + x), 0.5 * (-1.0) * (1.0 + x)],
    [0.5 * z, 0.0, 0.5 * (x + 1.0)] ]

/-- `GaussInfo::penta6DegTria3aInit` (InterpKernelGaussCoords.cxx:3270-3339). -/
def ge_penta6DegTria3a : RefElt where
  dim := 3
  ref :=
    [[-1, 1, 0], [-1, -1, 0], [1, -1, 0], [0, 0, 0], [0, 0, 0], [0, 0, 0]]
  fn :=
    [ 0.5 * (1.0 + y),
    -0.5 * (x + y),
    0.5 * (1.0 + x),
    0.0,
    0.0,
    0.0 ]
  dev :=
    [ [0.0, 0.5, 0.0],
    [-0.5, -0.5, 0.0],
    [0.5, 0.0, 0.0],
    [0.0, 0.0, 0.0],
    [0.0, 0.0, 0.0],
    [0.0, 0.0, 0.0] ]

/-- `GaussInfo::penta6DegTria3bInit` (InterpKernelGaussCoords.cxx:3345-3414). -/
def ge_penta6DegTria3b : RefElt where
  dim := 3
  ref :=
    [[0, 0, 0], [1, 0, 0], [0, 1, 0], [0, 0, 0], [0, 0, 0], [0, 0, 0]]
  fn :=
    [ 1.0 - x - y,
    x,
    y,
    0.0,
    0.0,
    0.0 ]
  dev :=
    [ [-1.0, -1.0, 0.0],
    [1.0, 0.0, 0.0],
    [0.0, 1.0, 0.0],
    [0.0, 0.0, 0.0],
    [0.0, 0.0, 0.0],
    [0.0, 0.0, 0.0] ]

/-- `GaussInfo::penta15aInit` (InterpKernelGaussCoords.cxx:3421-3586), reference nodes `PENTA15A_REF` (lines 98-101).
-/
def ge_penta15a : RefElt where
  dim := 3
  ref :=
    [[-1, 1, 0], [-1, 0, 1], [-1, 0, 0], [1, 1, 0], [1, 0, 1], [1, 0, 0], [-1, 1 / 2, 1 / 2], [-1, 0, 1 / 2], [-1, 1 /
        2, 0], [0, 1, 0], [0, 0, 1], [0, 0, 0], [1, 1 / 2, 1 / 2], [1, 0, 1 / 2], [1, 1 / 2, 0]]
  fn :=
    [ 0.5 * y * (1.0 - x) * (2.0 * y - 2.0 - x),
    0.5 * z * (1.0 - x) * (2.0 * z - 2.0 - x),
    0.5 * (x - 1.0) * (1.0 - y - z) * (x + 2.0 * y + 2.0 * z),
    0.5 * y * (1.0 + x) * (2.0 * y - 2.0 + x),
    0.5 * z * (1.0 + x) * (2.0 * z - 2.0 + x),
    0.5 * (-x - 1.0) * (1.0 - y - z) * (-x + 2.0 * y + 2.0 * z),
    2.0 * y * z * (1.0 - x),
    2.0 * z * (1.0 - y - z) * (1.0 - x),
    2.0 * y * (1.0 - y - z) * (1.0 - x),
    y * (1.0 - x * x),
    z * (1.0 - x * x),
    (1.0 - y - z) * (1.0 - x * x),
    2.0 * y * z * (1.0 + x),
    2.0 * z * (1.0 - y - z) * (1.0 + x),
    2.0 * y * (1.0 - y - z) * (1.0 + x) ]
  dev :=
    [ [0.5 * y * (2 * x - 2 * y + 1.0), (1.0 - x) * (2.0 * y - 1 - 0.5 * x), 0.0],
    [0.5 * z * (2 * x - 2 * z + 1.0), 0.0, (1.0 - x) * (2.0 * z - 1 - 0.5 * x)],
    [0.5 * (1.0 - y - z) * (2 * x - 1.0 + 2 * y + 2 * z), 0.5 * (x - 1.0) * (-4 * y - x - 4 * z + 2.0), 0.5 * (x -
        1.0) * (-4 * z - 4 * y - x + 2.0)],
    [0.5 * y * (2 * x + 2 * y - 1.0), (1.0 + x) * (2.0 * y - 1.0 + 0.5 * x), 0.0],
    [0.5 * z * (2 * x + 2 * z - 1.0), 0.0, (1.0 + x) * (2.0 * z - 1.0 + 0.5 * x)],
    [0.5 * (1.0 - y - z) * (2 * x - 2.0 * y - 2.0 * z + 1.0), 0.5 * (-x - 1.0) * (-4.0 * y + x - 4.0 * z + 2.0), 0.5 *
        (-x - 1.0) * (-4.0 * z - 4 * y + x + 2.0)],
    [-2.0 * y * z, 2.0 * z * (1.0 - x), 2.0 * y * (1.0 - x)],
    [-2.0 * z * (1.0 - y - z), -2.0 * z * (1.0 - x), (-4 * z - 2 * y + 2.0) * (1.0 - x)],
    [-2.0 * y * (1.0 - y - z), (-4 * y - 2 * z + 2) * (1.0 - x), -2.0 * y * (1.0 - x)],
    [y * (-2.0 * x), (1.0 - x * x), 0.0],
    [-2.0 * z * x, 0.0, (1.0 - x * x)],
    [-2.0 * (1.0 - y - z) * x, -1.0 * (1.0 - x * x), -1.0 * (1.0 - x * x)],
    [2.0 * y * z, 2.0 * z * (1.0 + x), 2.0 * y * (1.0 + x)],
    [2.0 * z * (1.0 - y - z), -2.0 * z * (1.0 + x), (2.0 - 2.0 * y - 4.0 * z) * (1.0 + x)],
    [2.0 * y * (1.0 - y - z), (2.0 - 4 * y - 2 * z) * (1.0 + x), -2.0 * y * (1.0 + x)] ]

/-- `GaussInfo::penta15bInit` (InterpKernelGaussCoords.cxx:3593-3757), reference nodes `PENTA15B_REF` (lines 103-106).
-/
def ge_penta15b : RefElt where
  dim := 3
  ref :=
    [[-1, 1, 0], [-1, 0, 0], [-1, 0, 1], [1, 1, 0], [1, 0, 0], [1, 0, 1], [-1, 1 / 2, 0], [-1, 0, 1 / 2], [-1, 1 / 2,
        1 / 2], [1, 1 / 2, 0], [1, 0, 1 / 2], [1, 1 / 2, 1 / 2], [0, 1, 0], [0, 0, 0], [0, 0, 1]]
  fn :=
    [ 0.5 * y * (1.0 - x) * (2.0 * y - 2.0 - x),
    0.5 * (x - 1.0) * (1.0 - y - z) * (x + 2.0 * y + 2.0 * z),
    0.5 * z * (1.0 - x) * (2.0 * z - 2.0 - x),
    0.5 * y * (1.0 + x) * (2.0 * y - 2.0 + x),
    0.5 * (-x - 1.0) * (1.0 - y - z) * (-x + 2.0 * y + 2.0 * z),
    0.5 * z * (1.0 + x) * (2.0 * z - 2.0 + x),
    2.0 * y * (1.0 - y - z) * (1.0 - x),
    2.0 * z * (1.0 - y - z) * (1.0 - x),
    2.0 * y * z * (1.0 - x),
    2.0 * y * (1.0 - y - z) * (1.0 + x),
    2.0 * z * (1.0 - y - z) * (1.0 + x),
    2.0 * y * z * (1.0 + x),
    y * (1.0 - x * x),
    (1.0 - y - z) * (1.0 - x * x),
    z * (1.0 - x * x) ]
  dev :=
    [ [0.5 * y * (2 * x - 2 * y + 1.0), (1.0 - x) * (2.0 * y - 1 - 0.5 * x), 0.0],
    [0.5 * (1.0 - y - z) * (2 * x - 1.0 + 2 * y + 2 * z), 0.5 * (x - 1.0) * (-4 * y - x - 4 * z + 2.0), 0.5 * (x -
        1.0) * (-4 * z - 4 * y - x + 2.0)],
    [0.5 * z * (2 * x - 2 * z + 1.0), 0.0, (1.0 - x) * (2.0 * z - 1 - 0.5 * x)],
    [0.5 * y * (2 * x + 2 * y - 1.0), (1.0 + x) * (2.0 * y - 1.0 + 0.5 * x), 0.0],
    [0.5 * (1.0 - y - z) * (2 * x - 2.0 * y - 2.0 * z + 1.0), 0.5 * (-x - 1.0) * (-4.0 * y + x - 4.0 * z + 2.0), 0.5 *
        (-x - 1.0) * (-4.0 * z - 4 * y + x + 2.0)],
    [0.5 * z * (2 * x + 2 * z - 1.0), 0.0, (1.0 + x) * (2.0 * z - 1.0 + 0.5 * x)],
    [-2.0 * y * (1.0 - y - z), (-4 * y - 2 * z + 2) * (1.0 - x), -2.0 * y * (1.0 - x)],
    [-2.0 * z * (1.0 - y - z), -2.0 * z * (1.0 - x), (-4 * z - 2 * y + 2.0) * (1.0 - x)],
    [-2.0 * y * z, 2.0 * z * (1.0 - x), 2.0 * y * (1.0 - x)],
    [2.0 * y * (1.0 - y - z), (2.0 - 4 * y - 2 * z) * (1.0 + x), -2.0 * y * (1.0 + x)],
    [2.0 * z * (1.0 - y - z), -2.0 * z * (1.0 + x), (2.0 - 2.0 * y - 4.0 * z) * (1.0 + x)],
    [2.0 * y * z, 2.0 * z * (1.0 + x), 2.0 * y * (1.0 + x)],
    [y * (-2.0 * x), (1.0 - x * x), 0.0],
    [-2.0 * (1.0 - y - z) * x, -1.0 * (1.0 - x * x), -1.0 * (1.0 - x * x)],
    [-2.0 * z * x, 0.0, (1.0 - x * x)] ]

/-- `GaussInfo::penta18aInit` (InterpKernelGaussCoords.cxx:3760-3954), reference nodes `PENTA18A_REF` (lines 108-111).
-/
def ge_penta18a : RefElt where
  dim := 3
  ref :=
    [[-1, 1, 0], [-1, 0, 1], [-1, 0, 0], [1, 1, 0], [1, 0, 1], [1, 0, 0], [-1, 1 / 2, 1 / 2], [-1, 0, 1 / 2], [-1, 1 /
        2, 0], [0, 1, 0], [0, 0, 1], [0, 0, 0], [1, 1 / 2, 1 / 2], [1, 0, 1 / 2], [1, 1 / 2, 0], [0, 1 / 2, 1 / 2],
        [0, 0, 1 / 2], [0, 1 / 2, 0]]
  fn :=
    [ x * y * (x - 1.0) * (2.0 * y - 1.0) / 2.0,
    x * z * (x - 1.0) * (2.0 * z - 1.0) / 2.0,
    x * (x - 1.0) * (z + y - 1.0) * (2.0 * z + 2.0 * y - 1.0) / 2.0,
    x * y * (x + 1.0) * (2.0 * y - 1.0) / 2.0,
    x * z * (x + 1.0) * (2.0 * z - 1.0) / 2.0,
    x * (x + 1.0) * (z + y - 1.0) * (2.0 * z + 2.0 * y - 1.0) / 2.0,
    2.0 * x * y * z * (x - 1.0),
    -2.0 * x * z * (x - 1.0) * (z + y - 1.0),
    -2.0 * x * y * (x - 1.0) * (z + y - 1.0),
    -y * (x - 1.0) * (x + 1.0) * (2.0 * y - 1.0),
    -z * (x - 1.0) * (x + 1.0) * (2.0 * z - 1.0),
    -(x - 1.0) * (x + 1.0) * (z + y - 1.0) * (2.0 * z + 2.0 * y - 1.0),
    2.0 * x * y * z * (x + 1.0),
    -2.0 * x * z * (x + 1.0) * (z + y - 1.0),
    -2.0 * x * y * (x + 1.0) * (z + y - 1.0),
    -4.0 * y * z * (x - 1.0) * (x + 1.0),
    4.0 * z * (x - 1.0) * (x + 1.0) * (z + y - 1.0),
    4.0 * y * (x - 1.0) * (x + 1.0) * (z + y - 1.0) ]
  dev :=
    [ [y * (2.0 * x - 1.0) * (2.0 * y - 1.0) / 2.0, x * (x - 1.0) * (4.0 * y - 1.0) / 2.0, 0.0],
    [z * (2.0 * x - 1.0) * (2.0 * z - 1.0) / 2.0, 0.0, x * (x - 1.0) * (4.0 * z - 1.0) / 2.0],
    [(2.0 * x - 1.0) * (z + y - 1.0) * (2.0 * z + 2.0 * y - 1.0) / 2.0, x * (x - 1.0) * (4.0 * z + 4.0 * y - 3.0) /
        2.0, x * (x - 1.0) * (4.0 * z + 4.0 * y - 3.0) / 2.0],
    [y * (2.0 * x + 1.0) * (2.0 * y - 1.0) / 2.0, x * (x + 1.0) * (4.0 * y - 1.0) / 2.0, 0.0],
    [z * (2.0 * x + 1.0) * (2.0 * z - 1.0) / 2.0, 0.0, x * (x + 1.0) * (4.0 * z - 1.0) / 2.0],
    [(2.0 * x + 1.0) * (z + y - 1.0) * (2.0 * z + 2.0 * y - 1.0) / 2.0, x * (x + 1.0) * (4.0 * z + 4.0 * y - 3.0) /
        2.0, x * (x + 1.0) * (4.0 * z + 4.0 * y - 3.0) / 2.0],
    [2.0 * y * z * (2.0 * x - 1.0), 2.0 * x * z * (x - 1.0), 2.0 * x * y * (x - 1.0)],
    [-2.0 * z * (2.0 * x - 1.0) * (z + y - 1.0), -2.0 * x * z * (x - 1.0), -2.0 * x * (x - 1.0) * (2.0 * z + y -
        1.0)],
    [-2.0 * y * (2.0 * x - 1.0) * (z + y - 1.0), -2.0 * x * (x - 1.0) * (2.0 * y + z - 1.0), -2.0 * x * y * (x -
        1.0)],
    [-2.0 * x * y * (2.0 * y - 1.0), -(x - 1.0) * (x + 1.0) * (4.0 * y - 1.0), 0.0],
    [-2.0 * x * z * (2.0 * z - 1.0), 0.0, -(x - 1.0) * (x + 1.0) * (4.0 * z - 1.0)],
    [-2.0 * x * (z + y - 1.0) * (2.0 * z + 2.0 * y - 1.0), -(x - 1.0) * (x + 1.0) * (4.0 * z + 4.0 * y - 3.0), -(x -
        1.0) * (x + 1.0) * (4.0 * z + 4.0 * y - 3.0)],
    [2.0 * y * z * (2.0 * x + 1.0), 2.0 * x * z * (x + 1.0), 2.0 * x * y * (x + 1.0)],
    [-2.0 * z * (2.0 * x + 1.0) * (z + y - 1.0), -2.0 * x * z * (x + 1.0), -2.0 * x * (x + 1.0) * (2.0 * z + y -
        1.0)],
    [-2.0 * y * (2.0 * x + 1.0) * (z + y - 1.0), -2.0 * x * (x + 1.0) * (2.0 * y + z - 1.0), -2.0 * x * y * (x +
        1.0)],
    [-8.0 * x * y * z, -4.0 * z * (x - 1.0) * (x + 1.0), -4.0 * y * (x - 1.0) * (x + 1.0)],
    [8.0 * x * z * (z + y - 1.0), 4.0 * z * (x - 1.0) * (x + 1.0), 4.0 * (x - 1.0) * (x + 1.0) * (2.0 * z + y - 1.0)],
    [8.0 * x * y * (z + y - 1.0), 4.0 * (x - 1.0) * (x + 1.0) * (2.0 * y + z - 1.0), 4.0 * y * (x - 1.0) * (x + 1.0)]
        ]

/-- `GaussInfo::penta18bInit` (InterpKernelGaussCoords.cxx:3957-4151), reference nodes `PENTA18B_REF` (lines 113-116).
-/
def ge_penta18b : RefElt where
  dim := 3
  ref :=
    [[-1, 1, 0], [-1, 0, 0], [-1, 0, 1], [1, 1, 0], [1, 0, 0], [1, 0, 1], [-1, 1 / 2, 0], [-1, 0, 1 / 2], [-1, 1 / 2,
        1 / 2], [1, 1 / 2, 0], [1, 0, 1 / 2], [1, 1 / 2, 1 / 2], [0, 1, 0], [0, 0, 0], [0, 0, 1], [0, 1 / 2, 0], [0,
        0, 1 / 2], [0, 1 / 2, 1 / 2]]
  fn :=
    [ x * y * (x - 1.0) * (2.0 * y - 1.0) / 2.0,
    x * (x - 1.0) * (z + y - 1.0) * (2.0 * z + 2.0 * y - 1.0) / 2.0,
    x * z * (x - 1.0) * (2.0 * z - 1.0) / 2.0,
    x * y * (x + 1.0) * (2.0 * y - 1.0) / 2.0,
    x * (x + 1.0) * (z + y - 1.0) * (2.0 * z + 2.0 * y - 1.0) / 2.0,
    x * z * (x + 1.0) * (2.0 * z - 1.0) / 2.0,
    -2.0 * x * y * (x - 1.0) * (z + y - 1.0),
    -2.0 * x * z * (x - 1.0) * (z + y - 1.0),
    2.0 * x * y * z * (x - 1.0),
    -2.0 * x * y * (x + 1.0) * (z + y - 1.0),
    -2.0 * x * z * (x + 1.0) * (z + y - 1.0),
    2.0 * x * y * z * (x + 1.0),
    -y * (x - 1.0) * (x + 1.0) * (2.0 * y - 1.0),
    -(x - 1.0) * (x + 1.0) * (z + y - 1.0) * (2.0 * z + 2.0 * y - 1.0),
    -z * (x - 1.0) * (x + 1.0) * (2.0 * z - 1.0),
    4.0 * y * (x - 1.0) * (x + 1.0) * (z + y - 1.0),
    4.0 * z * (x - 1.0) * (x + 1.0) * (z + y - 1.0),
    -4.0 * y * z * (x - 1.0) * (x + 1.0) ]
  dev :=
    [ [y * (2.0 * x - 1.0) * (2.0 * y - 1.0) / 2.0, x * (x - 1.0) * (4.0 * y - 1.0) / 2.0, 0.0],
    [(2.0 * x - 1.0) * (z + y - 1.0) * (2.0 * z + 2.0 * y - 1.0) / 2.0, x * (x - 1.0) * (4.0 * z + 4.0 * y - 3.0) /
        2.0, x * (x - 1.0) * (4.0 * z + 4.0 * y - 3.0) / 2.0],
    [z * (2.0 * x - 1.0) * (2.0 * z - 1.0) / 2.0, 0.0, x * (x - 1.0) * (4.0 * z - 1.0) / 2.0],
    [y * (2.0 * x + 1.0) * (2.0 * y - 1.0) / 2.0, x * (x + 1.0) * (4.0 * y - 1.0) / 2.0, 0.0],
    [(2.0 * x + 1.0) * (z + y - 1.0) * (2.0 * z + 2.0 * y - 1.0) / 2.0, x * (x + 1.0) * (4.0 * z + 4.0 * y - 3.0) /
        2.0, x * (x + 1.0) * (4.0 * z + 4.0 * y - 3.0) / 2.0],
    [z * (2.0 * x + 1.0) * (2.0 * z - 1.0) / 2.0, 0.0, x * (x + 1.0) * (4.0 * z - 1.0) / 2.0],
    [-2.0 * y * (2.0 * x - 1.0) * (z + y - 1.0), -2.0 * x * (x - 1.0) * (2.0 * y + z - 1.0), -2.0 * x * y * (x -
        1.0)],
    [-2.0 * z * (2.0 * x - 1.0) * (z + y - 1.0), -2.0 * x * z * (x - 1.0), -2.0 * x * (x - 1.0) * (2.0 * z + y -
        1.0)],
    [2.0 * y * z * (2.0 * x - 1.0), 2.0 * x * z * (x - 1.0), 2.0 * x * y * (x - 1.0)],
    [-2.0 * y * (2.0 * x + 1.0) * (z + y - 1.0), -2.0 * x * (x + 1.0) * (2.0 * y + z - 1.0), -2.0 * x * y * (x +
        1.0)],
    [-2.0 * z * (2.0 * x + 1.0) * (z + y - 1.0), -2.0 * x * z * (x + 1.0), -2.0 * x * (x + 1.0) * (2.0 * z + y -
        1.0)],
    [2.0 * y * z * (2.0 * x + 1.0), 2.0 * x * z * (x + 1.0), 2.0 * x * y * (x + 1.0)],
    [-2.0 * x * y * (2.0 * y - 1.0), -(x - 1.0) * (x + 1.0) * (4.0 * y - 1.0), 0.0],
    [-2.0 * x * (z + y - 1.0) * (2.0 * z + 2.0 * y - 1.0), -(x - 1.0) * (x + 1.0) * (4.0 * z + 4.0 * y - 3.0), -(x -
        1.0) * (x + 1.0) * (4.0 * z + 4.0 * y - 3.0)],
    [-2.0 * x * z * (2.0 * z - 1.0), 0.0, -(x - 1.0) * (x + 1.0) * (4.0 * z - 1.0)],
    [8.0 * x * y * (z + y - 1.0), 4.0 * (x - 1.0) * (x + 1.0) * (2.0 * y + z - 1.0), 4.0 * y * (x - 1.0) * (x + 1.0)],
    [8.0 * x * z * (z + y - 1.0), 4.0 * z * (x - 1.0) * (x + 1.0), 4.0 * (x - 1.0) * (x + 1.0) * (2.0 * z + y - 1.0)],
    [-8.0 * x * y * z, -4.0 * z * (x - 1.0) * (x + 1.0), -4.0 * y * (x - 1.0) * (x + 1.0)] ]

end MC
