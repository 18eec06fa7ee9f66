import Verif.GaussElt

/-!
# Shape functions of the reference cells: tetrahedra and pyramids

Transcription of the functions `GaussInfo::...Init` of InterpKernelGaussCoords.cxx: `x`, `y`, `z` stand for `gc[0]`, `gc[1]`, `gc[2]`;
the literal `0.3333333333333333` of the reference coordinates is read `1 / 3`.
-/

namespace MC

local notation "x" => PExp.gc 0
local notation "y" => PExp.gc 1
local notation "z" => PExp.gc 2

/-- `GaussInfo::tetra4aInit` (InterpKernelGaussCoords.cxx:1939-1988), reference nodes `TETRA4A_REF` (lines 68-68). -/
def ge_tetra4a : RefElt where
  dim := 3
  ref :=
    [[0, 1, 0], [0, 0, 1], [0, 0, 0], [1, 0, 0]]
  fn :=
    [ y,
    z,
    1.0 - x - y - z,
    x ]
  dev :=
    [ [0.0, 1.0, 0.0],
    [0.0, 0.0, 1.0],
    [-1.0, -1.0, -1.0],
    [1.0, 0.0, 0.0] ]

/-- `GaussInfo::tetra4bInit` (InterpKernelGaussCoords.cxx:1995-2044), reference nodes `TETRA4B_REF` (lines 70-70). -/
def ge_tetra4b : RefElt where
  dim := 3
  ref :=
    [[0, 1, 0], [0, 0, 0], [0, 0, 1], [1, 0, 0]]
  fn :=
    [ y,
    1.0 - x - y - z,
    z,
    x ]
  dev :=
    [ [0.0, 1.0, 0.0],
    [-1.0, -1.0, -1.0],
    [0.0, 0.0, 1.0],
    [1.0, 0.0, 0.0] ]

/-- `GaussInfo::tetra10aInit` (InterpKernelGaussCoords.cxx:2051-2161), reference nodes `TETRA10A_REF` (lines 72-73).
-/
def ge_tetra10a : RefElt where
  dim := 3
  ref :=
    [[0, 1, 0], [0, 0, 1], [0, 0, 0], [1, 0, 0], [0, 1 / 2, 1 / 2], [0, 0, 1 / 2], [0, 1 / 2, 0], [1 / 2, 1 / 2, 0],
        [1 / 2, 0, 1 / 2], [1 / 2, 0, 0]]
  fn :=
    [ y * (2.0 * y - 1.0),
    z * (2.0 * z - 1.0),
    (1.0 - x - y - z) * (1.0 - 2.0 * x - 2.0 * y - 2.0 * z),
    x * (2.0 * x - 1.0),
    4.0 * y * z,
    4.0 * z * (1.0 - x - y - z),
    4.0 * y * (1.0 - x - y - z),
    4.0 * x * y,
    4.0 * x * z,
    4.0 * x * (1.0 - x - y - z) ]
  dev :=
    [ [0.0, 4.0 * y - 1.0, 0.0],
    [0.0, 0.0, 4.0 * z - 1.0],
    [1.0 - 4.0 * (1 - x - y - z), 1.0 - 4.0 * (1 - x - y - z), 1.0 - 4.0 * (1 - x - y - z)],
    [4.0 * x - 1.0, 0.0, 0.0],
    [0.0, 4.0 * z, 4.0 * y],
    [-4.0 * z, -4.0 * z, 4.0 * ((1 - x - y - z) - z)],
    [-4.0 * y, 4.0 * ((1 - x - y - z) - y), -4.0 * y],
    [4.0 * y, 4.0 * x, 0.0],
    [4.0 * z, 0.0, 4.0 * x],
    [4.0 * ((1 - x - y - z) - x), -4.0 * x, -4.0 * x] ]

/-- `GaussInfo::tetra10bInit` (InterpKernelGaussCoords.cxx:2168-2277), reference nodes `TETRA10B_REF` (lines 75-76).
-/
def ge_tetra10b : RefElt where
  dim := 3
  ref :=
    [[0, 1, 0], [0, 0, 0], [0, 0, 1], [1, 0, 0], [0, 1 / 2, 0], [0, 0, 1 / 2], [0, 1 / 2, 1 / 2], [1 / 2, 1 / 2, 0],
        [1 / 2, 0, 0], [1 / 2, 0, 1 / 2]]
  fn :=
    [ y * (2.0 * y - 1.0),
    (1.0 - x - y - z) * (1.0 - 2.0 * x - 2.0 * y - 2.0 * z),
    z * (2.0 * z - 1.0),
    x * (2.0 * x - 1.0),
    4.0 * y * (1.0 - x - y - z),
    4.0 * z * (1.0 - x - y - z),
    4.0 * y * z,
    4.0 * x * y,
    4.0 * x * (1.0 - x - y - z),
    4.0 * x * z ]
  dev :=
    [ [0.0, 4.0 * y - 1.0, 0.0],
    [1.0 - 4.0 * (1 - x - y - z), 1.0 - 4.0 * (1 - x - y - z), 1.0 - 4.0 * (1 - x - y - z)],
    [0.0, 0.0, 4.0 * z - 1.0],
    [4.0 * x - 1.0, 0.0, 0.0],
    [-4.0 * y, 4.0 * ((1 - x - y - z) - y), -4.0 * y],
    [-4.0 * z, -4.0 * z, 4.0 * ((1 - x - y - z) - z)],
    [0.0, 4.0 * z, 4.0 * y],
    [4.0 * y, 4.0 * x, 0.0],
    [4.0 * ((1 - x - y - z) - x), -4.0 * x, -4.0 * x],
    [4.0 * z, 0.0, 4.0 * x] ]

/-- `GaussInfo::pyra5aInit` (InterpKernelGaussCoords.cxx:2284-2387), reference nodes `PYRA5A_REF` (lines 78-78). -/
def ge_pyra5a : RefElt where
  dim := 3
  ref :=
    [[1, 0, 0], [0, 1, 0], [-1, 0, 0], [0, -1, 0], [0, 0, 1]]
  fn :=
    [ 0.25 * (-x + y + z - 1.0) * (-x - y + z - 1.0) / (1.0 - z),
    0.25 * (-x - y + z - 1.0) * (x - y + z - 1.0) / (1.0 - z),
    0.25 * (x + y + z - 1.0) * (x - y + z - 1.0) / (1.0 - z),
    0.25 * (x + y + z - 1.0) * (-x + y + z - 1.0) / (1.0 - z),
    z ]
  dev :=
    [ [(-(-x + y + z - 1.0) - (-x - y + z - 1.0)) / ((1.0 - z) * 4.0), ((-x - y + z - 1.0) - (-x + y + z - 1.0)) / ((1.0
        - z) * 4.0), ((-x + y + z - 1.0) + (-x - y + z - 1.0) + (-x + y + z - 1.0) * (-x - y + z - 1.0) / (1.0 - z)) /
        ((1.0 - z) * 4.0)],
    [((-x - y + z - 1.0) - (x - y + z - 1.0)) / ((1.0 - z) * 4.0), (-(-x - y + z - 1.0) - (x - y + z - 1.0)) / ((1.0 -
        z) * 4.0), ((-x - y + z - 1.0) + (x - y + z - 1.0) + (-x - y + z - 1.0) * (x - y + z - 1.0) / (1.0 - z)) /
        ((1.0 - z) * 4.0)],
    [((x + y + z - 1.0) + (x - y + z - 1.0)) / ((1.0 - z) * 4.0), ((x - y + z - 1.0) - (x + y + z - 1.0)) / ((1.0 - z)
        * 4.0), ((x - y + z - 1.0) + (x + y + z - 1.0) + (x - y + z - 1.0) * (x + y + z - 1.0) / (1.0 - z)) / ((1.0 -
        z) * 4.0)],
    [((-x + y + z - 1.0) - (x + y + z - 1.0)) / ((1.0 - z) * 4.0), ((x + y + z - 1.0) + (-x + y + z - 1.0)) / ((1.0 -
        z) * 4.0), ((x + y + z - 1.0) + (-x + y + z - 1.0) + (x + y + z - 1.0) * (-x + y + z - 1.0) / (1.0 - z)) /
        ((1.0 - z) * 4.0)],
    [0.0, 0.0, 1.0] ]
  apex := some
    ([0, 0, 0, 0, 1],
     [[1 / 2, 0, -1 / 4], [0, 1 / 2, -1 / 4], [-1 / 2, 0, -1 / 4], [0, -1 / 2, -1 / 4], [0, 0, 1]])

/-- `GaussInfo::pyra5bInit` (InterpKernelGaussCoords.cxx:2394-2497), reference nodes `PYRA5B_REF` (lines 80-80). -/
def ge_pyra5b : RefElt where
  dim := 3
  ref :=
    [[1, 0, 0], [0, -1, 0], [-1, 0, 0], [0, 1, 0], [0, 0, 1]]
  fn :=
    [ 0.25 * (-x + y + z - 1.0) * (-x - y + z - 1.0) / (1.0 - z),
    0.25 * (x + y + z - 1.0) * (-x + y + z - 1.0) / (1.0 - z),
    0.25 * (x + y + z - 1.0) * (x - y + z - 1.0) / (1.0 - z),
    0.25 * (-x - y + z - 1.0) * (x - y + z - 1.0) / (1.0 - z),
    z ]
  dev :=
    [ [(-(-x + y + z - 1.0) - (-x - y + z - 1.0)) / ((1.0 - z) * 4.0), ((-x - y + z - 1.0) - (-x + y + z - 1.0)) / ((1.0
        - z) * 4.0), ((-x + y + z - 1.0) + (-x - y + z - 1.0) + (-x + y + z - 1.0) * (-x - y + z - 1.0) / (1.0 - z)) /
        ((1.0 - z) * 4.0)],
    [((-x + y + z - 1.0) - (x + y + z - 1.0)) / ((1.0 - z) * 4.0), ((x + y + z - 1.0) + (-x + y + z - 1.0)) / ((1.0 -
        z) * 4.0), ((x + y + z - 1.0) + (-x + y + z - 1.0) + (x + y + z - 1.0) * (-x + y + z - 1.0) / (1.0 - z)) /
        ((1.0 - z) * 4.0)],
    [((x + y + z - 1.0) + (x - y + z - 1.0)) / ((1.0 - z) * 4.0), ((x - y + z - 1.0) - (x + y + z - 1.0)) / ((1.0 - z)
        * 4.0), ((x - y + z - 1.0) + (x + y + z - 1.0) + (x - y + z - 1.0) * (x + y + z - 1.0) / (1.0 - z)) / ((1.0 -
        z) * 4.0)],
    [((-x - y + z - 1.0) - (x - y + z - 1.0)) / ((1.0 - z) * 4.0), (-(-x - y + z - 1.0) - (x - y + z - 1.0)) / ((1.0 -
        z) * 4.0), ((-x - y + z - 1.0) + (x - y + z - 1.0) + (-x - y + z - 1.0) * (x - y + z - 1.0) / (1.0 - z)) /
        ((1.0 - z) * 4.0)],
    [0.0, 0.0, 1.0] ]
  apex := some
    ([0, 0, 0, 0, 1],
     [[1 / 2, 0, -1 / 4], [0, -1 / 2, -1 / 4], [-1 / 2, 0, -1 / 4], [0, 1 / 2, -1 / 4], [0, 0, 1]])

/-- `GaussInfo::pyra13aInit` (InterpKernelGaussCoords.cxx:2504-2803), reference nodes `PYRA13A_REF` (lines 82-84). -/
def ge_pyra13a : RefElt where
  dim := 3
  ref :=
    [[1, 0, 0], [0, 1, 0], [-1, 0, 0], [0, -1, 0], [0, 0, 1], [1 / 2, 1 / 2, 0], [-1 / 2, 1 / 2, 0], [-1 / 2, -1 / 2,
        0], [1 / 2, -1 / 2, 0], [1 / 2, 0, 1 / 2], [0, 1 / 2, 1 / 2], [-1 / 2, 0, 1 / 2], [0, -1 / 2, 1 / 2]]
  fn :=
    [ 0.5 * (-x + y + z - 1.0) * (-x - y + z - 1.0) * (x - 0.5) / (1.0 - z),
    0.5 * (-x - y + z - 1.0) * (x - y + z - 1.0) * (y - 0.5) / (1.0 - z),
    0.5 * (x - y + z - 1.0) * (x + y + z - 1.0) * (-x - 0.5) / (1.0 - z),
    0.5 * (x + y + z - 1.0) * (-x + y + z - 1.0) * (-y - 0.5) / (1.0 - z),
    2.0 * z * (z - 0.5),
    -0.5 * (-x + y + z - 1.0) * (-x - y + z - 1.0) * (x - y + z - 1.0) / (1.0 - z),
    -0.5 * (-x - y + z - 1.0) * (x - y + z - 1.0) * (x + y + z - 1.0) / (1.0 - z),
    -0.5 * (x - y + z - 1.0) * (x + y + z - 1.0) * (-x + y + z - 1.0) / (1.0 - z),
    -0.5 * (x + y + z - 1.0) * (-x + y + z - 1.0) * (-x - y + z - 1.0) / (1.0 - z),
    z * (-x + y + z - 1.0) * (-x - y + z - 1.0) / (1.0 - z),
    z * (-x - y + z - 1.0) * (x - y + z - 1.0) / (1.0 - z),
    z * (x - y + z - 1.0) * (x + y + z - 1.0) / (1.0 - z),
    z * (x + y + z - 1.0) * (-x + y + z - 1.0) / (1.0 - z) ]
  dev :=
    [ [((-x + y + z - 1.0) * (-x - y + z - 1.0) - ((-x + y + z - 1.0) + (-x - y + z - 1.0)) * (x - 0.5)) / (2.0 * (1.0 -
        z)), ((-x - y + z - 1.0) - (-x + y + z - 1.0)) * (x - 0.5) / (2.0 * (1.0 - z)), ((-x + y + z - 1.0) + (-x - y
        + z - 1.0) + (-x + y + z - 1.0) * (-x - y + z - 1.0) / (1.0 - z)) * (x - 0.5) / (2.0 * (1.0 - z))],
    [((-x - y + z - 1.0) - (x - y + z - 1.0)) * (y - 0.5) / (2.0 * (1.0 - z)), ((-x - y + z - 1.0) * (x - y + z - 1.0)
        - ((-x - y + z - 1.0) + (x - y + z - 1.0)) * (y - 0.5)) / (2.0 * (1.0 - z)), ((-x - y + z - 1.0) + (x - y + z
        - 1.0) + (-x - y + z - 1.0) * (x - y + z - 1.0) / (1.0 - z)) * (y - 0.5) / (2.0 * (1.0 - z))],
    [(((x + y + z - 1.0) + (x - y + z - 1.0)) * (-x - 0.5) - (x - y + z - 1.0) * (x + y + z - 1.0)) / (2.0 * (1.0 -
        z)), ((x - y + z - 1.0) - (x + y + z - 1.0)) * (-x - 0.5) / (2.0 * (1.0 - z)), ((x + y + z - 1.0) + (x - y + z
        - 1.0) + (x + y + z - 1.0) * (x - y + z - 1.0) / (1.0 - z)) * (-x - 0.5) / (2.0 * (1.0 - z))],
    [((-x + y + z - 1.0) - (x + y + z - 1.0)) * (-y - 0.5) / (2.0 * (1.0 - z)), (((-x + y + z - 1.0) + (x + y + z -
        1.0)) * (-y - 0.5) - (x + y + z - 1.0) * (-x + y + z - 1.0)) / (2.0 * (1.0 - z)), ((-x + y + z - 1.0) + (x + y
        + z - 1.0) + (x + y + z - 1.0) * (-x + y + z - 1.0) / (1.0 - z)) * (-y - 0.5) / (2.0 * (1.0 - z))],
    [0.0, 0.0, 4.0 * z - 1.0],
    [((-x - y + z - 1.0) * (x - y + z - 1.0) + (-x + y + z - 1.0) * (x - y + z - 1.0) - (-x + y + z - 1.0) * (-x - y +
        z - 1.0)) / (2.0 * (1.0 - z)), ((-x + y + z - 1.0) * (x - y + z - 1.0) + (-x + y + z - 1.0) * (-x - y + z -
        1.0) - (-x - y + z - 1.0) * (x - y + z - 1.0)) / (2.0 * (1.0 - z)), -((-x - y + z - 1.0) * (x - y + z - 1.0) +
        (-x + y + z - 1.0) * (x - y + z - 1.0) + (-x + y + z - 1.0) * (-x - y + z - 1.0) + (-x + y + z - 1.0) * (-x -
        y + z - 1.0) * (x - y + z - 1.0) / (1.0 - z)) / (2.0 * (1.0 - z))],
    [((x - y + z - 1.0) * (x + y + z - 1.0) - (-x - y + z - 1.0) * (x + y + z - 1.0) - (-x - y + z - 1.0) * (x - y + z
        - 1.0)) / (2.0 * (1.0 - z)), ((x - y + z - 1.0) * (x + y + z - 1.0) + (-x - y + z - 1.0) * (x + y + z - 1.0) -
        (-x - y + z - 1.0) * (x - y + z - 1.0)) / (2.0 * (1.0 - z)), -((x - y + z - 1.0) * (x + y + z - 1.0) + (-x - y
        + z - 1.0) * (x + y + z - 1.0) + (-x - y + z - 1.0) * (x - y + z - 1.0) + (-x - y + z - 1.0) * (x - y + z -
        1.0) * (x + y + z - 1.0) / (1.0 - z)) / (2.0 * (1.0 - z))],
    [((x - y + z - 1.0) * (x + y + z - 1.0) - (x + y + z - 1.0) * (-x + y + z - 1.0) - (x - y + z - 1.0) * (-x + y + z
        - 1.0)) / (2.0 * (1.0 - z)), ((x + y + z - 1.0) * (-x + y + z - 1.0) - (x - y + z - 1.0) * (-x + y + z - 1.0)
        - (x - y + z - 1.0) * (x + y + z - 1.0)) / (2.0 * (1.0 - z)), -((x + y + z - 1.0) * (-x + y + z - 1.0) + (x -
        y + z - 1.0) * (-x + y + z - 1.0) + (x - y + z - 1.0) * (x + y + z - 1.0) + (x - y + z - 1.0) * (x + y + z -
        1.0) * (-x + y + z - 1.0) / (1.0 - z)) / (2.0 * (1.0 - z))],
    [((x + y + z - 1.0) * (-x - y + z - 1.0) + (x + y + z - 1.0) * (-x + y + z - 1.0) - (-x - y + z - 1.0) * (-x + y +
        z - 1.0)) / (2.0 * (1.0 - z)), ((x + y + z - 1.0) * (-x + y + z - 1.0) - (-x + y + z - 1.0) * (-x - y + z -
        1.0) - (x + y + z - 1.0) * (-x - y + z - 1.0)) / (2.0 * (1.0 - z)), -((-x + y + z - 1.0) * (-x - y + z - 1.0)
        + (x + y + z - 1.0) * (-x - y + z - 1.0) + (x + y + z - 1.0) * (-x + y + z - 1.0) + (x + y + z - 1.0) * (-x +
        y + z - 1.0) * (-x - y + z - 1.0) / (1.0 - z)) / (2.0 * (1.0 - z))],
    [(-(-x - y + z - 1.0) - (-x + y + z - 1.0)) * z / (1.0 - z), ((-x - y + z - 1.0) - (-x + y + z - 1.0)) * z / (1.0
        - z), (-x + y + z - 1.0) * (-x - y + z - 1.0) / (1.0 - z) / (1.0 - z) + ((-x - y + z - 1.0) + (-x + y + z -
        1.0)) * z / (1.0 - z)],
    [((-x - y + z - 1.0) - (x - y + z - 1.0)) * z / (1.0 - z), (-(x - y + z - 1.0) - (-x - y + z - 1.0)) * z / (1.0 -
        z), (-x - y + z - 1.0) * (x - y + z - 1.0) / (1.0 - z) / (1.0 - z) + ((x - y + z - 1.0) + (-x - y + z - 1.0))
        * z / (1.0 - z)],
    [((x + y + z - 1.0) + (x - y + z - 1.0)) * z / (1.0 - z), ((x - y + z - 1.0) - (x + y + z - 1.0)) * z / (1.0 - z),
        (x - y + z - 1.0) * (x + y + z - 1.0) / (1.0 - z) / (1.0 - z) + ((x + y + z - 1.0) + (x - y + z - 1.0)) * z /
        (1.0 - z)],
    [((-x + y + z - 1.0) - (x + y + z - 1.0)) * z / (1.0 - z), ((-x + y + z - 1.0) + (x + y + z - 1.0)) * z / (1.0 -
        z), (x + y + z - 1.0) * (-x + y + z - 1.0) / (1.0 - z) / (1.0 - z) + ((x + y + z - 1.0) + (-x + y + z - 1.0))
        * z / (1.0 - z)] ]
  apex := some
    ([0, 0, 0, 0, 1, 0, 0, 0, 0, 0, 0, 0, 0],
     [[-1 / 2, 0, 1 / 4], [0, 0, 1 / 4], [-1 / 2, 0, 1 / 4], [0, 0, 1 / 4], [0, 0, 3], [0, 0, 0], [0, 0, 0], [0, 0,
         0], [0, 0, 0], [2, 0, -1], [0, 2, -1], [-2, 0, -1], [0, -2, -1]])

/-- `GaussInfo::pyra13bInit` (InterpKernelGaussCoords.cxx:2810-3109), reference nodes `PYRA13B_REF` (lines 86-88). -/
def ge_pyra13b : RefElt where
  dim := 3
  ref :=
    [[1, 0, 0], [0, -1, 0], [-1, 0, 0], [0, 1, 0], [0, 0, 1], [1 / 2, -1 / 2, 0], [-1 / 2, -1 / 2, 0], [-1 / 2, 1 / 2,
        0], [1 / 2, 1 / 2, 0], [1 / 2, 0, 1 / 2], [0, -1 / 2, 1 / 2], [-1 / 2, 0, 1 / 2], [0, 1 / 2, 1 / 2]]
  fn :=
    [ 0.5 * (-x + y + z - 1.0) * (-x - y + z - 1.0) * (x - 0.5) / (1.0 - z),
    0.5 * (x + y + z - 1.0) * (-x + y + z - 1.0) * (-y - 0.5) / (1.0 - z),
    0.5 * (x - y + z - 1.0) * (x + y + z - 1.0) * (-x - 0.5) / (1.0 - z),
    0.5 * (-x - y + z - 1.0) * (x - y + z - 1.0) * (y - 0.5) / (1.0 - z),
    2.0 * z * (z - 0.5),
    -0.5 * (x + y + z - 1.0) * (-x + y + z - 1.0) * (-x - y + z - 1.0) / (1.0 - z),
    -0.5 * (x - y + z - 1.0) * (x + y + z - 1.0) * (-x + y + z - 1.0) / (1.0 - z),
    -0.5 * (-x - y + z - 1.0) * (x - y + z - 1.0) * (x + y + z - 1.0) / (1.0 - z),
    -0.5 * (-x + y + z - 1.0) * (-x - y + z - 1.0) * (x - y + z - 1.0) / (1.0 - z),
    z * (-x + y + z - 1.0) * (-x - y + z - 1.0) / (1.0 - z),
    z * (x + y + z - 1.0) * (-x + y + z - 1.0) / (1.0 - z),
    z * (x - y + z - 1.0) * (x + y + z - 1.0) / (1.0 - z),
    z * (-x - y + z - 1.0) * (x - y + z - 1.0) / (1.0 - z) ]
  dev :=
    [ [((-x + y + z - 1.0) * (-x - y + z - 1.0) - ((-x + y + z - 1.0) + (-x - y + z - 1.0)) * (x - 0.5)) / (2.0 * (1.0 -
        z)), ((-x - y + z - 1.0) - (-x + y + z - 1.0)) * (x - 0.5) / (2.0 * (1.0 - z)), ((-x + y + z - 1.0) + (-x - y
        + z - 1.0) + (-x + y + z - 1.0) * (-x - y + z - 1.0) / (1.0 - z)) * (x - 0.5) / (2.0 * (1.0 - z))],
    [((-x + y + z - 1.0) - (x + y + z - 1.0)) * (-y - 0.5) / (2.0 * (1.0 - z)), (((-x + y + z - 1.0) + (x + y + z -
        1.0)) * (-y - 0.5) - (x + y + z - 1.0) * (-x + y + z - 1.0)) / (2.0 * (1.0 - z)), ((-x + y + z - 1.0) + (x + y
        + z - 1.0) + (x + y + z - 1.0) * (-x + y + z - 1.0) / (1.0 - z)) * (-y - 0.5) / (2.0 * (1.0 - z))],
    [(((x + y + z - 1.0) + (x - y + z - 1.0)) * (-x - 0.5) - (x - y + z - 1.0) * (x + y + z - 1.0)) / (2.0 * (1.0 -
        z)), ((x - y + z - 1.0) - (x + y + z - 1.0)) * (-x - 0.5) / (2.0 * (1.0 - z)), ((x + y + z - 1.0) + (x - y + z
        - 1.0) + (x + y + z - 1.0) * (x - y + z - 1.0) / (1.0 - z)) * (-x - 0.5) / (2.0 * (1.0 - z))],
    [((-x - y + z - 1.0) - (x - y + z - 1.0)) * (y - 0.5) / (2.0 * (1.0 - z)), ((-x - y + z - 1.0) * (x - y + z - 1.0)
        - ((-x - y + z - 1.0) + (x - y + z - 1.0)) * (y - 0.5)) / (2.0 * (1.0 - z)), ((-x - y + z - 1.0) + (x - y + z
        - 1.0) + (-x - y + z - 1.0) * (x - y + z - 1.0) / (1.0 - z)) * (y - 0.5) / (2.0 * (1.0 - z))],
    [0.0, 0.0, 4.0 * z - 1.0],
    [((x + y + z - 1.0) * (-x - y + z - 1.0) + (x + y + z - 1.0) * (-x + y + z - 1.0) - (-x - y + z - 1.0) * (-x + y +
        z - 1.0)) / (2.0 * (1.0 - z)), ((x + y + z - 1.0) * (-x + y + z - 1.0) - (-x + y + z - 1.0) * (-x - y + z -
        1.0) - (x + y + z - 1.0) * (-x - y + z - 1.0)) / (2.0 * (1.0 - z)), -((-x + y + z - 1.0) * (-x - y + z - 1.0)
        + (x + y + z - 1.0) * (-x - y + z - 1.0) + (x + y + z - 1.0) * (-x + y + z - 1.0) + (x + y + z - 1.0) * (-x +
        y + z - 1.0) * (-x - y + z - 1.0) / (1.0 - z)) / (2.0 * (1.0 - z))],
    [((x - y + z - 1.0) * (x + y + z - 1.0) - (x + y + z - 1.0) * (-x + y + z - 1.0) - (x - y + z - 1.0) * (-x + y + z
        - 1.0)) / (2.0 * (1.0 - z)), ((x + y + z - 1.0) * (-x + y + z - 1.0) - (x - y + z - 1.0) * (-x + y + z - 1.0)
        - (x - y + z - 1.0) * (x + y + z - 1.0)) / (2.0 * (1.0 - z)), -((x + y + z - 1.0) * (-x + y + z - 1.0) + (x -
        y + z - 1.0) * (-x + y + z - 1.0) + (x - y + z - 1.0) * (x + y + z - 1.0) + (x - y + z - 1.0) * (x + y + z -
        1.0) * (-x + y + z - 1.0) / (1.0 - z)) / (2.0 * (1.0 - z))],
    [((x - y + z - 1.0) * (x + y + z - 1.0) - (-x - y + z - 1.0) * (x + y + z - 1.0) - (-x - y + z - 1.0) * (x - y + z
        - 1.0)) / (2.0 * (1.0 - z)), ((x - y + z - 1.0) * (x + y + z - 1.0) + (-x - y + z - 1.0) * (x + y + z - 1.0) -
        (-x - y + z - 1.0) * (x - y + z - 1.0)) / (2.0 * (1.0 - z)), -((x - y + z - 1.0) * (x + y + z - 1.0) + (-x - y
        + z - 1.0) * (x + y + z - 1.0) + (-x - y + z - 1.0) * (x - y + z - 1.0) + (-x - y + z - 1.0) * (x - y + z -
        1.0) * (x + y + z - 1.0) / (1.0 - z)) / (2.0 * (1.0 - z))],
    [((-x - y + z - 1.0) * (x - y + z - 1.0) + (-x + y + z - 1.0) * (x - y + z - 1.0) - (-x + y + z - 1.0) * (-x - y +
        z - 1.0)) / (2.0 * (1.0 - z)), ((-x + y + z - 1.0) * (x - y + z - 1.0) + (-x + y + z - 1.0) * (-x - y + z -
        1.0) - (-x - y + z - 1.0) * (x - y + z - 1.0)) / (2.0 * (1.0 - z)), -((-x - y + z - 1.0) * (x - y + z - 1.0) +
        (-x + y + z - 1.0) * (x - y + z - 1.0) + (-x + y + z - 1.0) * (-x - y + z - 1.0) + (-x + y + z - 1.0) * (-x -
        y + z - 1.0) * (x - y + z - 1.0) / (1.0 - z)) / (2.0 * (1.0 - z))],
    [(-(-x - y + z - 1.0) - (-x + y + z - 1.0)) * z / (1.0 - z), ((-x - y + z - 1.0) - (-x + y + z - 1.0)) * z / (1.0
        - z), (-x + y + z - 1.0) * (-x - y + z - 1.0) / (1.0 - z) / (1.0 - z) + ((-x - y + z - 1.0) + (-x + y + z -
        1.0)) * z / (1.0 - z)],
    [((-x + y + z - 1.0) - (x + y + z - 1.0)) * z / (1.0 - z), ((-x + y + z - 1.0) + (x + y + z - 1.0)) * z / (1.0 -
        z), (x + y + z - 1.0) * (-x + y + z - 1.0) / (1.0 - z) / (1.0 - z) + ((x + y + z - 1.0) + (-x + y + z - 1.0))
        * z / (1.0 - z)],
    [((x + y + z - 1.0) + (x - y + z - 1.0)) * z / (1.0 - z), ((x - y + z - 1.0) - (x + y + z - 1.0)) * z / (1.0 - z),
        (x - y + z - 1.0) * (x + y + z - 1.0) / (1.0 - z) / (1.0 - z) + ((x + y + z - 1.0) + (x - y + z - 1.0)) * z /
        (1.0 - z)],
    [((-x - y + z - 1.0) - (x - y + z - 1.0)) * z / (1.0 - z), (-(x - y + z - 1.0) - (-x - y + z - 1.0)) * z / (1.0 -
        z), (-x - y + z - 1.0) * (x - y + z - 1.0) / (1.0 - z) / (1.0 - z) + ((x - y + z - 1.0) + (-x - y + z - 1.0))
        * z / (1.0 - z)] ]
  apex := some
    ([0, 0, 0, 0, 1, 0, 0, 0, 0, 0, 0, 0, 0],
     [[-1 / 2, 0, 1 / 4], [0, 0, 1 / 4], [-1 / 2, 0, 1 / 4], [0, 0, 1 / 4], [0, 0, 0], [0, 0, 0], [0, 0, 0], [0, 0,
         0], [0, 0, 0], [2, 0, -1], [0, -2, -1], [-2, 0, -1], [0, 2, -1]])

end MC
