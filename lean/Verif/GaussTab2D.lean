import Verif.GaussElt

/-!
# Shape functions of the reference cells: segments, triangles and quadrangles

Transcription of the functions `GaussInfo::...Init` of InterpKernelGaussCoords.cxx: `x`, `y`, `z` stand for `gc[0]`, `gc[1]`, `gc[2]`;
the literal `0.3333333333333333` of the reference coordinates is read `1 / 3`.
-/

namespace MC

local notation "x" => PExp.gc 0
local notation "y" => PExp.gc 1
local notation "z" => PExp.gc 2

/-- `GaussInfo::seg2aInit` (InterpKernelGaussCoords.cxx:1088-1111), reference nodes `SEG2A_REF` (lines 32-32). -/
def ge_seg2a : RefElt where
  dim := 1
  ref :=
    [[-1], [1]]
  fn :=
    [ 0.5 * (1.0 - x),
    0.5 * (1.0 + x) ]
  dev :=
    [ [-0.5],
    [0.5] ]

/-- `GaussInfo::seg2bInit` (InterpKernelGaussCoords.cxx:1114-1137), reference nodes `SEG2B_REF` (lines 34-34). -/
def ge_seg2b : RefElt where
  dim := 1
  ref :=
    [[0], [1]]
  fn :=
    [ 1.0 - x,
    x ]
  dev :=
    [ [-1.0],
    [1.0] ]

/-- `GaussInfo::seg3Init` (InterpKernelGaussCoords.cxx:1143-1167), reference nodes `SEG3_REF` (lines 36-36). -/
def ge_seg3 : RefElt where
  dim := 1
  ref :=
    [[-1], [1], [0]]
  fn :=
    [ -0.5 * (1.0 - x) * x,
    0.5 * (1.0 + x) * x,
    (1.0 + x) * (1.0 - x) ]
  dev :=
    [ [-0.5 * (1 - 2 * x)],
    [0.5 * (2 * x + 1)],
    [-2 * x] ]

/-- `GaussInfo::seg4Init` (InterpKernelGaussCoords.cxx:1173-1202), reference nodes `SEG4_REF` (lines 38-38). -/
def ge_seg4 : RefElt where
  dim := 1
  ref :=
    [[-1], [1], [-1 / 3], [1 / 3]]
  fn :=
    [ 9.0 / 16.0 * (1 - x) * (x + 1.0 / 3.0) * (x - 1.0 / 3.0),
    -9.0 / 16.0 * (1 + x) * (1.0 / 3.0 - x) * (x + 1.0 / 3.0),
    27.0 / 16.0 * (x - 1) * (x + 1) * (x - 1.0 / 3.0),
    -27.0 / 16.0 * (x - 1) * (x + 1) * (x + 1.0 / 3.0) ]
  dev :=
    [ [9.0 / 16.0 * (-3.0 * x * x + 2.0 * x + 1.0 / 9.0)],
    [9.0 / 16.0 * (3.0 * x * x + 2.0 * x - 1.0 / 9.0)],
    [27.0 / 16.0 * (3.0 * x * x - 2.0 / 3.0 * x - 1.0)],
    [-27.0 / 16.0 * (3.0 * x * x + 2.0 / 3.0 * x - 1.0)] ]

/-- `GaussInfo::tria3aInit` (InterpKernelGaussCoords.cxx:1209-1244), reference nodes `TRIA3A_REF` (lines 40-40). -/
def ge_tria3a : RefElt where
  dim := 2
  ref :=
    [[-1, 1], [-1, -1], [1, -1]]
  fn :=
    [ 0.5 * (1.0 + y),
    -0.5 * (x + y),
    0.5 * (1.0 + x) ]
  dev :=
    [ [0.0, 0.5],
    [-0.5, -0.5],
    [0.5, 0.0] ]

/-- `GaussInfo::tria3bInit` (InterpKernelGaussCoords.cxx:1251-1286), reference nodes `TRIA3B_REF` (lines 42-42). -/
def ge_tria3b : RefElt where
  dim := 2
  ref :=
    [[0, 0], [1, 0], [0, 1]]
  fn :=
    [ 1.0 - x - y,
    x,
    y ]
  dev :=
    [ [-1.0, -1.0],
    [1.0, 0.0],
    [0.0, 1.0] ]

/-- `GaussInfo::tria6aInit` (InterpKernelGaussCoords.cxx:1293-1352), reference nodes `TRIA6A_REF` (lines 44-44). -/
def ge_tria6a : RefElt where
  dim := 2
  ref :=
    [[-1, 1], [-1, -1], [1, -1], [-1, 1], [0, -1], [0, 0]]
  fn :=
    [ 0.5 * (1.0 + y) * y,
    0.5 * (x + y) * (x + y + 1),
    0.5 * (1.0 + x) * x,
    -1.0 * (1.0 + y) * (x + y),
    -1.0 * (1.0 + x) * (x + y),
    (1.0 + y) * (1.0 + y) ]
  dev :=
    [ [0.0, 0.5 * (2 * y + 1.0)],
    [0.5 * (2 * x + 2.0 * y + 1.0), 0.5 * (2 * y + 2.0 * x + 1.0)],
    [x + 0.5, 0.0],
    [-1.0 * (1.0 + y), -1.0 * (2 * y + x + 1.0)],
    [-1.0 * (2 * x + y + 1.0), -1.0 * (1.0 + x)],
    [0.0, (2 * y + 2.0)] ]

/-- `GaussInfo::tria6bInit` (InterpKernelGaussCoords.cxx:1359-1418), reference nodes `TRIA6B_REF` (lines 46-46). -/
def ge_tria6b : RefElt where
  dim := 2
  ref :=
    [[0, 0], [1, 0], [0, 1], [1 / 2, 0], [1 / 2, 1 / 2], [0, 1 / 2]]
  fn :=
    [ (1.0 - x - y) * (1.0 - 2.0 * x - 2.0 * y),
    x * (2.0 * x - 1.0),
    y * (2.0 * y - 1.0),
    4.0 * x * (1.0 - x - y),
    4.0 * x * y,
    4.0 * y * (1.0 - x - y) ]
  dev :=
    [ [4 * x + 4 * y - 3.0, 4 * y + 4 * x - 3.0],
    [4 * x - 1.0, 0.0],
    [0.0, 4 * y - 1.0],
    [-8.0 * x - 4.0 * y + 4.0, -4.0 * x],
    [4.0 * y, 4.0 * x],
    [-4.0 * y, -8.0 * y - 4.0 * x + 4.0] ]

/-- `GaussInfo::tria7aInit` (InterpKernelGaussCoords.cxx:1421-1487), reference nodes `TRIA7A_REF` (lines 48-50). -/
def ge_tria7a : RefElt where
  dim := 2
  ref :=
    [[0, 0], [1, 0], [0, 1], [1 / 2, 0], [1 / 2, 1 / 2], [0, 1 / 2], [1 / 3, 1 / 3]]
  fn :=
    [ 1 - 3 * (x + y) + 2 * (x * x + y * y) + 7 * x * y - 3 * x * y * (x + y),
    x * (-1 + 2 * x + 3 * y - 3 * y * (x + y)),
    y * (-1.0 + 3.0 * x + 2.0 * y - 3.0 * x * (x + y)),
    4 * x * (1 - x - 4 * y + 3 * y * (x + y)),
    4 * x * y * (-2 + 3 * (x + y)),
    4 * y * (1 - 4 * x - y + 3 * x * (x + y)),
    27 * x * y * (1 - x - y) ]
  dev :=
    [ [7 * y - 3 * y * (2 * x + y) + 4 * x - 3, -3 + 4.0 * y + 7.0 * x - 6.0 * x * y - 3.0 * x * x],
    [-6 * x * y + 4 * x - 3 * y * y + 3 * y - 1, 3.0 * x * (1 - 2.0 * y - x)],
    [3.0 * y * (1 - 2.0 * x - y), -1 + 4.0 * y + 3.0 * x - 6.0 * x * y - 3.0 * x * x],
    [4 * (6 * x * y - 2 * x + 3 * y * y - 4 * y + 1), 4.0 * x * (-4.0 + 6.0 * y + 3.0 * x)],
    [4 * y * (6 * x + 3 * y - 2), 4.0 * x * (-2.0 + 6.0 * y + 3.0 * x)],
    [4 * y * (3 * (y + 2 * x) - 4), 4.0 * (1 - 2.0 * y - 4.0 * x + 6.0 * x * y + 3.0 * x * x)],
    [27 * y * (-2 * x - y + 1), 27.0 * x * (1 - 2.0 * y - x)] ]

/-- `GaussInfo::quad4aInit` (InterpKernelGaussCoords.cxx:1494-1537), reference nodes `QUAD4A_REF` (lines 52-52). -/
def ge_quad4a : RefElt where
  dim := 2
  ref :=
    [[-1, 1], [-1, -1], [1, -1], [1, 1]]
  fn :=
    [ 0.25 * (1.0 + y) * (1.0 - x),
    0.25 * (1.0 - y) * (1.0 - x),
    0.25 * (1.0 - y) * (1.0 + x),
    0.25 * (1.0 + y) * (1.0 + x) ]
  dev :=
    [ [-0.25 * (1.0 + y), 0.25 * (1.0 - x)],
    [-0.25 * (1.0 - y), -0.25 * (1.0 - x)],
    [0.25 * (1.0 - y), -0.25 * (1.0 + x)],
    [0.25 * (1.0 + y), 0.25 * (1.0 + x)] ]

/-- `GaussInfo::quad4bInit` (InterpKernelGaussCoords.cxx:1544-1587), reference nodes `QUAD4B_REF` (lines 54-54). -/
def ge_quad4b : RefElt where
  dim := 2
  ref :=
    [[-1, -1], [1, -1], [1, 1], [-1, 1]]
  fn :=
    [ 0.25 * (1.0 - x) * (1.0 - y),
    0.25 * (1.0 + x) * (1.0 - y),
    0.25 * (1.0 + x) * (1.0 + y),
    0.25 * (1.0 - x) * (1.0 + y) ]
  dev :=
    [ [-0.25 * (1.0 - y), -0.25 * (1.0 - x)],
    [0.25 * (1.0 - y), -0.25 * (1.0 + x)],
    [0.25 * (1.0 + y), 0.25 * (1.0 + x)],
    [-0.25 * (1.0 + y), 0.25 * (1.0 - x)] ]

/-- `GaussInfo::quad4cInit` (InterpKernelGaussCoords.cxx:1590-1634). -/
def ge_quad4c : RefElt where
  dim := 2
  ref :=
    [[-1, -1], [-1, 1], [1, 1], [1, -1]]
  fn :=
    [ 0.25 * (1.0 - x) * (1.0 - y),
    0.25 * (1.0 - x) * (1.0 + y),
    0.25 * (1.0 + x) * (1.0 + y),
    0.25 * (1.0 + x) * (1.0 - y) ]
  dev :=
    [ [-0.25 * (1.0 - y), -0.25 * (1.0 - x)],
    [-0.25 * (1.0 + y), 0.25 * (1.0 - x)],
    [0.25 * (1.0 + y), 0.25 * (1.0 + x)],
    [0.25 * (1.0 - y), -0.25 * (1.0 + x)] ]

/-- `GaussInfo::quad4DegSeg2Init` (InterpKernelGaussCoords.cxx:1640-1683). -/
def ge_quad4DegSeg2 : RefElt where
  dim := 2
  ref :=
    [[-1, 0], [1, 0], [0, 0], [0, 0]]
  fn :=
    [ 0.5 * (1.0 - x),
    0.5 * (1.0 + x),
    0.0,
    0.0 ]
  dev :=
    [ [-0.5, 0.0],
    [0.5, 0.0],
    [0.0, 0.0],
    [0.0, 0.0] ]

/-- `GaussInfo::quad8aInit` (InterpKernelGaussCoords.cxx:1690-1765), reference nodes `QUAD8A_REF` (lines 56-58). -/
def ge_quad8a : RefElt where
  dim := 2
  ref :=
    [[-1, 1], [-1, -1], [1, -1], [1, 1], [-1, 0], [0, -1], [1, 0], [0, 1]]
  fn :=
    [ 0.25 * (1.0 + y) * (1.0 - x) * (y - x - 1.0),
    0.25 * (1.0 - y) * (1.0 - x) * (-y - x - 1.0),
    0.25 * (1.0 - y) * (1.0 + x) * (-y + x - 1.0),
    0.25 * (1.0 + y) * (1.0 + x) * (y + x - 1.0),
    0.5 * (1.0 - x) * (1.0 - y) * (1.0 + y),
    0.5 * (1.0 - y) * (1.0 - x) * (1.0 + x),
    0.5 * (1.0 + x) * (1.0 - y) * (1.0 + y),
    0.5 * (1.0 + y) * (1.0 - x) * (1.0 + x) ]
  dev :=
    [ [0.25 * (1.0 + y) * (2 * x - y), 0.25 * (1.0 - x) * (2 * y - x)],
    [0.25 * (1.0 - y) * (2 * x + y), 0.25 * (1.0 - x) * (2 * y + x)],
    [0.25 * (1.0 - y) * (2 * x - y), 0.25 * (1.0 + x) * (2 * y - x)],
    [0.25 * (1.0 + y) * (2 * x + y), 0.25 * (1.0 + x) * (2 * y + x)],
    [-0.5 * (1.0 - y) * (1.0 + y), 0.5 * (1.0 - x) * (-2 * y)],
    [0.5 * (1.0 - y) * (-2 * x), -0.5 * (1.0 - x) * (1.0 + x)],
    [0.5 * (1.0 - y) * (1.0 + y), 0.5 * (1.0 + x) * (-2 * y)],
    [0.5 * (1.0 + y) * (-2 * x), 0.5 * (1.0 - x) * (1.0 + x)] ]

/-- `GaussInfo::quad8bInit` (InterpKernelGaussCoords.cxx:1772-1847), reference nodes `QUAD8B_REF` (lines 60-62). -/
def ge_quad8b : RefElt where
  dim := 2
  ref :=
    [[-1, -1], [1, -1], [1, 1], [-1, 1], [0, -1], [1, 0], [0, 1], [-1, 0]]
  fn :=
    [ 0.25 * (1.0 - x) * (1.0 - y) * (-1.0 - x - y),
    0.25 * (1.0 + x) * (1.0 - y) * (-1.0 + x - y),
    0.25 * (1.0 + x) * (1.0 + y) * (-1.0 + x + y),
    0.25 * (1.0 - x) * (1.0 + y) * (-1.0 - x + y),
    0.5 * (1.0 - x * x) * (1.0 - y),
    0.5 * (1.0 - y * y) * (1.0 + x),
    0.5 * (1.0 - x * x) * (1.0 + y),
    0.5 * (1.0 - y * y) * (1.0 - x) ]
  dev :=
    [ [0.25 * (1.0 - y) * (2 * x + y), 0.25 * (1.0 - x) * (2 * y + x)],
    [0.25 * (1.0 - y) * (2 * x - y), 0.25 * (1.0 + x) * (2 * y - x)],
    [0.25 * (1.0 + y) * (2 * x + y), 0.25 * (1.0 + x) * (2 * y + x)],
    [0.25 * (1.0 + y) * (2 * x - y), 0.25 * (1.0 - x) * (2 * y - x)],
    [-(1.0 - y) * x, -0.5 * (1.0 - x * x)],
    [0.5 * (1.0 - y * y), -(1.0 + x) * y],
    [-(1.0 + y) * x, 0.5 * (1.0 - x * x)],
    [-0.5 * (1.0 - y * y), -(1.0 - x) * y] ]

/-- `GaussInfo::quad9aInit` (InterpKernelGaussCoords.cxx:1850-1932), reference nodes `QUAD9A_REF` (lines 64-66). -/
def ge_quad9a : RefElt where
  dim := 2
  ref :=
    [[-1, -1], [1, -1], [1, 1], [-1, 1], [0, -1], [1, 0], [0, 1], [-1, 0], [0, 0]]
  fn :=
    [ 0.25 * x * y * (x - 1.0) * (y - 1.0),
    0.25 * x * y * (x + 1.0) * (y - 1.0),
    0.25 * x * y * (x + 1.0) * (y + 1.0),
    0.25 * x * y * (x - 1.0) * (y + 1.0),
    0.5 * (1.0 - x * x) * y * (y - 1.0),
    0.5 * x * (x + 1.0) * (1.0 - y * y),
    0.5 * (1.0 - x * x) * y * (y + 1.0),
    0.5 * x * (x - 1.0) * (1.0 - y * y),
    (1.0 - x * x) * (1.0 - y * y) ]
  dev :=
    [ [0.5 * (2 * x - 1.0) * 0.5 * y * (y - 1.0), 0.5 * x * (x - 1.0) * 0.5 * (2 * y - 1.0)],
    [0.5 * (2.0 * x + 1.0) * 0.5 * y * (y - 1.0), 0.5 * x * (1.0 + x) * 0.5 * (2.0 * y - 1.0)],
    [0.5 * (2.0 * x + 1.0) * 0.5 * y * (1.0 + y), 0.5 * x * (1.0 + x) * 0.5 * (2.0 * y + 1.0)],
    [0.5 * (2.0 * x - 1.0) * 0.5 * y * (1.0 + y), 0.5 * x * (x - 1.0) * 0.5 * (2.0 * y + 1.0)],
    [-2.0 * x * 0.5 * y * (y - 1.0), (1.0 + x) * (1.0 - x) * 0.5 * (2.0 * y - 1.0)],
    [0.5 * (2.0 * x + 1.0) * (1.0 + y) * (1.0 - y), 0.5 * x * (1 + x) * -2.0 * y],
    [-2.0 * x * 0.5 * y * (1.0 + y), (1.0 + x) * (1.0 - x) * 0.5 * (2.0 * y + 1.0)],
    [0.5 * (2.0 * x - 1.0) * (1.0 + y) * (1.0 - y), 0.5 * x * (x - 1.0) * -2.0 * y],
    [-2.0 * x * (1.0 + y) * (1.0 - y), (1.0 + x) * (1.0 - x) * -2.0 * y] ]

end MC
