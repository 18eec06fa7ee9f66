import Verif.Cursor

/-!
# Reference cells (`INTERP_KERNEL::CellModel`, `INTERP_KERNEL::OrientationInverter`)

The table of the reference cells, and the functions which read the sons (faces of a 3D cell, edges of a 2D cell), the
edges and the extrusion of a cell in its nodal connectivity.  A cell type is its integer code, as stored in the
connectivity of a mesh.

Output buffers (`mcIdType *sonNodalConn`) are modelled by the list of the written values.
-/

namespace MC

/-- Members of `CellModel` (CellModel.hxx:118-138). `edges` is `_little_sons_con` (`none` when `_nb_of_little_sons` keeps
its default value, the greatest `unsigned`), `sons` pairs `_sons_type` and `_sons_con`, `extrude` is `_extrude_con` as
pairs (level, position in the level). -/
structure CellModel where
  code : Int
  dim : Nat
  nbPts : Nat
  nbSons : Nat
  dyn : Bool
  quad : Bool
  sons : List (Int × List Nat)
  edges : Option (List (List Nat))
  extrudedType : Int
  reverseExtrudedType : Int
  linearType : Int
  quadraticType : Int
  quadraticType2 : Int
  extrude : List (Nat × Nat)
deriving DecidableEq, Repr

/-- the greatest `unsigned` -/
def unsignedMax : Nat := 4294967295

/-- `NORM_POINT1` (CellModel.cxx:305-313) -/
def cm_point1 : CellModel where
  code := 0
  dim := 0
  nbPts := 1
  nbSons := 0
  dyn := false
  quad := false
  sons := []
  edges := none
  extrudedType := 1
  reverseExtrudedType := 40
  linearType := 40
  quadraticType := 40
  quadraticType2 := 40
  extrude := []

/-- `NORM_SEG2` (CellModel.cxx:314-336) -/
def cm_seg2 : CellModel where
  code := 1
  dim := 1
  nbPts := 2
  nbSons := 2
  dyn := false
  quad := false
  sons := [(0, [0]), (0, [1])]
  edges := none
  extrudedType := 4
  reverseExtrudedType := 0
  linearType := 40
  quadraticType := 2
  quadraticType2 := 2
  extrude := [(0, 0), (0, 1), (1, 1), (1, 0)]

/-- `NORM_SEG3` (CellModel.cxx:337-364) -/
def cm_seg3 : CellModel where
  code := 2
  dim := 1
  nbPts := 3
  nbSons := 3
  dyn := false
  quad := true
  sons := [(0, [0]), (0, [1]), (0, [2])]
  edges := none
  extrudedType := 8
  reverseExtrudedType := 40
  linearType := 1
  quadraticType := 40
  quadraticType2 := 40
  extrude := [(0, 0), (0, 1), (2, 1), (2, 0), (0, 2), (1, 1), (2, 2), (1, 0)]

/-- `NORM_SEG4` (CellModel.cxx:365-386) -/
def cm_seg4 : CellModel where
  code := 10
  dim := 1
  nbPts := 4
  nbSons := 4
  dyn := false
  quad := true
  sons := [(0, [0]), (0, [1]), (0, [2]), (0, [3])]
  edges := none
  extrudedType := 40
  reverseExtrudedType := 40
  linearType := 1
  quadraticType := 40
  quadraticType2 := 40
  extrude := []

/-- `NORM_TETRA4` (CellModel.cxx:387-428) -/
def cm_tetra4 : CellModel where
  code := 14
  dim := 3
  nbPts := 4
  nbSons := 4
  dyn := false
  quad := false
  sons := [(3, [0, 1, 2]), (3, [0, 3, 1]), (3, [1, 3, 2]), (3, [2, 3, 0])]
  edges := some [[0, 1], [1, 2], [2, 0], [0, 3], [1, 3], [2, 3]]
  extrudedType := 40
  reverseExtrudedType := 40
  linearType := 40
  quadraticType := 20
  quadraticType2 := 40
  extrude := []

/-- `NORM_HEXA8` (CellModel.cxx:429-501) -/
def cm_hexa8 : CellModel where
  code := 18
  dim := 3
  nbPts := 8
  nbSons := 6
  dyn := false
  quad := false
  sons := [(4, [0, 1, 2, 3]), (4, [4, 7, 6, 5]), (4, [0, 4, 5, 1]), (4, [1, 5, 6, 2]), (4, [2, 6, 7, 3]), (4, [3, 7, 4, 0])]
  edges := some [[0, 1], [1, 2], [2, 3], [3, 0], [4, 5], [5, 6], [6, 7], [7, 4], [0, 4], [1, 5], [2, 6], [3, 7]]
  extrudedType := 40
  reverseExtrudedType := 4
  linearType := 40
  quadraticType := 30
  quadraticType2 := 27
  extrude := []

/-- `NORM_QUAD4` (CellModel.cxx:502-537) -/
def cm_quad4 : CellModel where
  code := 4
  dim := 2
  nbPts := 4
  nbSons := 4
  dyn := false
  quad := false
  sons := [(1, [0, 1]), (1, [1, 2]), (1, [2, 3]), (1, [3, 0])]
  edges := none
  extrudedType := 18
  reverseExtrudedType := 40
  linearType := 40
  quadraticType := 8
  quadraticType2 := 9
  extrude := [(0, 0), (0, 1), (0, 2), (0, 3), (1, 0), (1, 1), (1, 2), (1, 3)]

/-- `NORM_TRI3` (CellModel.cxx:538-566) -/
def cm_tri3 : CellModel where
  code := 3
  dim := 2
  nbPts := 3
  nbSons := 3
  dyn := false
  quad := false
  sons := [(1, [0, 1]), (1, [1, 2]), (1, [2, 0])]
  edges := none
  extrudedType := 16
  reverseExtrudedType := 40
  linearType := 40
  quadraticType := 6
  quadraticType2 := 7
  extrude := [(0, 0), (0, 1), (0, 2), (1, 0), (1, 1), (1, 2)]

/-- `NORM_TRI6` (CellModel.cxx:567-607) -/
def cm_tri6 : CellModel where
  code := 6
  dim := 2
  nbPts := 6
  nbSons := 3
  dyn := false
  quad := true
  sons := [(2, [0, 1, 3]), (2, [1, 2, 4]), (2, [2, 0, 5])]
  edges := none
  extrudedType := 25
  reverseExtrudedType := 40
  linearType := 3
  quadraticType := 40
  quadraticType2 := 40
  extrude := [(0, 0), (0, 1), (0, 2), (2, 0), (2, 1), (2, 2), (0, 3), (0, 4), (0, 5), (2, 3), (2, 4), (2, 5), (1, 0), (1, 1), (1, 2)]

/-- `NORM_TRI7` (CellModel.cxx:608-651) -/
def cm_tri7 : CellModel where
  code := 7
  dim := 2
  nbPts := 7
  nbSons := 3
  dyn := false
  quad := true
  sons := [(2, [0, 1, 3]), (2, [1, 2, 4]), (2, [2, 0, 5])]
  edges := none
  extrudedType := 28
  reverseExtrudedType := 40
  linearType := 3
  quadraticType := 40
  quadraticType2 := 40
  extrude := [(0, 0), (0, 1), (0, 2), (2, 0), (2, 1), (2, 2), (0, 3), (0, 4), (0, 5), (2, 3), (2, 4), (2, 5), (1, 0), (1, 1), (1, 2), (1, 3), (1, 4), (1, 5)]

/-- `NORM_QUAD8` (CellModel.cxx:652-702) -/
def cm_quad8 : CellModel where
  code := 8
  dim := 2
  nbPts := 8
  nbSons := 4
  dyn := false
  quad := true
  sons := [(2, [0, 1, 4]), (2, [1, 2, 5]), (2, [2, 3, 6]), (2, [3, 0, 7])]
  edges := none
  extrudedType := 30
  reverseExtrudedType := 40
  linearType := 4
  quadraticType := 40
  quadraticType2 := 40
  extrude := [(0, 0), (0, 1), (0, 2), (0, 3), (2, 0), (2, 1), (2, 2), (2, 3), (0, 4), (0, 5), (0, 6), (0, 7), (2, 4), (2, 5), (2, 6), (2, 7), (1, 0), (1, 1), (1, 2), (1, 3)]

/-- `NORM_QUAD9` (CellModel.cxx:703-760) -/
def cm_quad9 : CellModel where
  code := 9
  dim := 2
  nbPts := 9
  nbSons := 4
  dyn := false
  quad := true
  sons := [(2, [0, 1, 4]), (2, [1, 2, 5]), (2, [2, 3, 6]), (2, [3, 0, 7])]
  edges := none
  extrudedType := 27
  reverseExtrudedType := 40
  linearType := 4
  quadraticType := 40
  quadraticType2 := 40
  extrude := [(0, 0), (0, 1), (0, 2), (0, 3), (2, 0), (2, 1), (2, 2), (2, 3), (0, 4), (0, 5), (0, 6), (0, 7), (2, 4), (2, 5), (2, 6), (2, 7), (1, 0), (1, 1), (1, 2), (1, 3), (0, 8), (1, 4), (1, 5), (1, 6), (1, 7), (2, 8), (1, 8)]

/-- `NORM_PYRA5` (CellModel.cxx:761-812) -/
def cm_pyra5 : CellModel where
  code := 15
  dim := 3
  nbPts := 5
  nbSons := 5
  dyn := false
  quad := false
  sons := [(4, [0, 1, 2, 3]), (3, [0, 4, 1]), (3, [1, 4, 2]), (3, [2, 4, 3]), (3, [3, 4, 0])]
  edges := some [[0, 1], [1, 2], [2, 3], [3, 0], [0, 4], [1, 4], [2, 4], [3, 4]]
  extrudedType := 40
  reverseExtrudedType := 40
  linearType := 40
  quadraticType := 23
  quadraticType2 := 40
  extrude := []

/-- `NORM_PENTA6` (CellModel.cxx:813-870) -/
def cm_penta6 : CellModel where
  code := 16
  dim := 3
  nbPts := 6
  nbSons := 5
  dyn := false
  quad := false
  sons := [(3, [0, 1, 2]), (3, [3, 5, 4]), (4, [0, 3, 4, 1]), (4, [1, 4, 5, 2]), (4, [2, 5, 3, 0])]
  edges := some [[0, 1], [1, 2], [2, 0], [3, 4], [4, 5], [5, 3], [0, 3], [1, 4], [2, 5]]
  extrudedType := 40
  reverseExtrudedType := 3
  linearType := 40
  quadraticType := 25
  quadraticType2 := 40
  extrude := []

/-- `NORM_TETRA10` (CellModel.cxx:871-931) -/
def cm_tetra10 : CellModel where
  code := 20
  dim := 3
  nbPts := 10
  nbSons := 4
  dyn := false
  quad := true
  sons := [(6, [0, 1, 2, 4, 5, 6]), (6, [0, 3, 1, 7, 8, 4]), (6, [1, 3, 2, 8, 9, 5]), (6, [2, 3, 0, 9, 7, 6])]
  edges := some [[0, 1, 4], [1, 2, 5], [2, 0, 6], [0, 3, 7], [1, 3, 8], [2, 3, 9]]
  extrudedType := 40
  reverseExtrudedType := 40
  linearType := 14
  quadraticType := 40
  quadraticType2 := 40
  extrude := []

/-- `NORM_HEXGP12` (CellModel.cxx:932-1032) -/
def cm_hexgp12 : CellModel where
  code := 22
  dim := 3
  nbPts := 12
  nbSons := 8
  dyn := false
  quad := false
  sons := [(5, [0, 1, 2, 3, 4, 5]), (5, [6, 11, 10, 9, 8, 7]), (4, [0, 6, 7, 1]), (4, [1, 7, 8, 2]), (4, [2, 8, 9, 3]), (4, [3, 9, 10, 4]), (4, [4, 10, 11, 5]), (4, [5, 11, 6, 0])]
  edges := some [[0, 1], [1, 2], [2, 3], [3, 4], [4, 5], [5, 0], [6, 7], [7, 8], [8, 9], [9, 10], [10, 11], [11, 6], [0, 6], [1, 7], [2, 8], [3, 9], [4, 10], [5, 11]]
  extrudedType := 40
  reverseExtrudedType := 40
  linearType := 40
  quadraticType := 40
  quadraticType2 := 40
  extrude := []

/-- `NORM_PYRA13` (CellModel.cxx:1033-1109) -/
def cm_pyra13 : CellModel where
  code := 23
  dim := 3
  nbPts := 13
  nbSons := 5
  dyn := false
  quad := true
  sons := [(8, [0, 1, 2, 3, 5, 6, 7, 8]), (6, [0, 4, 1, 9, 10, 5]), (6, [1, 4, 2, 10, 11, 6]), (6, [2, 4, 3, 11, 12, 7]), (6, [3, 4, 0, 12, 9, 8])]
  edges := some [[0, 1, 5], [1, 2, 6], [2, 3, 7], [3, 0, 8], [0, 4, 9], [1, 4, 10], [2, 4, 11], [3, 4, 12]]
  extrudedType := 40
  reverseExtrudedType := 40
  linearType := 15
  quadraticType := 40
  quadraticType2 := 40
  extrude := []

/-- `NORM_PENTA15` (CellModel.cxx:1110-1193) -/
def cm_penta15 : CellModel where
  code := 25
  dim := 3
  nbPts := 15
  nbSons := 5
  dyn := false
  quad := true
  sons := [(6, [0, 1, 2, 6, 7, 8]), (6, [3, 5, 4, 11, 10, 9]), (8, [0, 3, 4, 1, 12, 9, 13, 6]), (8, [1, 4, 5, 2, 13, 10, 14, 7]), (8, [2, 5, 3, 0, 14, 11, 12, 8])]
  edges := some [[0, 1, 6], [1, 2, 7], [2, 0, 8], [3, 4, 9], [4, 5, 10], [5, 3, 11], [0, 3, 12], [1, 4, 13], [2, 5, 14]]
  extrudedType := 40
  reverseExtrudedType := 40
  linearType := 16
  quadraticType := 40
  quadraticType2 := 40
  extrude := []

/-- `NORM_PENTA18` (CellModel.cxx:1194-1280) -/
def cm_penta18 : CellModel where
  code := 28
  dim := 3
  nbPts := 18
  nbSons := 5
  dyn := false
  quad := true
  sons := [(6, [0, 1, 2, 6, 7, 8]), (6, [3, 5, 4, 11, 10, 9]), (9, [0, 3, 4, 1, 12, 9, 13, 6, 15]), (9, [1, 4, 5, 2, 13, 10, 14, 7, 16]), (9, [2, 5, 3, 0, 14, 11, 12, 8, 17])]
  edges := some [[0, 1, 6], [1, 2, 7], [2, 0, 8], [3, 4, 9], [4, 5, 10], [5, 3, 11], [0, 3, 12], [1, 4, 13], [2, 5, 14]]
  extrudedType := 40
  reverseExtrudedType := 40
  linearType := 16
  quadraticType := 40
  quadraticType2 := 40
  extrude := []

/-- `NORM_HEXA20` (CellModel.cxx:1281-1387) -/
def cm_hexa20 : CellModel where
  code := 30
  dim := 3
  nbPts := 20
  nbSons := 6
  dyn := false
  quad := true
  sons := [(8, [0, 1, 2, 3, 8, 9, 10, 11]), (8, [4, 7, 6, 5, 15, 14, 13, 12]), (8, [0, 4, 5, 1, 16, 12, 17, 8]), (8, [1, 5, 6, 2, 17, 13, 18, 9]), (8, [2, 6, 7, 3, 18, 14, 19, 10]), (8, [3, 7, 4, 0, 19, 15, 16, 11])]
  edges := some [[0, 1, 8], [1, 2, 9], [2, 3, 10], [3, 0, 11], [4, 5, 12], [5, 6, 13], [6, 7, 14], [7, 4, 15], [0, 4, 16], [1, 5, 17], [2, 6, 18], [3, 7, 19]]
  extrudedType := 40
  reverseExtrudedType := 40
  linearType := 18
  quadraticType := 40
  quadraticType2 := 40
  extrude := []

/-- `NORM_HEXA27` (CellModel.cxx:1388-1463) -/
def cm_hexa27 : CellModel where
  code := 27
  dim := 3
  nbPts := 27
  nbSons := 6
  dyn := false
  quad := true
  sons := [(9, [0, 1, 2, 3, 8, 9, 10, 11, 20]), (9, [4, 7, 6, 5, 15, 14, 13, 12, 25]), (9, [0, 4, 5, 1, 16, 12, 17, 8, 21]), (9, [1, 5, 6, 2, 17, 13, 18, 9, 22]), (9, [2, 6, 7, 3, 18, 14, 19, 10, 23]), (9, [3, 7, 4, 0, 19, 15, 16, 11, 24])]
  edges := none
  extrudedType := 40
  reverseExtrudedType := 40
  linearType := 18
  quadraticType := 40
  quadraticType2 := 40
  extrude := []

/-- `NORM_POLYGON` (CellModel.cxx:1464-1474) -/
def cm_polygon : CellModel where
  code := 5
  dim := 2
  nbPts := 0
  nbSons := 0
  dyn := true
  quad := false
  sons := []
  edges := none
  extrudedType := 31
  reverseExtrudedType := 40
  linearType := 40
  quadraticType := 32
  quadraticType2 := 40
  extrude := []

/-- `NORM_POLYHED` (CellModel.cxx:1475-1483) -/
def cm_polyhed : CellModel where
  code := 31
  dim := 3
  nbPts := 0
  nbSons := 0
  dyn := true
  quad := false
  sons := []
  edges := none
  extrudedType := 40
  reverseExtrudedType := 40
  linearType := 40
  quadraticType := 40
  quadraticType2 := 40
  extrude := []

/-- `NORM_QPOLYG` (CellModel.cxx:1484-1494) -/
def cm_qpolyg : CellModel where
  code := 32
  dim := 2
  nbPts := 0
  nbSons := 0
  dyn := true
  quad := true
  sons := []
  edges := none
  extrudedType := 40
  reverseExtrudedType := 40
  linearType := 5
  quadraticType := 40
  quadraticType2 := 40
  extrude := []

/-- `NORM_POLYL` (CellModel.cxx:1495-1504) -/
def cm_polyl : CellModel where
  code := 33
  dim := 1
  nbPts := 0
  nbSons := 0
  dyn := true
  quad := false
  sons := []
  edges := none
  extrudedType := 5
  reverseExtrudedType := 40
  linearType := 40
  quadraticType := 40
  quadraticType2 := 40
  extrude := []

/-- `NORM_ERROR` (CellModel.cxx:1505-1511) -/
def cm_error : CellModel where
  code := 40
  dim := 4294967295
  nbPts := 4294967295
  nbSons := 4294967295
  dyn := false
  quad := false
  sons := []
  edges := none
  extrudedType := 40
  reverseExtrudedType := 40
  linearType := 40
  quadraticType := 40
  quadraticType2 := 40
  extrude := []

/-- `GetMapOfUniqueInstance` (CellModel.cxx:215-221, 262-290) -/
def cellModels : List CellModel :=
  [cm_point1, cm_seg2, cm_seg3, cm_seg4, cm_tetra4, cm_hexa8, cm_quad4, cm_tri3, cm_tri6, cm_tri7, cm_quad8, cm_quad9, cm_pyra5, cm_penta6, cm_tetra10, cm_hexgp12, cm_pyra13, cm_penta15, cm_penta18, cm_hexa20, cm_hexa27, cm_polygon, cm_polyhed, cm_qpolyg, cm_polyl, cm_error]

/-- `CellModel::GetCellModel` (CellModel.cxx:201-212) -/
def getCellModel (t : Int) : M CellModel :=
  match cellModels.find? (fun cm => cm.code == t) with
  | some cm => .ok cm
  | none => throwX

/-- `getNumberOfSons2` (CellModel.cxx:1519-1534); `getNumberOfSons` when the type is static. -/
def CellModel.numberOfSons (cm : CellModel) (conn : List Int) : Nat :=
  if !cm.dyn then cm.nbSons
  else if cm.dim = 2 then (if cm.code = 5 then conn.length else conn.length / 2)
  else if cm.dim = 1 then conn.length
  else conn.count (-1) + 1

/-- `getSonType2` (CellModel.cxx:1637-1652) -/
def CellModel.sonType (cm : CellModel) (sonId : Nat) : M Int :=
  if !cm.dyn then
    match cm.sons[sonId]? with
    | some s => .ok s.1
    | none => undef
  else if cm.dim = 2 then .ok (if cm.code = 5 then 1 else 2)
  else if cm.dim = 1 then .ok 40
  else .ok 5

/-- `std::find(conn + start, conn + lgth, v)`, the position found or the length. -/
def findFrom (conn : List Int) (start : Nat) (v : Int) : M Nat :=
  if start ≤ conn.length then .ok (start + (conn.drop start).findIdx (· == v)) else undef

/-- the loop which skips `sonId` faces of a polyhedron (CellModel.cxx:1698-1703, 1900-1905) -/
def polyhedronFaceStart (conn : List Int) (sonId : Nat) : M Nat :=
  loop sonId 0 fun _ start => do
    let p ← findFrom conn start (-1)
    .ok (p + 1)

/-- `fillSonCellNodalConnectivity2` (CellModel.cxx:1659-1709): type and nodal connectivity of a son. -/
def CellModel.son (cm : CellModel) (sonId : Nat) (conn : List Int) : M (Int × List Int) := do
  let t ← cm.sonType sonId
  if !cm.dyn then
    match cm.sons[sonId]? with
    | some s => do
      let r ← s.2.mapM (fun k : Nat => rd conn (k : Int))
      .ok (t, r)
    | none => undef
  else if cm.dim = 2 then
    if cm.code = 5 then do
      let a ← rd conn (sonId : Int)
      let b ← rd conn (((sonId + 1) % conn.length : Nat) : Int)
      .ok (t, [a, b])
    else do
      let a ← rd conn (sonId : Int)
      let b ← rd conn (((sonId + 1) % (conn.length / 2) : Nat) : Int)
      let c ← rd conn ((sonId + conn.length / 2 : Nat) : Int)
      .ok (t, [a, b, c])
  else if cm.dim = 3 then do
    let w ← polyhedronFaceStart conn sonId
    let w2 ← findFrom conn w (-1)
    .ok (t, slice conn w w2)
  else throwX

/-- Every son of a cell, in order: the loop `for (i = 0; i < getNumberOfSons2(...); i++) fillSonCellNodalConnectivity2(i,...)`
of the users of `CellModel`, as `buildDescendingConnectivityGen` (MEDCouplingUMesh.txx:79-100). -/
def CellModel.allSons (cm : CellModel) (conn : List Int) : M (List (Int × List Int)) :=
  (List.range (cm.numberOfSons conn)).mapM fun i => cm.son i conn

/-- `getNumberOfEdges` (CellModel.cxx:1537-1553) -/
def CellModel.numberOfEdges (cm : CellModel) : M Nat :=
  if !cm.dyn then
    if cm.dim = 2 then .ok cm.nbSons
    else if cm.dim = 3 then .ok (match cm.edges with | some e => e.length | none => unsignedMax)
    else throwX
  else throwX

/-- `fillSonEdgesNodalConnectivity3D` (CellModel.cxx:1750-1776) -/
def CellModel.edge3D (cm : CellModel) (sonId : Nat) (conn : List Int) : M (Int × List Int) :=
  if !cm.dyn then
    match cm.edges with
    | some es =>
      match es[sonId]? with
      | some e => do
        let r ← (e.take (if cm.quad then 3 else 2)).mapM (fun k : Nat => rd conn (k : Int))
        .ok (if cm.quad then 2 else 1, r)
      | none => undef
    | none => undef
  else throwX

/-- `buildExtruded` (CellModel.cxx:1621-1631) -/
def CellModel.buildExtruded (cm : CellModel) (conn : List Int) (offset : Int) : M (List Int) := do
  let ext ← getCellModel cm.extrudedType
  (List.range ext.nbPts).mapM fun i =>
    match cm.extrude[i]? with
    | some lp => do
      let x ← rd conn (lp.2 : Int)
      .ok (x + (lp.1 : Int) * offset)
    | none => undef

/-- `std::reverse(p + a, p + b)` -/
def revRange {α : Type} (l : List α) (a b : Nat) : M (List α) :=
  if a ≤ b ∧ b ≤ l.length then .ok (l.take a ++ ((l.drop a).take (b - a)).reverse ++ l.drop b) else undef

/-- `std::swap(p[a], p[b])` -/
def swapNodes {α : Type} (l : List α) (a b : Nat) : M (List α) := do
  let x ← rd l (a : Int)
  let y ← rd l (b : Int)
  let l ← wr l (a : Int) y
  wr l (b : Int) x

/-- `changeOrientationOf2D` (CellModel.cxx:1830-1849). The reversed copies go through vectors of `sz - 1`, or `sz/2 - 1`
and `sz/2`, cells: a source which is longer than its vector is written outside it. For `sz` equal to 1 the quadratic
case asks for a vector of `unsigned(-1)` cells (`std::bad_alloc` or `std::length_error`, modelled by an exception). -/
def CellModel.changeOrientationOf2D (cm : CellModel) (conn : List Int) : M (List Int) :=
  if conn.length < 1 then .ok conn
  else if !cm.quad then .ok (conn.take 1 ++ (conn.drop 1).reverse)
  else
    let sz2 := conn.length / 2
    if sz2 = 0 then throwX
    else if conn.length - sz2 ≤ sz2 then do
      let l ← revRange conn 1 sz2
      revRange l sz2 l.length
    else undef

/-- `changeOrientationOf1D` (CellModel.cxx:1852-1877) -/
def CellModel.changeOrientationOf1D (cm : CellModel) (conn : List Int) : M (List Int) :=
  if !cm.dyn then
    if conn.length = 2 ∨ conn.length = 3 then swapNodes conn 0 1
    else if conn.length = 4 then do
      let l ← swapNodes conn 0 1
      swapNodes l 2 3
    else throwX
  else if conn.length = 0 then throwX
  else .ok (conn.take 1 ++ (conn.drop 1).reverse)

/-- `std::search(t, tEnd, p, pEnd)`: position of the first occurrence, `none` for the end of `t`. -/
def search? (p : List Int) : List Int → Option Nat
  | [] => if p.isEmpty then some 0 else none
  | x :: t => if p.isPrefixOf (x :: t) then some 0 else (search? p t).map (· + 1)

/-- `getOrientationStatus` (CellModel.cxx:1918-1978), with `lgth` the length of both connectivities. `it == tmp.end()`
and a match found at the end (empty pattern in an empty table) are the same iterator. The table `tmp` of the quadratic
2D case has `lgth` cells, too few for twice the middle nodes when `lgth` is odd; the one of the quadratic 1D case is
resized to `2*p-2` cells, too few when `lgth` is even. -/
def CellModel.orientationStatus (cm : CellModel) (conn1 conn2 : List Int) : M Bool :=
  let n := conn1.length
  if cm.dim ≠ 1 ∧ cm.dim ≠ 2 then throwX
  else if !cm.quad then
    let tmp := conn1 ++ conn1
    match search? conn2 tmp with
    | some 0 => .ok true
    | some _ => .ok (cm.dim ≠ 1)
    | none =>
      match search? conn2 tmp.reverse with
      | some _ => .ok false
      | none => throwX
  else if cm.dim ≠ 1 then
    let c := conn1.take (n / 2)
    let m := conn1.drop (n / 2)
    match search? (conn2.take (n / 2)) (c ++ c ++ List.replicate (n % 2) 0) with
    | none => .ok false
    | some d =>
      if n % 2 = 1 then undef
      else
        match search? conn2 (m ++ m) with
        | none => .ok false
        | some d2 => .ok (d == d2)
  else
    let p := (n + 1) / 2
    let c := conn1.take p
    let m := conn1.drop p
    match search? (conn2.take p) (c ++ c) with
    | none => .ok false
    | some d =>
      if n % 2 = 0 then undef
      else
        match search? (conn2.drop p) (m ++ m) with
        | none => .ok false
        | some d2 => .ok (d == d2)

/-- `OrientationInverterChecker::operate` (OrientationInverter.hxx:41-45, OrientationInverter.cxx:76-85) -/
def checkedInv {α : Type} (n : Nat) (conn : List α) (f : List α → M (List α)) : M (List α) :=
  if conn.length ≠ n then throwX else f conn

/-- `OrientationInverter::BuildInstanceFrom(gt)->operate(begin, end)` (OrientationInverter.cxx:30-175) -/
def invertCell {α : Type} (gt : Int) (conn : List α) : M (List α) :=
  if gt = 1 then checkedInv 2 conn fun l => swapNodes l 0 1
  else if gt = 2 then checkedInv 3 conn fun l => swapNodes l 0 2
  else if gt = 3 then checkedInv 3 conn fun l => revRange l 1 3
  else if gt = 4 then checkedInv 4 conn fun l => revRange l 1 4
  else if gt = 5 then revRange conn 1 conn.length
  else if gt = 6 then checkedInv 6 conn fun l => do
    let l ← revRange l 1 3
    revRange l 3 6
  else if gt = 8 then checkedInv 8 conn fun l => do
    let l ← revRange l 1 4
    revRange l 4 8
  else if gt = 32 then do
    let l ← revRange conn 1 (conn.length / 2)
    revRange l (l.length / 2) l.length
  else if gt = 14 then checkedInv 4 conn fun l => swapNodes l 1 2
  else if gt = 15 then checkedInv 5 conn fun l => revRange l 1 4
  else if gt = 16 then checkedInv 6 conn fun l => do
    let l ← revRange l 1 3
    revRange l 4 6
  else if gt = 18 then checkedInv 8 conn fun l => do
    let l ← revRange l 1 4
    revRange l 5 8
  else if gt = 20 then checkedInv 10 conn fun l => do
    let l ← swapNodes l 1 2
    let l ← swapNodes l 4 6
    swapNodes l 8 9
  else if gt = 23 then checkedInv 13 conn fun l => do
    let l ← revRange l 1 4
    let l ← revRange l 5 9
    swapNodes l 10 12
  else if gt = 25 then checkedInv 15 conn fun l => do
    let l ← revRange l 1 3
    let l ← revRange l 4 6
    let l ← revRange l 6 9
    let l ← revRange l 9 12
    revRange l 13 15
  else if gt = 30 then checkedInv 20 conn fun l => do
    let l ← revRange l 1 4
    let l ← revRange l 5 8
    let l ← revRange l 8 12
    let l ← revRange l 12 16
    revRange l 17 20
  else throwX

end MC
