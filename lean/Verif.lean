import Verif.Base
import Verif.Slices
import Verif.SlicesProps
import Verif.MemArr
import Verif.MemArrProps
import Verif.Tuple
import Verif.Renumber
import Verif.RenumberProps
import Verif.StdAlg
import Verif.SetAlg
import Verif.SetAlgProps
import Verif.Perms
import Verif.Sky
import Verif.PermsProps
import Verif.PermsProps2
import Verif.Cursor
import Verif.Index
import Verif.IndexProps
import Verif.SkyOps
import Verif.SkyOpsProps
import Verif.PartitionProps
import Verif.Scan
import Verif.ScanProps
import Verif.Layout
import Verif.LayoutProps
import Verif.Chains
import Verif.ChainsProps
import Verif.RefCountProps
import Verif.ObjGraphProps
import Verif.TimeLabelProps
import Verif.PartDefProps
import Verif.StructProps
import Verif.BoxProps
import Verif.RangeProps
import Verif.StructConnProps
import Verif.StructConnProps2
import Verif.StructFaces
import Verif.StructMin
import Verif.StructMinProps
import Verif.CellModel
import Verif.CellModelProps
import Verif.UMesh
import Verif.UMeshProps
import Verif.UMeshRev
import Verif.UMeshNodes
import Verif.UMeshParts
import Verif.CommonCells
import Verif.CommonCellsProps
import Verif.CommonFind
import Verif.CommonZip
import Verif.Spread
import Verif.SpreadProps
import Verif.Desc
import Verif.DescProps
import Verif.DescThm
import Verif.Neigh
import Verif.NeighProps
import Verif.SkinProps
import Verif.NodeNeigh
import Verif.EnlNeigh
import Verif.LyingOn
import Verif.CellTypes
import Verif.CellTypesRuns
import Verif.CellSort
import Verif.CellProfile
import Verif.CellConsist
import Verif.CellPick
import Verif.CellKeep
import Verif.CellAgg
import Verif.OneGT
import Verif.OneGTProps
import Verif.OneGTParts
import Verif.OneGTPartsProps
import Verif.BBTree
import Verif.BBTreeProps
import Verif.BBTreeClosest
import Verif.BBClosestDist
import Verif.BBClosestDst
import Verif.BBClosestProps
import Verif.BBClosestFindings
import Verif.PtDist
import Verif.PtDistProps
import Verif.PtDistTri
import Verif.MeshDist
import Verif.MeshDistProps
import Verif.MeshDistThm
import Verif.MeshDistSurf
import Verif.MeshDistFindings
import Verif.Remapper
import Verif.RemapperMaps
import Verif.RemapperDeno
import Verif.RemapperProd
import Verif.RemapperRev
import Verif.RemapperThm
import Verif.RemapperProps
import Verif.RemapperMat
import Verif.ExprEval
import Verif.ExprSpec
import Verif.ExprScan
import Verif.ExprParse
import Verif.ExprFill
import Verif.ExprTree
import Verif.ExprProps
import Verif.BlockTopo
import Verif.BlockTopoProps
import Verif.BlockTopoThm
import Verif.Collective
import Verif.StructDec
import Verif.StructDecProps
import Verif.StructDecThm
import Verif.MsgPass
import Verif.OverlapLoc
import Verif.OverlapLocProps
import Verif.OverlapLocThm
import Verif.OverlapXchThm
import Verif.OverlapMap
import Verif.OverlapMapProps
import Verif.OverlapMapThm
import Verif.AmrPatch
import Verif.AmrPatchProps
import Verif.AmrPatchCut
import Verif.AmrPatchThm
import Verif.IMeshAmr
import Verif.IMeshAmrProps
import Verif.IMeshAmrThm
import Verif.IMeshAmrSpread
import Verif.FamGrp
import Verif.FamGrpProps
import Verif.FamGrpAdd
import Verif.FamGrpStep
import Verif.FamGrpTurn
import Verif.FamGrpThm
import Verif.FamEdit
import Verif.FamEditProps
import Verif.FamEditClean
import Verif.FamEditRearr
import Verif.FamEditZip
import Verif.FamEditName
import Verif.FamSet
import Verif.FamSetProps
import Verif.FamKeep
import Verif.FamNorm
import Verif.ShapeExp
import Verif.ShapeDeriv
import Verif.GaussElt
import Verif.GaussTab2D
import Verif.GaussTabTetra
import Verif.GaussTabPenta
import Verif.GaussTabHexa
import Verif.GaussInfo
import Verif.GaussChk
import Verif.GaussChkA
import Verif.GaussChkB
import Verif.GaussChkC
import Verif.GaussProps
import Verif.GaussThm
import Verif.GaussMain
import Verif.GaussRef
import Verif.GaussDev
import Verif.GaussCell
import Verif.GaussCellProps
import Verif.GaussCellThm
import Verif.GaussAdapt
import Verif.GaussLinChk
import Verif.GaussLin
import Verif.GaussCellEx
import Verif.Measure
import Verif.MeasureVol
import Verif.MeasureProps
import Verif.MeasureThm
import Verif.MeasureMain
import Verif.MeasureInv
import Verif.MeasureGeo
import Verif.MeasureSurf
import Verif.MeasureEx
import Verif.CellCut
import Verif.CellCutProps
import Verif.CellCutMeas
import Verif.CellCutMain
import Verif.CellPoly
import Verif.CellPolyMeas
import Verif.CellPolyEx
import Verif.CCInterp
import Verif.CCInterpAxis
import Verif.CCInterpFill
import Verif.CCInterpThm
import Verif.CCInterpProps
import Verif.PtLocate
import Verif.PtLocateMesh
import Verif.PtLocatePlane
import Verif.PtLocatePlaneThm
import Verif.PtLocateSpace
import Verif.PtLocateSpaceThm
import Verif.PtLocateProps
import Verif.Bary
import Verif.BaryGeo
import Verif.BaryThm
import Verif.BaryMain
import Verif.BarySurf
import Verif.BaryMesh
import Verif.BaryEx
import Verif.MergeNodes
import Verif.MergeNodesThm
import Verif.MergeNodesProps
import Verif.MergeCenter
import Verif.MergeSep
import Verif.SkyLine
import Verif.SkyLineThm
import Verif.SkyLineProps
import Verif.SkyLineMany
import Verif.SkyLinePoly
import Verif.Degen
import Verif.DegenThm
import Verif.DegenSides
import Verif.DegenEquiv
import Verif.DegenTab
import Verif.DegenPoly
import Verif.DegenMain
import Verif.DegenMesh
import Verif.DegenEx
import Verif.DefTime
import Verif.DefTimeThm
import Verif.DefTimeOrd
import Verif.DefTimeSer
import Verif.DefTimeZone
import Verif.DefTimeUse
import Verif.UnitConv
import Verif.UnitThm
import Verif.UnitUse
import Verif.DenseMat
import Verif.DenseMatThm
import Verif.MatInv
import Verif.MatInvThm
import Verif.Kriging
import Verif.KrigingThm
import Verif.PlaneEq
import Verif.PlaneEqThm
