import Verif.Core.Mem
import Verif.Props.SimulatorTimer
import Verif.Props.SparseTable
import Verif.Props.Tarjan
import Verif.Props.Reorder
import Verif.Props.Dfs
import Verif.Props.Partition
import Verif.Props.PartitionSplit
import Verif.Props.HashSet
import Verif.Props.SparseSys
import Verif.Props.SparseVector
import Verif.Props.Interp
import Verif.Props.NonuniformTable
import Verif.Props.UniformTable
import Verif.Props.RootFinders
import Verif.Props.FlowBc
import Verif.Props.Sources
import Verif.Props.Wells
import Verif.Props.Param
import Verif.Props.Requirement
import Verif.Props.CartGrid
import Verif.Props.Trans
import Verif.Props.CartTrans
import Verif.Props.SpuExplicit
import Verif.Model.IfsTpfa
import Verif.Spec.IfsTpfa
import Verif.Proofs.IfsSys
import Verif.Proofs.IfsMatrix
import Verif.Proofs.IfsAssemble
import Verif.Proofs.IfsForces
import Verif.Proofs.IfsFlux
import Verif.Proofs.IfsMain
import Verif.Proofs.IfsSingular
import Verif.Proofs.IfsRock
import Verif.Proofs.IfsUnique
import Verif.Props.IfsTpfa
import Verif.Model.MiscUtil
import Verif.Spec.MiscUtil
import Verif.Proofs.MiscUtil
import Verif.Proofs.Mobility
import Verif.Proofs.TransportSource
import Verif.Props.MiscUtil
import Verif.Props.Mobility
import Verif.Props.TransportSource
import Verif.Props.CellVelocity
import Verif.Props.WellRates
import Verif.Model.UniquePoints
import Verif.Spec.UniquePoints
import Verif.Proofs.UniqueList
import Verif.Proofs.UniquePillars
import Verif.Proofs.UniqueAssign
import Verif.Props.UniquePoints
import Verif.Model.FaceTopology
import Verif.Model.Preprocess
import Verif.Spec.FaceTopology
import Verif.Proofs.FaceTopology
import Verif.Proofs.FindConnections
import Verif.Proofs.FaceOutline
import Verif.Proofs.Connections
import Verif.Props.FaceTopology
import Verif.Spec.Preprocess
import Verif.Proofs.VerticalFaces
import Verif.Proofs.Columns
import Verif.Proofs.HorizontalFaces
import Verif.Proofs.Tame
import Verif.Proofs.CellNumbers
import Verif.Proofs.Depths
import Verif.Proofs.Points
import Verif.Proofs.ConnFrame
import Verif.Spec.ProcessedGrid
import Verif.Proofs.CrossPoints
import Verif.Proofs.Orientation
import Verif.Proofs.Process
import Verif.Proofs.ProcessedGrid
import Verif.Proofs.Runs
import Verif.Props.Preprocess
import Verif.Model.ColumnExtract
import Verif.Spec.ColumnExtract
import Verif.Proofs.ColumnExtract
import Verif.Props.ColumnExtract
import Verif.Model.RockCompressibility
import Verif.Props.RockCompressibility
import Verif.Model.CoarseConn
import Verif.Spec.CoarseConn
import Verif.Proofs.CoarseConn
import Verif.Proofs.CoarseDerive
import Verif.Proofs.CoarseBuild
import Verif.Props.CoarseConn
import Verif.Model.MonotCubic
import Verif.Spec.MonotCubic
import Verif.Proofs.MonotCubic
import Verif.Proofs.MonotCubicEval
import Verif.Proofs.MonotCubicOps
import Verif.Props.MonotCubic
import Verif.Model.UniformMonotone
import Verif.Props.UniformMonotone
import Verif.Model.WellsGroup
import Verif.Spec.WellsGroup
import Verif.Proofs.WellsGroup
import Verif.Proofs.WellsGroupShare
import Verif.Proofs.WellsGroupCheck
import Verif.Props.WellsGroup
import Verif.Props.WellsGroupCases
import Verif.Proofs.WellsGroupCollection
import Verif.Props.WellsGroupCollection
import Verif.Props.WellsGroupBreach
import Verif.Model.WellsManager
import Verif.Spec.WellsManager
import Verif.Proofs.WellsManager
import Verif.Proofs.WellsManagerControls
import Verif.Proofs.WellsManagerDeck
import Verif.Props.WellsManager
import Verif.Props.WellsManagerCases
import Verif.Model.WellTree
import Verif.Spec.WellTree
import Verif.Proofs.WellTree
import Verif.Proofs.WellTreeBuild
import Verif.Proofs.WellTreeDeck
import Verif.Proofs.WellTreeShape
import Verif.Proofs.WellTreeGuide
import Verif.Proofs.WellTreeShare
import Verif.Proofs.WellTreeTargets
import Verif.Props.WellTree
import Verif.Props.WellTreeCases
import Verif.Props.DeckReader
import Verif.Props.DeckTables
import Verif.Props.Tof
import Verif.Props.TwophaseReorder
import Verif.Props.GravitySegregation
import Verif.Model.Pvt
import Verif.Spec.Pvt
import Verif.Proofs.Slope
import Verif.Proofs.Pvt
import Verif.Proofs.PvtPoint
import Verif.Props.Pvt
import Verif.Proofs.PvtOil
import Verif.Proofs.PvtFill
import Verif.Proofs.LiveOil
import Verif.Props.LiveOil
import Verif.Proofs.LiveGas
import Verif.Props.LiveGas
import Verif.Model.Blackoil
import Verif.Spec.Blackoil
import Verif.Proofs.Blocks
import Verif.Proofs.Blackoil
import Verif.Proofs.BlackoilMatrix
import Verif.Props.Blackoil
import Verif.Props.BlackoilBasic
import Verif.Model.SatFunc
import Verif.Model.SatProps
import Verif.Spec.SatFunc
import Verif.Proofs.Put
import Verif.Proofs.SatFunc
import Verif.Proofs.SatSlope
import Verif.Props.SatDeriv
import Verif.Props.SatInit
import Verif.Props.SatEnds
import Verif.Props.SatThree
import Verif.Props.SatProps
import Verif.Props.EndPoints
import Verif.Props.SatBasic
import Verif.Model.Rock
import Verif.Spec.Rock
import Verif.Props.Rock
import Verif.Props.IncompProps
import Verif.Model.InitState
import Verif.Spec.InitState
import Verif.Props.InitState
import Verif.Props.InitBasic
import Verif.Props.InitDeck
import Verif.Model.Geometry
import Verif.Spec.Geometry
import Verif.Proofs.Geometry
import Verif.Props.Geometry
import Verif.Props.GeometryArrays
import Verif.Props.GeometryCases
import Verif.Model.FlowBcManager
import Verif.Props.FlowBcManager
import Verif.Props.FlowBcCart
import Verif.Model.CompressibleReorder
import Verif.Spec.CompressibleReorder
import Verif.Proofs.CompressibleReorder
import Verif.Proofs.CompressibleSweeps
import Verif.Props.CompressibleReorder
import Verif.Model.MiscBlackoil
import Verif.Props.MiscBlackoil
import Verif.Model.Quadrature
import Verif.Spec.Quadrature
import Verif.Proofs.Quadrature
import Verif.Props.Quadrature
import Verif.Model.Hybsys
import Verif.Spec.Hybsys
import Verif.Proofs.Hybsys
import Verif.Proofs.HybsysCell
import Verif.Proofs.HybsysBc
import Verif.Proofs.HybsysGlobal
import Verif.Proofs.HybsysFace
import Verif.Proofs.HybsysMatrix
import Verif.Proofs.HybsysMain
import Verif.Props.Hybsys
import Verif.Model.Mimetic
import Verif.Spec.Mimetic
import Verif.Proofs.Mimetic
import Verif.Proofs.MimeticAlg
import Verif.Proofs.MimeticCell
import Verif.Props.Mimetic
import Verif.Spec.EndPoints
import Verif.Model.IncompTpfa
import Verif.Spec.IncompTpfa
import Verif.Proofs.IncompTpfa
import Verif.Props.IncompTpfa
import Verif.Proofs.IncompRock
import Verif.Props.IncompRock
import Verif.Model.ImplicitTransport
import Verif.Spec.ImplicitTransport
import Verif.Proofs.ImplicitStore
import Verif.Proofs.ImplicitMatrix
import Verif.Proofs.ImplicitFlux
import Verif.Proofs.ImplicitResidual
import Verif.Proofs.ImplicitNewton
import Verif.Props.ImplicitTransport
import Verif.Model.CfsTpfa
import Verif.Spec.CfsTpfa
import Verif.Proofs.CfsLin
import Verif.Proofs.CfsCell
import Verif.Proofs.CfsRows
import Verif.Proofs.CfsWells
import Verif.Proofs.CfsMain
import Verif.Proofs.CfsRock
import Verif.Props.CfsTpfa
import Verif.Model.CompressibleTpfa
import Verif.Spec.CompressibleTpfa
import Verif.Proofs.CompressibleData
import Verif.Proofs.CompressibleSolve
import Verif.Props.CompressibleTpfa
import Verif.Model.Wachspress
import Verif.Spec.Wachspress
import Verif.Proofs.Wachspress
import Verif.Proofs.WachspressLinear
import Verif.Props.Wachspress
import Verif.Props.VelocityInterpolation
import Verif.Props.WachspressExample
import Verif.Props.WachspressLinear
import Verif.Model.DGBasis
import Verif.Spec.DGBasis
import Verif.Proofs.DGBasis
import Verif.Props.DGBasis
import Verif.Model.TofLimiter
import Verif.Spec.TofLimiter
import Verif.Proofs.TofLimiter
import Verif.Props.TofLimiter
import Verif.Props.TofLimiterExample
import Verif.Props.TofDiscGal
import Verif.Props.TofDiscGalExample
import Verif.Model.TofDiscGal
import Verif.Spec.TofDiscGal
import Verif.Proofs.TofDiscGal
import Verif.Model.TofMultidim
import Verif.Spec.TofMultidim
import Verif.Proofs.TofMultidim
import Verif.Props.TofMultidim
import Verif.Model.GridManager
import Verif.Spec.GridManager
import Verif.Props.GridManager
import Verif.Model.GridInspector
import Verif.Spec.GridInspector
import Verif.Proofs.GridInspector
import Verif.Props.GridInspector
import Verif.Model.Chopper
import Verif.Spec.Chopper
import Verif.Proofs.Chopper
import Verif.Props.Chopper
