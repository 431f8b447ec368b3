import Verif.Base.Arc
import Verif.Base.Exp
import Verif.Base.Fl
import Verif.Base.Inst
import Verif.Base.Loops
import Verif.Base.Pow
import Verif.Base.Res
import Verif.Base.Trig
import Verif.Lemmas.Bilinear
import Verif.Lemmas.BilinearGrid
import Verif.Lemmas.Box
import Verif.Lemmas.CalcGradient
import Verif.Lemmas.Client.Bct
import Verif.Lemmas.Client.Bilinear
import Verif.Lemmas.Client.BilinearGrid
import Verif.Lemmas.Client.Coastal
import Verif.Lemmas.Client.Dates
import Verif.Lemmas.Client.Diagnose
import Verif.Lemmas.Client.DownscaleFile
import Verif.Lemmas.Client.Downscaler
import Verif.Lemmas.Client.Field
import Verif.Lemmas.Client.FieldStore
import Verif.Lemmas.Client.FileNetcdf
import Verif.Lemmas.Client.FileNetcdfCore
import Verif.Lemmas.Client.FileText
import Verif.Lemmas.Client.Gaussian
import Verif.Lemmas.Client.Gradient
import Verif.Lemmas.Client.Grid
import Verif.Lemmas.Client.Interp
import Verif.Lemmas.Client.KDTree
import Verif.Lemmas.Client.Kriging
import Verif.Lemmas.Client.Likelihood
import Verif.Lemmas.Client.Matrix
import Verif.Lemmas.Client.Neighbourhood
import Verif.Lemmas.Client.OiEnsemble
import Verif.Lemmas.Client.OiRadar
import Verif.Lemmas.Client.OiSingle
import Verif.Lemmas.Client.OiStations
import Verif.Lemmas.Client.OiTime
import Verif.Lemmas.Client.Options
import Verif.Lemmas.Client.ParameterFile
import Verif.Lemmas.Client.ParameterNearest
import Verif.Lemmas.Client.ParameterNetcdf
import Verif.Lemmas.Client.ParameterText
import Verif.Lemmas.Client.ParameterTextWrite
import Verif.Lemmas.Client.Places
import Verif.Lemmas.Client.Qq
import Verif.Lemmas.Client.Recalibrate
import Verif.Lemmas.Client.Regression
import Verif.Lemmas.Client.Schemes
import Verif.Lemmas.Client.Series
import Verif.Lemmas.Client.Setup
import Verif.Lemmas.Client.SetupAll
import Verif.Lemmas.Client.SetupLine
import Verif.Lemmas.Client.Sort
import Verif.Lemmas.Client.Stat
import Verif.Lemmas.Client.Stencil
import Verif.Lemmas.Client.Zaga
import Verif.Lemmas.Client.ZagaCore
import Verif.Lemmas.Curve
import Verif.Lemmas.Elementwise
import Verif.Lemmas.Ensi
import Verif.Lemmas.EnsiData
import Verif.Lemmas.EnsiEtkf
import Verif.Lemmas.EnsiLimit
import Verif.Lemmas.EnsiMember
import Verif.Lemmas.EnsiMulti
import Verif.Lemmas.EnsiStandard
import Verif.Lemmas.EnsiUtem
import Verif.Lemmas.Etkf
import Verif.Lemmas.EtkfG
import Verif.Lemmas.EvenQuantiles
import Verif.Lemmas.EvenQuantiles2
import Verif.Lemmas.Fill
import Verif.Lemmas.Geo
import Verif.Lemmas.Gradient
import Verif.Lemmas.Grid
import Verif.Lemmas.Gridding
import Verif.Lemmas.Interp
import Verif.Lemmas.LocalDistribution
import Verif.Lemmas.Monotonize
import Verif.Lemmas.Nearest
import Verif.Lemmas.Neighbourhood
import Verif.Lemmas.Neighbourhood2
import Verif.Lemmas.OI
import Verif.Lemmas.OI2
import Verif.Lemmas.Omp
import Verif.Lemmas.Quantile
import Verif.Lemmas.QuantileFast
import Verif.Lemmas.Radius
import Verif.Lemmas.Search
import Verif.Lemmas.Square
import Verif.Lemmas.SquareLoop
import Verif.Lemmas.Stats
import Verif.Lemmas.Structure
import Verif.Lemmas.Structure2
import Verif.Lemmas.Structure3
import Verif.Lemmas.Units
import Verif.Lemmas.Window
import Verif.Model.Bilinear
import Verif.Model.CalcGradient
import Verif.Model.Client.Bct
import Verif.Model.Client.Bilinear
import Verif.Model.Client.Calibrators
import Verif.Model.Client.Coastal
import Verif.Model.Client.CoastalTrain
import Verif.Model.Client.Dates
import Verif.Model.Client.Descriptions
import Verif.Model.Client.Diagnose
import Verif.Model.Client.DownscaleFile
import Verif.Model.Client.Downscaler
import Verif.Model.Client.Driver
import Verif.Model.Client.Field
import Verif.Model.Client.FieldStore
import Verif.Model.Client.FileFake
import Verif.Model.Client.FileKind
import Verif.Model.Client.FileNetcdf
import Verif.Model.Client.FileNetcdfAltitude
import Verif.Model.Client.FileNetcdfAttributes
import Verif.Model.Client.FileNetcdfCore
import Verif.Model.Client.FileNetcdfOpen
import Verif.Model.Client.FileNorcom
import Verif.Model.Client.FilePoint
import Verif.Model.Client.FileText
import Verif.Model.Client.Gaussian
import Verif.Model.Client.Gradient
import Verif.Model.Client.GradientBilinear
import Verif.Model.Client.Grid
import Verif.Model.Client.Interp
import Verif.Model.Client.KDTree
import Verif.Model.Client.Kriging
import Verif.Model.Client.Likelihood
import Verif.Model.Client.Matrix
import Verif.Model.Client.Neighbourhood
import Verif.Model.Client.Netcdf
import Verif.Model.Client.Oi
import Verif.Model.Client.OiAnalysis
import Verif.Model.Client.Options
import Verif.Model.Client.ParameterFile
import Verif.Model.Client.ParameterNetcdf
import Verif.Model.Client.ParameterSimple
import Verif.Model.Client.ParameterText
import Verif.Model.Client.Places
import Verif.Model.Client.Qq
import Verif.Model.Client.Recalibrate
import Verif.Model.Client.Regression
import Verif.Model.Client.Schemes
import Verif.Model.Client.Setup
import Verif.Model.Client.SetupData
import Verif.Model.Client.SetupFiles
import Verif.Model.Client.Stencil
import Verif.Model.Client.TrainFields
import Verif.Model.Client.Util
import Verif.Model.Client.Variable
import Verif.Model.Client.WindDirection
import Verif.Model.Client.Zaga
import Verif.Model.CorrPoints
import Verif.Model.Curve
import Verif.Model.Distribution
import Verif.Model.Ensi
import Verif.Model.Fill
import Verif.Model.Geo
import Verif.Model.Gradient
import Verif.Model.Gridding
import Verif.Model.LocalDistribution
import Verif.Model.Names
import Verif.Model.Nearest
import Verif.Model.Neighbourhood
import Verif.Model.NeighbourhoodScore
import Verif.Model.OI
import Verif.Model.Omp
import Verif.Model.Physics
import Verif.Model.Probability
import Verif.Model.QuantileFast
import Verif.Model.Score
import Verif.Model.Search
import Verif.Model.Smart
import Verif.Model.Structure
import Verif.Model.Transform
import Verif.Model.Util
import Verif.Model.Window
import Verif.Props.Averages
import Verif.Props.AveragesMore
import Verif.Props.Bilinear
import Verif.Props.BilinearGrid
import Verif.Props.CalcGradient
import Verif.Props.Client.Accumulate
import Verif.Props.Client.Bct
import Verif.Props.Client.BilinearCell
import Verif.Props.Client.BilinearGrid
import Verif.Props.Client.Coastal
import Verif.Props.Client.CoastalTrain
import Verif.Props.Client.Dates
import Verif.Props.Client.Descriptions
import Verif.Props.Client.DiagnoseHumidity
import Verif.Props.Client.DiagnoseWind
import Verif.Props.Client.DownscaleFile
import Verif.Props.Client.Driver
import Verif.Props.Client.Field
import Verif.Props.Client.FieldStore
import Verif.Props.Client.FileFake
import Verif.Props.Client.FileKind
import Verif.Props.Client.FileNetcdf
import Verif.Props.Client.FileNetcdfAltitude
import Verif.Props.Client.FileNetcdfAttributes
import Verif.Props.Client.FileNetcdfCore
import Verif.Props.Client.FileNetcdfGrid
import Verif.Props.Client.FileNetcdfOpen
import Verif.Props.Client.FileNetcdfReopen
import Verif.Props.Client.FileNetcdfWrite
import Verif.Props.Client.FileNorcom
import Verif.Props.Client.FilePoint
import Verif.Props.Client.FileText
import Verif.Props.Client.FileTextWrite
import Verif.Props.Client.Gaussian
import Verif.Props.Client.Gradient
import Verif.Props.Client.GradientBilinear
import Verif.Props.Client.Grid
import Verif.Props.Client.Interp
import Verif.Props.Client.Inverse
import Verif.Props.Client.KDTree
import Verif.Props.Client.Kriging
import Verif.Props.Client.KrigingCovar
import Verif.Props.Client.KrigingCross
import Verif.Props.Client.KrigingInverse
import Verif.Props.Client.KrigingTrain
import Verif.Props.Client.LeastSquares
import Verif.Props.Client.Likelihood
import Verif.Props.Client.NearestDownscaler
import Verif.Props.Client.Neighbourhood
import Verif.Props.Client.Neighbours
import Verif.Props.Client.NetcdfGrid
import Verif.Props.Client.OiDelta
import Verif.Props.Client.OiEnsemble
import Verif.Props.Client.OiRadar
import Verif.Props.Client.OiRho
import Verif.Props.Client.OiSingle
import Verif.Props.Client.OiStations
import Verif.Props.Client.OiTime
import Verif.Props.Client.OiTransform
import Verif.Props.Client.Options
import Verif.Props.Client.ParameterFile
import Verif.Props.Client.ParameterNetcdf
import Verif.Props.Client.ParameterNetcdfWrite
import Verif.Props.Client.ParameterSimple
import Verif.Props.Client.ParameterText
import Verif.Props.Client.ParameterTextWrite
import Verif.Props.Client.Places
import Verif.Props.Client.Pointwise
import Verif.Props.Client.Qq
import Verif.Props.Client.Regression
import Verif.Props.Client.Schemes
import Verif.Props.Client.Setup
import Verif.Props.Client.SetupAll
import Verif.Props.Client.SetupFiles
import Verif.Props.Client.Shuffle
import Verif.Props.Client.Sort
import Verif.Props.Client.Stat
import Verif.Props.Client.Stencil
import Verif.Props.Client.TrainFields
import Verif.Props.Client.Variable
import Verif.Props.Client.WindDirection
import Verif.Props.Client.Window
import Verif.Props.Client.Zaga
import Verif.Props.Client.ZagaCore
import Verif.Props.Client.ZagaPop
import Verif.Props.CorrPoints
import Verif.Props.Curve
import Verif.Props.CurveUnits
import Verif.Props.Distance
import Verif.Props.Distribution
import Verif.Props.DownscalingOrder
import Verif.Props.DownscalingUnits
import Verif.Props.Elementwise
import Verif.Props.Ensi
import Verif.Props.EnsiCases
import Verif.Props.EnsiClamp
import Verif.Props.EnsiGrid
import Verif.Props.EnsiKalman
import Verif.Props.EnsiKalmanCases
import Verif.Props.EnsiMember
import Verif.Props.EnsiMemberGrid
import Verif.Props.EnsiMulti
import Verif.Props.EnsiUnits
import Verif.Props.EnsiUnitsGrid
import Verif.Props.EnsiUtem
import Verif.Props.EnsiUtemCases
import Verif.Props.EvenQuantiles
import Verif.Props.Exceptions
import Verif.Props.ExceptionsDownscale
import Verif.Props.ExceptionsEnsemble
import Verif.Props.ExceptionsEnsembleGrid
import Verif.Props.ExceptionsGridding
import Verif.Props.ExceptionsGrids
import Verif.Props.ExceptionsMore
import Verif.Props.Fill
import Verif.Props.FillLaws
import Verif.Props.FillOrder
import Verif.Props.FillUnits
import Verif.Props.FullGradient
import Verif.Props.FullGradientOrder
import Verif.Props.FullGradientUnits
import Verif.Props.Geo
import Verif.Props.Gradient
import Verif.Props.GradientLaws
import Verif.Props.Grid
import Verif.Props.Gridding
import Verif.Props.Humidity
import Verif.Props.Interp
import Verif.Props.LocalDistribution
import Verif.Props.LocalUnits
import Verif.Props.Monotonize
import Verif.Props.Names
import Verif.Props.Nearest
import Verif.Props.Neighbourhood
import Verif.Props.NeighbourhoodLaws
import Verif.Props.NeighbourhoodScore
import Verif.Props.OI
import Verif.Props.OICases
import Verif.Props.OIGrid
import Verif.Props.OIOrder
import Verif.Props.OIUnits
import Verif.Props.Omp
import Verif.Props.Optimizer
import Verif.Props.PointOrder
import Verif.Props.PointUnion
import Verif.Props.Pressure
import Verif.Props.Probability
import Verif.Props.ProbabilityUnits
import Verif.Props.QuantileFast
import Verif.Props.Rectangle
import Verif.Props.Score
import Verif.Props.ScoreLaws
import Verif.Props.SeaLevel
import Verif.Props.Search
import Verif.Props.SearchLaws
import Verif.Props.Smart
import Verif.Props.Stats
import Verif.Props.Structure
import Verif.Props.StructureVec
import Verif.Props.Transform
import Verif.Props.Wind
import Verif.Props.Window
import Verif.Props.WindowLaws
import Verif.Spec.Attributes
import Verif.Spec.Bct
import Verif.Spec.CalcGradient
import Verif.Spec.Calendar
import Verif.Spec.Client
import Verif.Spec.ClientCoastal
import Verif.Spec.ClientCoastalTrain
import Verif.Spec.ClientGradient
import Verif.Spec.ClientNeighbourhood
import Verif.Spec.ClientOi
import Verif.Spec.ClientOptions
import Verif.Spec.ClientParameters
import Verif.Spec.ClientQq
import Verif.Spec.ClientRegression
import Verif.Spec.ClientSchemes
import Verif.Spec.ClientSetup
import Verif.Spec.ClientSetupFiles
import Verif.Spec.ClientStat
import Verif.Spec.ClientWind
import Verif.Spec.Curve
import Verif.Spec.Descriptions
import Verif.Spec.Driver
import Verif.Spec.Ecdf
import Verif.Spec.Elementwise
import Verif.Spec.FileFake
import Verif.Spec.FileKind
import Verif.Spec.FileNorcom
import Verif.Spec.FilePoint
import Verif.Spec.FileText
import Verif.Spec.Gaussian
import Verif.Spec.Kalman
import Verif.Spec.Likelihood
import Verif.Spec.LocalDistribution
import Verif.Spec.Matrix
import Verif.Spec.Names
import Verif.Spec.Netcdf
import Verif.Spec.NetcdfCore
import Verif.Spec.NetcdfField
import Verif.Spec.NetcdfOpen
import Verif.Spec.OI
import Verif.Spec.OIOrder
import Verif.Spec.ParameterText
import Verif.Spec.Probability
import Verif.Spec.Recalibrate
import Verif.Spec.Score
import Verif.Spec.SeaLevel
import Verif.Spec.Search
import Verif.Spec.Square
import Verif.Spec.Stats
import Verif.Spec.Structure
import Verif.Spec.Units
import Verif.Spec.Window
import Verif.Spec.Zaga
import Verif.Audit
