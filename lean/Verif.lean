import Verif.Props.AbdallaDistance
import Verif.Props.Assembly
import Verif.Props.Balance
import Verif.Props.Boundaries
import Verif.Props.BoundariesIff
import Verif.Props.Buckling
import Verif.Props.BucklingSS
import Verif.Props.Constraints
import Verif.Props.Contig
import Verif.Props.Diso
import Verif.Props.Divide
import Verif.Props.DropDistribution
import Verif.Props.Exhaustive
import Verif.Props.Filters
import Verif.Props.Flexural
import Verif.Props.FlexuralSwap
import Verif.Props.FormatPdl
import Verif.Props.GroupSpacing
import Verif.Props.InputFile
import Verif.Props.LaylaConstraints
import Verif.Props.LaylaCounters
import Verif.Props.LaylaInputFile
import Verif.Props.LaylaMoments
import Verif.Props.LaylaNot
import Verif.Props.LaylaParameters
import Verif.Props.LaylaPenalties
import Verif.Props.LaylaPruning
import Verif.Props.LaylaSearch
import Verif.Props.LevelWeights
import Verif.Props.Material
import Verif.Props.MaxArrays
import Verif.Props.Membrane
import Verif.Props.MembraneMore
import Verif.Props.MembraneTen
import Verif.Props.MiddlePly
import Verif.Props.MiddlePlyExample
import Verif.Props.MinCounts
import Verif.Props.Moments
import Verif.Props.MultiPanel
import Verif.Props.Objectives
import Verif.Props.OneChecks
import Verif.Props.OnePdl
import Verif.Props.OnePdlFailure
import Verif.Props.OnePdlViolations
import Verif.Props.OnePly
import Verif.Props.OnePlyStrip
import Verif.Props.OneStack
import Verif.Props.Optimiser
import Verif.Props.OptimiserExample
import Verif.Props.Orthotropy
import Verif.Props.PanelWeights
import Verif.Props.Panels
import Verif.Props.PanelsVanish
import Verif.Props.Parameters
import Verif.Props.ParametersSheet
import Verif.Props.PdlCount
import Verif.Props.PdlGlobal
import Verif.Props.PdlIni
import Verif.Props.PdlInitial
import Verif.Props.PdlTools
import Verif.Props.PlyChoice
import Verif.Props.Positions
import Verif.Props.Pruning
import Verif.Props.Reduced
import Verif.Props.Repair10
import Verif.Props.Repair10Fix
import Verif.Props.RepairAbdalla
import Verif.Props.RepairDisoContig
import Verif.Props.RepairFlexural
import Verif.Props.RepairMp
import Verif.Props.RepairMpFailure
import Verif.Props.RepairMpViolations
import Verif.Props.RepairReference
import Verif.Props.RepairSs
import Verif.Props.RepairSsExamples
import Verif.Props.RepairTools
import Verif.Props.RepairTotal
import Verif.Props.Report
import Verif.Props.ReportExample
import Verif.Props.ReportFile
import Verif.Props.ReportFileExample
import Verif.Props.ReportFileOdd
import Verif.Props.RunEnds
import Verif.Props.Search
import Verif.Props.SearchAll
import Verif.Props.SearchAsym
import Verif.Props.SearchLampams
import Verif.Props.Selection
import Verif.Props.Sorting
import Verif.Props.Spacing
import Verif.Props.Steps
import Verif.Props.SubsetSum
import Verif.Props.SuccessRates
import Verif.Props.SuccessRatesExample
import Verif.Props.TenPercent
import Verif.Props.ThickToThin
import Verif.Props.ThinToThick
import Verif.Props.ViolaCount
