import Verif.Props.Disparity
import Verif.Props.Masking
import Verif.Props.ImgTools
import Verif.Props.MatchingCost
import Verif.Props.OwnRange
import Verif.Props.Criteria
import Verif.Props.Save
import Verif.Props.Machine
import Verif.Props.Config
import Verif.Props.ConfigAgain
import Verif.Props.Estimation
import Verif.Props.Filters
import Verif.Props.Sinc
import Verif.Props.Dichotomy
import Verif.Props.DichotomyRun
import Verif.Props.DichotomyPipeline
import Verif.Props.OpticalFlow
import Verif.Props.OpticalFlowMore
import Verif.Props.LeastSquares
import Verif.Props.OpticalFlowCases
import Verif.Props.OpticalFlowPipeline
import Verif.Model.Interpolation
import Verif.Spec.Interpolation
import Verif.Props.Interpolation
import Verif.Props.InterpolationCases
import Verif.Model.Statistics
import Verif.Spec.Statistics
import Verif.Lemmas.Statistics
import Verif.Props.Statistics
import Verif.Props.Report
import Verif.Spec.Translation
import Verif.Props.Translation
import Verif.Spec.Zncc
import Verif.Props.Zncc
import Verif.Spec.Agreement
import Verif.Props.Agreement
import Verif.Spec.Crop
import Verif.Props.RoiRun
import Verif.Model.Profiling
import Verif.Spec.Profiling
import Verif.Props.Profiling
import Verif.Model.Summary
import Verif.Spec.Summary
import Verif.Props.Summary
import Verif.Spec.Accept
import Verif.Props.Accept
import Verif.Model.Run
import Verif.Spec.Run
import Verif.Props.Run
import Verif.Props.RunRange
import Verif.Model.Datasets
import Verif.Spec.Datasets
import Verif.Props.Datasets
import Verif.Model.Main
import Verif.Props.ColZoom
import Verif.Spec.Main
import Verif.Props.CheckConf
import Verif.Props.CheckAgain
import Verif.Props.SavedAgain
import Verif.Props.Short
import Verif.Props.CheckPipeline
import Verif.Props.SavedZone
import Verif.Props.MainSections
import Verif.Props.MainRun
import Verif.Props.MainStages
import Verif.Props.MainVolume
import Verif.Props.Main
import Verif.Props.Rebuild
import Verif.Props.SectionValues
import Verif.Props.Completes
import Verif.Props.Accepted
import Verif.Props.AcceptedExample
import Verif.Props.DichotomyMain
import Verif.Props.DichotomyMainExample
import Verif.Props.FlowMain
import Verif.Props.InterpMain
import Verif.Props.Written
import Verif.Props.MainExample
import Verif.Props.MainReport
import Verif.Props.Trimmed
import Verif.Spec.Winner
import Verif.Props.Winner
import Verif.Spec.Steps
import Verif.Props.Steps
import Verif.Spec.RoiRasters
import Verif.Props.RoiRasters
import Verif.Spec.Exact
import Verif.Props.Exact
import Verif.Spec.Wider
import Verif.Spec.Refined
import Verif.Spec.FlowMain
import Verif.Spec.InterpMain
import Verif.Props.Wider
import Verif.Props.Refined
import Verif.Props.FlowAgainst
import Verif.Spec.RunsExactly
import Verif.Props.RunsExactly
import Verif.Spec.RunsRoi
import Verif.Props.RunsRoi
import Verif.Spec.Whole
import Verif.Props.Whole
import Verif.Spec.Symmetry
import Verif.Props.Symmetry
import Verif.Spec.NoDataValue
import Verif.Props.NoDataValue
import Verif.Props.InterpAgainst
import Verif.Props.Radiometry
import Verif.Props.Mirror
import Verif.Spec.Overlap
import Verif.Props.Overlap
import Verif.Spec.Tiles
import Verif.Props.Tiles
import Verif.Spec.Clear
import Verif.Props.Isotropy
import Verif.Spec.Values
import Verif.Props.Values
import Verif.Spec.Estimated
import Verif.Props.Estimated
import Verif.Spec.Usable
import Verif.Props.Usable
import Verif.Spec.Local
import Verif.Props.Local
import Verif.Spec.Searched
import Verif.Props.Searched
import Verif.Spec.Dichotomised
import Verif.Props.Dichotomised
import Verif.Spec.Bowl
import Verif.Props.Bowl
import Verif.Props.Kept
import Verif.Props.RunsRoiFlow
import Verif.Props.RunsEstimated
import Verif.Spec.Flowed
import Verif.Props.Flowed
import Verif.Spec.FlowSymmetry
import Verif.Props.FlowSymmetry
import Verif.Spec.RefinedTiles
import Verif.Props.RefinedTiles
import Verif.Spec.RefinedSymmetry
import Verif.Props.RefinedSymmetry
import Verif.Spec.RefinedMirror
import Verif.Props.RefinedMirror
import Verif.Spec.FlowZones
import Verif.Props.FlowZones
import Verif.Props.NoDataRefined
import Verif.Model.ReportFile
import Verif.Spec.ReportFile
import Verif.Props.ReportFile
import Verif.Spec.RefinedWider
import Verif.Props.RefinedWider
import Verif.Spec.FlowWider
import Verif.Props.FlowWider
import Verif.Spec.FlowIterations
import Verif.Props.FlowIterations
import Verif.Spec.InterpLocal
import Verif.Props.InterpLocal
import Verif.Spec.InterpTiles
import Verif.Props.InterpTiles
import Verif.Props.InterpSymmetry
import Verif.Spec.InterpExchange
import Verif.Props.InterpExchange
import Verif.Model.ConfigFile
import Verif.Spec.ConfigFile
import Verif.Props.ConfigFile
import Verif.Props.ReportRead
import Verif.Spec.InterpMirror
import Verif.Props.InterpMirror
import Verif.Props.NoDataLess
import Verif.Props.FlowNoData
import Verif.Props.InterpWider
import Verif.Spec.RefinedGiven
import Verif.Props.RefinedGiven
import Verif.Props.FlowGiven
import Verif.Props.FlowSteps
import Verif.Props.FlowFiner
import Verif.Props.InterpSteps
import Verif.Props.InterpInvalid
import Verif.Props.SolverCosts
import Verif.Props.FlowInvalid
import Verif.Props.DichoInvalid
import Verif.Props.FlowOutside
import Verif.Props.SavedAccepted
