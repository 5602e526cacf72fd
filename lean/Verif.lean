import Verif.Lemmas.Axis
import Verif.Lemmas.Collect
import Verif.Lemmas.DiffMat
import Verif.Lemmas.DiffMatEven
import Verif.Lemmas.ExactSolve
import Verif.Lemmas.Field
import Verif.Lemmas.FortranFile
import Verif.Lemmas.GradGradB
import Verif.Lemmas.GradGradBCurl
import Verif.Lemmas.GradGradBCurrent
import Verif.Lemmas.GradGradBDiv
import Verif.Lemmas.GradGradBTaylor
import Verif.Lemmas.GridReversal
import Verif.Lemmas.HalfTurn
import Verif.Lemmas.Helicity
import Verif.Lemmas.MachineInt
import Verif.Lemmas.Mercier
import Verif.Lemmas.Mirror
import Verif.Lemmas.MirrorRun
import Verif.Lemmas.MirrorSecond
import Verif.Lemmas.Mpi
import Verif.Lemmas.MultiOptRun
import Verif.Lemmas.MultiScan
import Verif.Lemmas.MultiScanData
import Verif.Lemmas.MultiScanEnd
import Verif.Lemmas.MultiScanPack
import Verif.Lemmas.MultiScanPipeline
import Verif.Lemmas.MultiScanRun
import Verif.Lemmas.MultiScanRunFile
import Verif.Lemmas.NearAxis
import Verif.Lemmas.Nested
import Verif.Lemmas.Netcdf
import Verif.Lemmas.NetcdfCongr
import Verif.Lemmas.NetcdfMap
import Verif.Lemmas.OptCurrent
import Verif.Lemmas.OptFacts
import Verif.Lemmas.OptLoop
import Verif.Lemmas.OptMap
import Verif.Lemmas.OptResid
import Verif.Lemmas.OptReversal
import Verif.Lemmas.OptRun
import Verif.Lemmas.OptState
import Verif.Lemmas.Outfile
import Verif.Lemmas.Output
import Verif.Lemmas.OutputChecks
import Verif.Lemmas.OutputRead
import Verif.Lemmas.OutputSaved
import Verif.Lemmas.OutputTables
import Verif.Lemmas.Pipeline
import Verif.Lemmas.Program
import Verif.Lemmas.Quartic
import Verif.Lemmas.R2
import Verif.Lemmas.RSing
import Verif.Lemmas.Random
import Verif.Lemmas.Reversal
import Verif.Lemmas.Scaling
import Verif.Lemmas.ScalingFirst
import Verif.Lemmas.ScalingGrad
import Verif.Lemmas.ScalingRun
import Verif.Lemmas.ScalingSecond
import Verif.Lemmas.ScanLoop
import Verif.Lemmas.ScanParams
import Verif.Lemmas.ScanPipeline
import Verif.Lemmas.ScanReversal
import Verif.Lemmas.ScanRun
import Verif.Lemmas.ScanRunAll
import Verif.Lemmas.ScanRunEnd
import Verif.Lemmas.ScanRunFile
import Verif.Lemmas.ScanRunLoop
import Verif.Lemmas.ScanRunOut
import Verif.Lemmas.ScanRunSingle
import Verif.Lemmas.Sections
import Verif.Lemmas.SectionsFile
import Verif.Lemmas.Shift
import Verif.Lemmas.Single
import Verif.Lemmas.SingleFile
import Verif.Lemmas.SingleLib
import Verif.Lemmas.SingleRun
import Verif.Lemmas.SingleVars
import Verif.Lemmas.Symmetry
import Verif.Lemmas.SymmetryExample
import Verif.Lemmas.SymmetryFirst
import Verif.Lemmas.SymmetryGrad
import Verif.Lemmas.SymmetrySecond
import Verif.Lemmas.Toml
import Verif.Lemmas.VecMat
import Verif.Lemmas.Volume
import Verif.Model.Axis
import Verif.Model.Collect
import Verif.Model.DiffMat
import Verif.Model.Field
import Verif.Model.FortranFile
import Verif.Model.GradGradB
import Verif.Model.Helicity
import Verif.Model.Loop
import Verif.Model.MachineInt
import Verif.Model.Mpi
import Verif.Model.MultiOptRun
import Verif.Model.MultiScan
import Verif.Model.MultiScanPipeline
import Verif.Model.MultiScanRun
import Verif.Model.Netcdf
import Verif.Model.Newton
import Verif.Model.OptLoop
import Verif.Model.OptResid
import Verif.Model.OptRun
import Verif.Model.OptState
import Verif.Model.Outfile
import Verif.Model.Output
import Verif.Model.Pipeline
import Verif.Model.Program
import Verif.Model.Quartic
import Verif.Model.R1
import Verif.Model.R2
import Verif.Model.RSing
import Verif.Model.Random
import Verif.Model.ScanDraws
import Verif.Model.ScanGrid
import Verif.Model.ScanLoop
import Verif.Model.ScanParams
import Verif.Model.ScanPipeline
import Verif.Model.ScanRun
import Verif.Model.Sections
import Verif.Model.Setup
import Verif.Model.Single
import Verif.Model.Toml
import Verif.Model.VecMat
import Verif.Props.Axis
import Verif.Props.Collect
import Verif.Props.DiffMat
import Verif.Props.DiffMatEven
import Verif.Props.FortranFile
import Verif.Props.GradGradB
import Verif.Props.GradGradBMaxwell
import Verif.Props.GridReversal
import Verif.Props.HalfTurn
import Verif.Props.Helicity
import Verif.Props.MachineInt
import Verif.Props.Mercier
import Verif.Props.Mirror
import Verif.Props.MultiOptRun
import Verif.Props.MultiScan
import Verif.Props.MultiScanPipeline
import Verif.Props.MultiScanRun
import Verif.Props.Nested
import Verif.Props.Netcdf
import Verif.Props.Newton
import Verif.Props.OptEvals
import Verif.Props.OptLoop
import Verif.Props.OptMemory
import Verif.Props.OptResid
import Verif.Props.OptReversal
import Verif.Props.OptRun
import Verif.Props.OptState
import Verif.Props.Outfile
import Verif.Props.Output
import Verif.Props.OutputFiles
import Verif.Props.Pipeline
import Verif.Props.Program
import Verif.Props.ProgramReversal
import Verif.Props.Quartic
import Verif.Props.R1
import Verif.Props.R2
import Verif.Props.R2Field
import Verif.Props.RSing
import Verif.Props.RSingJac
import Verif.Props.Random
import Verif.Props.Reversal
import Verif.Props.Scaling
import Verif.Props.ScanDraws
import Verif.Props.ScanGrid
import Verif.Props.ScanLoop
import Verif.Props.ScanMemory
import Verif.Props.ScanParams
import Verif.Props.ScanPipeline
import Verif.Props.ScanReversal
import Verif.Props.ScanRun
import Verif.Props.Sections
import Verif.Props.Setup
import Verif.Props.Shift
import Verif.Props.Single
import Verif.Props.SingleAxis
import Verif.Props.SingleFirst
import Verif.Props.SingleSecond
import Verif.Props.StagesReversal
import Verif.Props.Symmetry
import Verif.Props.Toml
import Verif.Props.VecMat
import Verif.Spec.Axis
import Verif.Spec.Collect
import Verif.Spec.DiffMat
import Verif.Spec.FortranFile
import Verif.Spec.GradGradB
import Verif.Spec.HalfTurn
import Verif.Spec.Helicity
import Verif.Spec.MachineInt
import Verif.Spec.Mercier
import Verif.Spec.Mirror
import Verif.Spec.MultiOptRun
import Verif.Spec.MultiScan
import Verif.Spec.MultiScanPipeline
import Verif.Spec.MultiScanRun
import Verif.Spec.NearAxis
import Verif.Spec.Nested
import Verif.Spec.Netcdf
import Verif.Spec.Newton
import Verif.Spec.OptLoop
import Verif.Spec.OptResid
import Verif.Spec.OptReversal
import Verif.Spec.OptRun
import Verif.Spec.OptState
import Verif.Spec.Output
import Verif.Spec.Pipeline
import Verif.Spec.Program
import Verif.Spec.ProgramReversal
import Verif.Spec.R1
import Verif.Spec.RSing
import Verif.Spec.Random
import Verif.Spec.Reversal
import Verif.Spec.Scaling
import Verif.Spec.ScanLoop
import Verif.Spec.ScanParams
import Verif.Spec.ScanPipeline
import Verif.Spec.ScanReversal
import Verif.Spec.ScanRun
import Verif.Spec.Sections
import Verif.Spec.Shift
import Verif.Spec.Single
import Verif.Spec.SingleLib
import Verif.Spec.SingleSecond
import Verif.Spec.Symmetry
import Verif.Spec.Toml
