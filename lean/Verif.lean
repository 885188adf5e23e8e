import Verif.Argmin
import Verif.ArrayScenario
import Verif.ArrayThreads
import Verif.ArrayValues
import Verif.Arrays
import Verif.Attr
import Verif.Bounds
import Verif.Compute
import Verif.Cont
import Verif.Data.AB06
import Verif.Data.AB06SF
import Verif.Data.AB06Site
import Verif.Data.AGA16
import Verif.Data.AKB14
import Verif.Data.ASK14
import Verif.Data.BA18
import Verif.Data.BA19
import Verif.Data.BSSA14
import Verif.Data.C03
import Verif.Data.CB14
import Verif.Data.CB14H
import Verif.Data.CY14
import Verif.Data.DBC14
import Verif.Data.GA11
import Verif.Data.I14
import Verif.Data.Pea11
import Verif.Data.TP05
import Verif.Decls
import Verif.Fill
import Verif.GMM
import Verif.GMMClasses
import Verif.GMMLemmas
import Verif.Heap
import Verif.Interp
import Verif.InterpKinds
import Verif.InterpSlope
import Verif.Model
import Verif.ModelLemmas
import Verif.Models.AB06
import Verif.Models.AB06Array
import Verif.Models.AB20
import Verif.Models.AGA16
import Verif.Models.AKB14
import Verif.Models.AS96Stds
import Verif.Models.ASK14
import Verif.Models.ArrayMethods
import Verif.Models.BA18
import Verif.Models.BA19
import Verif.Models.BJ08
import Verif.Models.BSSA14
import Verif.Models.C03
import Verif.Models.CB14
import Verif.Models.CY14
import Verif.Models.Coefficients
import Verif.Models.DBC14
import Verif.Models.Durations
import Verif.Models.Estimators
import Verif.Models.GA11
import Verif.Models.HKR14
import Verif.Models.HKR14Threads
import Verif.Models.I14
import Verif.Models.Kishida
import Verif.Models.ModelsList
import Verif.Models.PR23
import Verif.Models.PR24
import Verif.Models.Pea11
import Verif.Models.RowKernels
import Verif.Models.RowKernels10
import Verif.Models.RowKernels11
import Verif.Models.RowKernels12
import Verif.Models.RowKernels13
import Verif.Models.RowKernels2
import Verif.Models.RowKernels3
import Verif.Models.RowKernels4
import Verif.Models.RowKernels5
import Verif.Models.RowKernels6
import Verif.Models.RowKernels7
import Verif.Models.RowKernels8
import Verif.Models.RowKernels9
import Verif.Models.SiteTerms
import Verif.Models.Stafford
import Verif.Models.TP05
import Verif.Num
import Verif.Param
import Verif.Pipeline
import Verif.Props.AB06
import Verif.Props.AB06Array
import Verif.Props.AB06Dist
import Verif.Props.AB06Mag
import Verif.Props.AB20
import Verif.Props.AGA16
import Verif.Props.AGA16Mag
import Verif.Props.AKB14
import Verif.Props.AKB14Mag
import Verif.Props.AS16More
import Verif.Props.AS96Stds
import Verif.Props.ASK14
import Verif.Props.ASK14Mag
import Verif.Props.Accessors
import Verif.Props.ArrayScenario
import Verif.Props.ArrayThreads
import Verif.Props.Arrays
import Verif.Props.BA18
import Verif.Props.BA19
import Verif.Props.BJ08
import Verif.Props.BSSA14
import Verif.Props.BSSA14Mag
import Verif.Props.Basin
import Verif.Props.C03
import Verif.Props.C03Mag
import Verif.Props.CB14
import Verif.Props.CB14Mag
import Verif.Props.CMSCont
import Verif.Props.CMSTwice
import Verif.Props.CMSVCont
import Verif.Props.CMSVLaws
import Verif.Props.CMSVMore
import Verif.Props.CMSVPredict
import Verif.Props.CMSVScalar
import Verif.Props.CMSVStrict
import Verif.Props.CY14
import Verif.Props.CY14Mag
import Verif.Props.Coefficients
import Verif.Props.Continuity
import Verif.Props.Continuity2
import Verif.Props.Continuity3
import Verif.Props.Continuity4
import Verif.Props.Continuity5
import Verif.Props.ContinuityCB14
import Verif.Props.DBC14
import Verif.Props.DBC14More
import Verif.Props.Decls
import Verif.Props.Definite
import Verif.Props.Durations
import Verif.Props.Estimators
import Verif.Props.FarField
import Verif.Props.FarField2
import Verif.Props.Framework
import Verif.Props.GA11
import Verif.Props.GA11More
import Verif.Props.HKR14
import Verif.Props.HKR14Threads
import Verif.Props.HangingWall
import Verif.Props.I14
import Verif.Props.I14Mag
import Verif.Props.InterpCont
import Verif.Props.InterpKinds
import Verif.Props.Irrelevant
import Verif.Props.Isolation
import Verif.Props.KS06More
import Verif.Props.Kishida
import Verif.Props.Limits
import Verif.Props.Mechanism
import Verif.Props.ModelsList
import Verif.Props.PR23
import Verif.Props.PR24
import Verif.Props.Pea11
import Verif.Props.Pea11Mono
import Verif.Props.Pipeline
import Verif.Props.PipelineV
import Verif.Props.PipelineVMore
import Verif.Props.Rebuild
import Verif.Props.Regions
import Verif.Props.Rock
import Verif.Props.RowPrograms
import Verif.Props.RowPrograms10
import Verif.Props.RowPrograms11
import Verif.Props.RowPrograms12
import Verif.Props.RowPrograms13
import Verif.Props.RowPrograms2
import Verif.Props.RowPrograms3
import Verif.Props.RowPrograms4
import Verif.Props.RowPrograms5
import Verif.Props.RowPrograms6
import Verif.Props.RowPrograms7
import Verif.Props.RowPrograms8
import Verif.Props.RowPrograms9
import Verif.Props.ScenarioObj
import Verif.Props.ScenarioThreads
import Verif.Props.SiteTerms
import Verif.Props.Soft
import Verif.Props.SourceDepth
import Verif.Props.Stafford
import Verif.Props.StaffordRange
import Verif.Props.StdMag
import Verif.Props.Strict
import Verif.Props.Success
import Verif.Props.TP05
import Verif.Props.TP05Mono
import Verif.Props.VsSource
import Verif.Props.Warnings
import Verif.Py
import Verif.RowPrograms
import Verif.Saturate
import Verif.Scenario
import Verif.ScenarioObj
import Verif.ScenarioThreads
import Verif.Strict
