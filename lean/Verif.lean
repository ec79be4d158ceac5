import Verif.Props.Parallel
import Verif.Props.Combis
import Verif.Props.Db
import Verif.Props.DbOptions
import Verif.Props.Existing
import Verif.Props.CorrStats
import Verif.Props.Xcorr
import Verif.Props.StreamSelect
import Verif.Props.Stack
import Verif.Props.Bulk
import Verif.Props.Run
import Verif.Props.Resume
import Verif.Props.PostCorr
import Verif.Props.PostCorr2
import Verif.Props.Amplitude
import Verif.Props.Muting
import Verif.Props.TraceUtils
import Verif.Props.Taper
import Verif.Props.Stations
import Verif.Props.Stretch
import Verif.Props.Listing
import Verif.Props.AverageDv
import Verif.Props.ShiftDv
import Verif.Props.MonitorFiles
import Verif.Props.Spatial
import Verif.Props.AlignDv
import Verif.Props.Archive
import Verif.Props.ArchiveTimes
import Verif.Props.FileStructure
import Verif.Props.Header
import Verif.Props.Spectrogram
import Verif.Props.Kernel
import Verif.Props.Inversion
import Verif.Props.HeaderStore
import Verif.Props.Segments
import Verif.Props.Reference
import Verif.Props.Smooth
import Verif.Props.Measure
import Verif.Props.Heap
import Verif.Props.MultiRef
import Verif.Props.StretchMeasure
import Verif.Props.MonitorDv
import Verif.Props.Wfc
import Verif.Props.WfcRun
import Verif.Props.WfcAverage
import Verif.Props.Detrend
import Verif.Props.TdNorm
import Verif.Props.FdNorm
import Verif.Props.Decay
import Verif.Props.CorrFilter
import Verif.Props.ClockShift
import Verif.Props.StretchApply
import Verif.Props.SmoothDv
import Verif.Props.Interstat
import Verif.Props.ReadWindows
import Verif.Props.ShiftSeveral
import Verif.Props.InversionRun
import Verif.Props.Tsvd
import Verif.Props.WfcFile
import Verif.Props.FsRead
import Verif.Props.MassDownload
import Verif.Props.InnerMatrix
import Verif.Props.Preprocess
import Verif.Props.MonitorBulk
import Verif.Props.InvStore
import Verif.Props.BulkOps
import Verif.Props.BulkShape
import Verif.Props.KernelEnergy
import Verif.Props.StartUp
import Verif.Props.OptRecord
import Verif.Props.DvFiles
import Verif.Props.ShiftWindow
import Verif.Props.ParallelWhiten
import Verif.Props.Gain
import Verif.Props.MeasureGain
import Verif.Props.MeasureParts
import Verif.Props.ParallelWrite
import Verif.Props.MeasureMirror
import Verif.Props.OrderFree
import Verif.Props.SameLength
import Verif.Props.Again
import Verif.Props.EachAlone
import Verif.Props.Later
import Verif.Props.OtherStations
import Verif.Props.OldMat
import Verif.Props.Names
import Verif.Props.Polarity
import Verif.Props.AverageOrder
import Verif.Props.Periods
import Verif.Props.MonitorGaps
import Verif.Props.Helpers
import Verif.Props.PlotDv
import Verif.Props.PlotCorr
import Verif.Props.SpecPlot
import Verif.Props.Consume
import Verif.Props.RefMemory
import Verif.Props.DbContext
import Verif.Props.FileMonths
import Verif.Props.Delay
import Verif.Props.MorePlot
import Verif.Props.Subsample
import Verif.Props.Superpose
import Verif.Props.AverageRun
import Verif.Props.Queries
import Verif.Props.Summary
import Verif.Props.FloatWork
import Verif.Props.FloatLags
import Verif.Props.FloatTrim
import Verif.Props.FloatTimes
import Verif.Props.FloatSamples
import Verif.Props.H5Tree
import Verif.Props.MeasureAll
import Verif.Props.FloatAxes
import Verif.Props.WindowOrder
import Verif.Props.CorrWindows
import Verif.Props.RateCopy
import Verif.Props.RateRun
import Verif.Props.WfcNames
import Verif.Props.SacHeader
import Verif.Props.LapseWindow
import Verif.Props.StreamArgs
import Verif.Props.InversionUse
import Verif.Props.SpatialGrid
import Verif.Props.ArchiveStream
import Verif.Props.HeapTraces
import Verif.Props.DayLength
import Verif.Props.ShiftValue
import Verif.Props.DbLevels
import Verif.Props.MuteQuiet
import Verif.Props.Refine
import Verif.Props.StackSteps
import Verif.Props.MeanTime
import Verif.Props.SelectSteps
import Verif.Props.FloatSlide
import Verif.Props.SmoothShapes
import Verif.Props.ClaimDetails
import Verif.Props.ClaimDetails2
import Verif.Props.FloatGrid
import Verif.Props.FloatResample
import Verif.Props.SpecWindows
import Verif.Props.TimeUnit
import Verif.Props.KernelUnits
import Verif.Props.InversionSymmetry
import Verif.Props.DvOrder
import Verif.Props.Drift
import Verif.Props.Unchanged
import Verif.Props.MuteExact
import Verif.Props.WindowOnly
import Verif.Props.SignDomains
import Verif.Props.ArchiveNames
import Verif.Props.TimeReversal
import Verif.Props.DvFileProc
import Verif.Props.Responses
import Verif.Props.RateAssign
import Verif.Props.PlotRagged
import Verif.Props.AutoCorr
import Verif.Props.RangeKept
import Verif.Props.DvAvail
import Verif.Props.ToMatrix
import Verif.Props.TdTaper
import Verif.Props.DvStr
