import Verif.Props.FFIntProps
import Verif.Props.FFIntStringProps
import Verif.Props.PrimeProps
import Verif.Props.RationalProps
import Verif.Props.CompareProps
import Verif.Props.ShiftProps
import Verif.Props.PolyProps
import Verif.Props.PolyShiftProps
import Verif.Props.PolyObjProps
import Verif.Props.RngProps
import Verif.Props.FFIntVecProps
import Verif.Props.VandermondeProps
import Verif.Props.NewtonProps
import Verif.Props.ThieleProps
import Verif.Props.BMProps
import Verif.Props.BTProps
import Verif.Props.DenseProps
import Verif.Props.ParserProps
import Verif.Props.PrecomputeProps
import Verif.Props.HornerProps
import Verif.Props.PrintProps
import Verif.Props.ThreadPoolProps
import Verif.Props.ThieleLowest
import Verif.Props.CombineProps
import Verif.Props.RatReconstProps
import Verif.Props.RatReconstExamples
import Verif.Props.RatQueueProps
import Verif.Props.SchedulerProps
import Verif.Props.SchedulerWork
import Verif.Props.SchedulerOnce
import Verif.Props.SaveProps
import Verif.Props.SaveFirstProps
import Verif.Props.ResumeProps
import Verif.Props.ProbeFileProps
import Verif.Props.CrashProps
import Verif.Props.CrashDefects
import Verif.Props.MultiPolyProps
import Verif.Props.RatMultiProps
import Verif.Props.RatMultiExamples
import Verif.Props.RatLaterProps
import Verif.Props.RatLaterExamples
import Verif.Props.RatRunProps
import Verif.Props.RatRunExamples
import Verif.Props.PolyRunProps
import Verif.Props.PolyRunExamples
import Verif.Props.MpiProps
import Verif.Props.HandshakeProps
import Verif.Props.ScanProps
import Verif.Props.HistoryProps
import Verif.Props.FactorProps
import Verif.Props.FactorScanProps
import Verif.Props.FactorFilesProps
import Verif.Props.GzStreamProps
import Verif.Props.FactorMpiProps
import Verif.Props.PrecomputedProps
import Verif.Props.AmplitudeProps
import Verif.Props.InsertProps
import Verif.Props.PolyClassProps
import Verif.Props.RatShiftProps
import Verif.Props.RatShiftExamples
import Verif.Props.RatSafeProps
import Verif.Props.RatSafeExamples
import Verif.Props.RatShiftAllProps
import Verif.Props.RatShiftAllExamples
import Verif.Props.ParserObjProps
import Verif.Props.ParserObjOps
import Verif.Props.ParserObjTrim
import Verif.Props.ParserObjMain
import Verif.Props.ParserObjExamples
import Verif.Props.ParserEqualBound
import Verif.Props.ParserObjFunction
import Verif.Props.NeededFeedProps
import Verif.Props.NeededFeedExamples
import Verif.Props.FirstFeedProps
import Verif.Props.FirstFeedExamples
import Verif.Props.RecoverProps
import Verif.Props.RecoverRounds
import Verif.Props.RecoverExamples
import Verif.Props.DriverProps
import Verif.Props.WholeProps
import Verif.Props.WholeExamples
import Verif.Props.RatPolyProps
import Verif.Props.WholeUniProps
import Verif.Props.WholeUniExamples
import Verif.Props.WholeShiftProps
import Verif.Props.WholeShiftExamples
import Verif.Props.SafeUniProps
import Verif.Props.SafeUniExamples
