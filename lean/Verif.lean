import Verif.Model.Utf8
import Verif.Model.Unicode
import Verif.Model.Split
import Verif.Spec.Text
import Verif.Proofs.Utf8
import Verif.Proofs.Chars
import Verif.Proofs.Encode
import Verif.Proofs.Split
import Verif.Proofs.Case
import Verif.Props.Split
import Verif.Model.Float
import Verif.Model.Dict
import Verif.Model.Segmenter
import Verif.Model.History
import Verif.Spec.Dict
import Verif.Spec.Segment
import Verif.Proofs.Dict
import Verif.Proofs.History
import Verif.Proofs.Segment
import Verif.Proofs.Path
import Verif.Proofs.Best
import Verif.Proofs.Round
import Verif.Props.Dict
import Verif.Props.Segment
import Verif.Model.Output
import Verif.Proofs.Output
import Verif.Props.Output
import Verif.Model.GoStr
import Verif.Model.Load
import Verif.Spec.Load
import Verif.Proofs.GoStr
import Verif.Proofs.Load
import Verif.Proofs.Reader
import Verif.Props.Load
import Verif.Model.Dag
import Verif.Spec.Dag
import Verif.Proofs.Dag
import Verif.Proofs.DagBest
import Verif.Proofs.DagAll
import Verif.Proofs.Occs
import Verif.Proofs.Lower
import Verif.Props.Dag
import Verif.Model.Hmm
import Verif.Spec.Hmm
import Verif.Proofs.Hmm
import Verif.Proofs.HmmCut
import Verif.Proofs.HmmRuns
import Verif.Props.Hmm
import Verif.Model.Stop
import Verif.Model.Trim
import Verif.Spec.Trim
import Verif.Proofs.Stop
import Verif.Proofs.Trim
import Verif.Proofs.TrimCut
import Verif.Props.Trim
import Verif.Props.TrimCut
import Verif.Model.Idf
import Verif.Spec.Idf
import Verif.Proofs.Idf
import Verif.Props.Idf
import Verif.Model.RegexpSplit
import Verif.Spec.RegexpSplit
import Verif.Proofs.RegexpSplit
import Verif.Props.RegexpSplit
import Verif.Model.Pos
import Verif.Spec.Pos
import Verif.Proofs.PosSplit
import Verif.Proofs.PosDict
import Verif.Proofs.PosViterbi
import Verif.Proofs.PosDetail
import Verif.Props.Pos
import Verif.Spec.Round
import Verif.Proofs.Round
import Verif.Model.TextRank
import Verif.Spec.TextRank
import Verif.Proofs.TextRank
import Verif.Proofs.RankRange
import Verif.Props.TextRank
import Verif.Model.Mem
import Verif.Model.SegMem
import Verif.Spec.Conc
import Verif.Proofs.Mem
import Verif.Proofs.SegMem
import Verif.Proofs.SegMemLoop
import Verif.Props.Conc
import Verif.Model.Ieee
import Verif.Proofs.Ieee
import Verif.Proofs.IeeeOps
import Verif.Spec.Ieee
import Verif.Proofs.Total
import Verif.Model.Consts
import Verif.Props.Ieee
import Verif.Props.IeeePos
import Verif.Props.IeeeRest
import Verif.Model.PosData
import Verif.Model.Shipped
import Verif.Proofs.PosData
import Verif.Props.PosShipped
import Verif.Model.AddMem
import Verif.Model.CalcMem
import Verif.Proofs.AddMem
import Verif.Proofs.Race
import Verif.Proofs.RaceSeg
import Verif.Proofs.RaceAdd
import Verif.Proofs.RacePanic
import Verif.Props.Race
import Verif.Spec.Nearest
import Verif.Proofs.Nearest
import Verif.Spec.Exact
import Verif.Proofs.Exact
import Verif.Props.Exact
import Verif.Proofs.Suggest
import Verif.Props.Suggest
import Verif.Spec.Error
import Verif.Proofs.Error
import Verif.Props.Error
import Verif.Props.ErrorNum
import Verif.Spec.Greedy
import Verif.Proofs.Greedy
import Verif.Proofs.GreedyInf
import Verif.Props.Greedy
import Verif.Model.CutMem
import Verif.Proofs.CutMem
import Verif.Proofs.CutMemAsk
import Verif.Props.ConcCut
import Verif.Model.Copy
import Verif.Spec.Copy
import Verif.Proofs.Copy
import Verif.Props.Copy
import Verif.Model.Server
import Verif.Spec.Json
import Verif.Spec.Server
import Verif.Proofs.Json
import Verif.Props.Server
import Verif.Spec.ConcCalc
import Verif.Proofs.CalcMem
import Verif.Proofs.RaceCalc
import Verif.Proofs.RaceDist
import Verif.Props.ConcCalc
import Verif.Model.ParseFloat
import Verif.Spec.FloatText
import Verif.Proofs.ParseFloat
import Verif.Proofs.ParseRead
import Verif.Proofs.ParseMain
import Verif.Props.Number
import Verif.Spec.Cost
import Verif.Proofs.Cost
import Verif.Props.Cost
import Verif.Proofs.CostCut
import Verif.Props.CostCut
import Verif.Spec.Utf8
import Verif.Props.Utf8
import Verif.Model.Flags
import Verif.Spec.Flags
import Verif.Proofs.Flags
import Verif.Props.Flags
import Verif.Spec.Ledger
import Verif.Proofs.Ledger
import Verif.Props.Ledger
import Verif.Model.Extract
import Verif.Spec.Extract
import Verif.Proofs.Extract
import Verif.Props.Extract
import Verif.Model.New
import Verif.Spec.New
import Verif.Props.New
import Verif.Model.PosProg
import Verif.Props.PosProg
import Verif.Spec.Seam
import Verif.Spec.SeamHmm
import Verif.Spec.Content
import Verif.Proofs.Seam
import Verif.Proofs.SeamHmm
import Verif.Proofs.Content
import Verif.Props.Seam
import Verif.Props.SeamHmm
import Verif.Props.Content
import Verif.Spec.Scale
import Verif.Proofs.Scale
import Verif.Props.Scale
import Verif.Spec.Both
import Verif.Props.Both
import Verif.Spec.Again
import Verif.Props.Again
import Verif.Model.RemoveMem
import Verif.Proofs.RemoveMem
import Verif.Proofs.CutMemCrash
import Verif.Props.ConcChange
import Verif.Spec.Local
import Verif.Proofs.Local
import Verif.Props.Local
import Verif.Model.StopMem
import Verif.Spec.StopConc
import Verif.Proofs.StopMem
import Verif.Props.StopConc
import Verif.Proofs.Size
import Verif.Props.Size
import Verif.Model.Bench
import Verif.Proofs.Bench
import Verif.Props.Bench
import Verif.Proofs.Solo
import Verif.Props.StopAlone
import Verif.Props.Case
import Verif.Props.PosExact
import Verif.Spec.Alias
import Verif.Proofs.Alias
import Verif.Proofs.AliasPath
import Verif.Props.Alias
import Verif.Model.Table
import Verif.Spec.Table
import Verif.Proofs.Table
import Verif.Props.Table
import Verif.Spec.Found
import Verif.Props.Found
import Verif.Model.PosMem
import Verif.Proofs.PosMem
import Verif.Props.PosConc
import Verif.Spec.PosSeam
import Verif.Props.PosSeam
import Verif.Props.PosLocal
import Verif.Props.TagBag
import Verif.Props.Print
import Verif.Spec.TagMore
import Verif.Props.TagMore
import Verif.Spec.Plain
import Verif.Props.Plain
import Verif.Spec.Priority
import Verif.Props.Priority
import Verif.Spec.TagStop
import Verif.Props.TagStop
import Verif.Spec.Unused
import Verif.Props.Unused
import Verif.Spec.Joined
import Verif.Props.Joined
import Verif.Spec.Dump
import Verif.Props.Dump
import Verif.Spec.Calls
import Verif.Props.CostCalc
import Verif.Spec.Alone
import Verif.Proofs.Alone
import Verif.Props.Alone
import Verif.Spec.Order
import Verif.Props.Order
import Verif.Spec.Lock
import Verif.Props.Lock
import Verif.Proofs.CostPos
import Verif.Props.CostPos
import Verif.Model.ServerMem
import Verif.Spec.ServerConc
import Verif.Props.ServerConc
import Verif.Spec.ServerSerial
import Verif.Props.ServerSerial
import Verif.Spec.ServerCost
import Verif.Props.ServerCost
import Verif.Spec.TagLocal
import Verif.Props.TagLocal
import Verif.Spec.RankExact
import Verif.Props.RankExact
import Verif.Spec.SearchCut
import Verif.Props.SearchCut
import Verif.Spec.HmmModel
import Verif.Props.HmmModel
