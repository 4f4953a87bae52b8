import Verif.Basic
import Verif.LayoutProps
import Verif.ParLayoutProps
import Verif.SubsetProps
import Verif.ShiftProps
import Verif.UtilProps
import Verif.ParShift
import Verif.SeedProps
import Verif.RngProps
import Verif.Rannyu
import Verif.CrcProps
import Verif.Multi
import Verif.ByteOrder
import Verif.BinIO
import Verif.BinCont
import Verif.BinText
import Verif.LatticeIOThm
import Verif.MapObj
import Verif.MapMulti
import Verif.SpinInline
import Verif.Evaluate
import Verif.GlobalSum
import Verif.Sums
import Verif.Extremes
import Verif.ArchiveThm
import Verif.ArchiveHdrThm
import Verif.AllocPool
import Verif.StopWatch
import Verif.BlasProps
import Verif.OptOps
import Verif.Su3Eval
import Verif.Reduce
import Verif.XmlTree
import Verif.XmlArray
import Verif.XmlNodes
import Verif.IoNode
import Verif.QioField
import Verif.CmdLine
import Verif.Hdf5
import Verif.Hdf5Props
import Verif.Hdf5More
import Verif.Hdf5Qlua
import Verif.Hdf5Path
import Verif.Hdf5PathProps
import Verif.Hdf5Val
import Verif.Hdf5ValProps
import Verif.Sse
import Verif.SseTables
import Verif.SseProps
import Verif.SseThm
import Verif.SseInPlace
import Verif.SseReduce
import Verif.SseReduceThm
import Verif.SseReduceProps
import Verif.SseBlas
import Verif.SseBlasTables
import Verif.SseBlasProps
import Verif.SseSingle
import Verif.SseSingleTables
import Verif.SseSingleProps
import Verif.Network
import Verif.NetworkRounds
import Verif.PeekPoke
import Verif.PeekPokeProps
import Verif.Spmd
import Verif.SpmdProps
import Verif.LatticeIONet
import Verif.LatticeIONetProps
import Verif.SubLat
import Verif.SubLatProps
import Verif.Reality
import Verif.RealityProps
import Verif.Gauss
import Verif.GaussProps
import Verif.GaussMeasure
import Verif.Reunit
import Verif.ReunitProps
import Verif.ReunitThm
import Verif.ReunitN
import Verif.Gauge
import Verif.GaugeProps
import Verif.GaugeThm
import Verif.GaugeExp
import Verif.GaugeRand
import Verif.GaugePoly
import Verif.Dslash
import Verif.DslashProps
import Verif.DslashThm
import Verif.FloatText
import Verif.FloatTextNum
import Verif.FloatTextRead
import Verif.FloatTextArr
import Verif.FloatTextThm
import Verif.TextIO
import Verif.TextIOThm
import Verif.Hadron
import Verif.HadronProps
import Verif.HadronCur
import Verif.HadronThm
import Verif.Baryon
import Verif.BaryonProps
import Verif.BaryonThm
import Verif.Vec
import Verif.VecProps
import Verif.VecThm
import Verif.ArchiveFile
import Verif.ArchiveNear
import Verif.ArchiveText
import Verif.ArchiveFileThm
import Verif.ArchiveFileBad
import Verif.ArchiveFileWrong
import Verif.ArrSums
import Verif.XmlField
import Verif.VecNodes
import Verif.VecNodesProps
import Verif.VecNodesThm
import Verif.VecNodesIO
import Verif.VecArchive
import Verif.LayoutCreate
import Verif.LayoutCreateProps
import Verif.LayoutCreatePar
import Verif.LayoutCreateNeg
import Verif.CmdLineLibs
import Verif.LifeCycle
import Verif.MultiArith
import Verif.RecordInfo
import Verif.StdStream
import Verif.IntSum
import Verif.FloatSum
import Verif.FloatSumNorm
import Verif.FloatSumWrong
import Verif.Profile
import Verif.ProfileThm
import Verif.Database
import Verif.Files
import Verif.Hdf5Open
import Verif.SetObjects
import Verif.DefaultSets
import Verif.SpinDispatch
import Verif.Buffers
import Verif.SseSpin
import Verif.SseSpinTables
import Verif.SseSpinProps
import Verif.VecSse
import Verif.VecSseTables
import Verif.VecSseProps
import Verif.ArchiveHdrBad
import Verif.FusedSpin
import Verif.FusedSpinProps
import Verif.SseG5Tables
import Verif.SseG5Props
import Verif.SseSite
import Verif.SseSiteTables
import Verif.SseSiteProps
import Verif.QioBuffer
import Verif.OneBased
import Verif.Component
import Verif.Where
import Verif.Singleton
import Verif.Bits
import Verif.Bagel
import Verif.BagelReduce
import Verif.BagelMat
