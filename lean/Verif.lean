import Verif.Inp.AltLemmas
import Verif.Inp.ApartLemmas
import Verif.Inp.ApartSpec
import Verif.Inp.AssignLemmas
import Verif.Inp.AssignMore
import Verif.Inp.Bare
import Verif.Inp.BiasRead
import Verif.Inp.BlankLemmas
import Verif.Inp.Card
import Verif.Inp.CardLemmas
import Verif.Inp.CardSpec
import Verif.Inp.CardUnion
import Verif.Inp.CaseCards
import Verif.Inp.CaseLemmas
import Verif.Inp.CaseNumber
import Verif.Inp.CaseSpec
import Verif.Inp.CaseTable
import Verif.Inp.CaseText
import Verif.Inp.CaseTypes
import Verif.Inp.CaseWords
import Verif.Inp.CellRead
import Verif.Inp.CellRound
import Verif.Inp.CellSpec
import Verif.Inp.CellsRead
import Verif.Inp.CellsUnion
import Verif.Inp.CommentRead
import Verif.Inp.CommentSpec
import Verif.Inp.CosineRead
import Verif.Inp.DataRead
import Verif.Inp.DataUnion
import Verif.Inp.DeepFind
import Verif.Inp.DeepRound
import Verif.Inp.DeepRun
import Verif.Inp.DeepSpec
import Verif.Inp.DepRead
import Verif.Inp.DetectorRead
import Verif.Inp.DetectorSpec
import Verif.Inp.DxtRead
import Verif.Inp.Elements
import Verif.Inp.Equal
import Verif.Inp.ErrCause
import Verif.Inp.ErrLemmas
import Verif.Inp.ErrSpec
import Verif.Inp.ErrTable
import Verif.Inp.Feed
import Verif.Inp.FeedSpec
import Verif.Inp.File
import Verif.Inp.FileLemmas
import Verif.Inp.FilePrint
import Verif.Inp.FileRound
import Verif.Inp.FileSections
import Verif.Inp.FilesRead
import Verif.Inp.FillForm
import Verif.Inp.FillFormSpec
import Verif.Inp.FillLost
import Verif.Inp.FillLostCells
import Verif.Inp.FillLostSpec
import Verif.Inp.FillRead
import Verif.Inp.FilterRead
import Verif.Inp.FitsLemmas
import Verif.Inp.FlatLemmas
import Verif.Inp.FlatRead
import Verif.Inp.Formula
import Verif.Inp.FreeRead
import Verif.Inp.FreeSpec
import Verif.Inp.GroupLemmas
import Verif.Inp.HeadLemmas
import Verif.Inp.ItemLemmas
import Verif.Inp.KeywordRead
import Verif.Inp.KeywordSpec
import Verif.Inp.LatticeRead
import Verif.Inp.LatticeSpec
import Verif.Inp.LikeRead
import Verif.Inp.LikeSpec
import Verif.Inp.LongSpec
import Verif.Inp.MaterialRead
import Verif.Inp.NestRead
import Verif.Inp.OptionApart
import Verif.Inp.OptionBare
import Verif.Inp.OptionLemmas
import Verif.Inp.OptionLost
import Verif.Inp.OptionRead
import Verif.Inp.OptionRound
import Verif.Inp.OptionSpec
import Verif.Inp.OptionTable
import Verif.Inp.PhysRead
import Verif.Inp.PhysSpec
import Verif.Inp.PrintLemmas
import Verif.Inp.Put
import Verif.Inp.PutLemmas
import Verif.Inp.RangeIndex
import Verif.Inp.RangeLemmas
import Verif.Inp.RangeSpec
import Verif.Inp.RangeTable
import Verif.Inp.ReadSpec
import Verif.Inp.Refuse
import Verif.Inp.RoundLemmas
import Verif.Inp.RoundSpec
import Verif.Inp.RoundTrip
import Verif.Inp.RowLemmas
import Verif.Inp.RowOption
import Verif.Inp.RowRead
import Verif.Inp.RowRound
import Verif.Inp.RowSpec
import Verif.Inp.ShortLemmas
import Verif.Inp.SourceRead
import Verif.Inp.SourceRound
import Verif.Inp.SourceSpec
import Verif.Inp.SpaceLemmas
import Verif.Inp.SswRead
import Verif.Inp.SswSpec
import Verif.Inp.SurfaceRead
import Verif.Inp.SurfaceRound
import Verif.Inp.SurfaceSpec
import Verif.Inp.TableAll
import Verif.Inp.TableCards
import Verif.Inp.TableCell
import Verif.Inp.TableDawwg
import Verif.Inp.TableMplot
import Verif.Inp.TableOptions
import Verif.Inp.TableSdef
import Verif.Inp.TableSurface
import Verif.Inp.TallyRead
import Verif.Inp.TallySpec
import Verif.Inp.Text
import Verif.Inp.TextSpec
import Verif.Inp.TimeRead
import Verif.Inp.TokLemmas
import Verif.Inp.TransRead
import Verif.Inp.TransSpec
import Verif.Inp.TrclRead
import Verif.Inp.TrclRound
import Verif.Inp.Value
import Verif.Inp.VerticalLemmas
import Verif.Inp.VerticalSpec
import Verif.Inp.Whole
import Verif.Inp.WordSpec
import Verif.Inp.WrapLemmas
import Verif.Meshtal.File
import Verif.Meshtal.HeaderLemmas
import Verif.Meshtal.Loops
import Verif.Meshtal.RowLemmas
import Verif.Outp.Block
import Verif.Outp.BlockLemmas
import Verif.Outp.File
import Verif.Outp.FileLemmas
import Verif.Outp.Kinds
import Verif.Outp.OneLemmas
import Verif.Outp.Plot
import Verif.Outp.Sub1Spec
import Verif.Outp.SubLemmas
import Verif.Outp.SubSpec
import Verif.Outp.Tally
import Verif.Outp.TallyLemmas
import Verif.Props.Card
import Verif.Props.CardErrors
import Verif.Props.Case
import Verif.Props.CellCard
import Verif.Props.CellLost
import Verif.Props.CellState
import Verif.Props.Cli
import Verif.Props.Commands
import Verif.Props.Comment
import Verif.Props.Cosine
import Verif.Props.DataCard
import Verif.Props.DeepCells
import Verif.Props.Depend
import Verif.Props.Detector
import Verif.Props.Division
import Verif.Props.Dxtran
import Verif.Props.Equal
import Verif.Props.File
import Verif.Props.FileErrors
import Verif.Props.Files
import Verif.Props.Fill
import Verif.Props.FillForm
import Verif.Props.FillLattice
import Verif.Props.FillLost
import Verif.Props.Formula
import Verif.Props.FreeText
import Verif.Props.Geometry
import Verif.Props.Grid
import Verif.Props.Grouped
import Verif.Props.Hash
import Verif.Props.Holds
import Verif.Props.Lattice
import Verif.Props.LatticeCard
import Verif.Props.Lazy
import Verif.Props.LikeCard
import Verif.Props.Loops
import Verif.Props.Lost
import Verif.Props.Meshtal
import Verif.Props.MeshtalBins
import Verif.Props.MeshtalFile
import Verif.Props.Messages
import Verif.Props.Number
import Verif.Props.Operators
import Verif.Props.OptionCard
import Verif.Props.OutpBlocks
import Verif.Props.OutpFile
import Verif.Props.OutpNums
import Verif.Props.OutpTally
import Verif.Props.PhotonBias
import Verif.Props.Phys
import Verif.Props.Plane
import Verif.Props.Plot
import Verif.Props.Powers
import Verif.Props.PtracErrors
import Verif.Props.PtracEvent
import Verif.Props.PtracFile
import Verif.Props.PtracHeader
import Verif.Props.PtracLine
import Verif.Props.Put
import Verif.Props.Ranges
import Verif.Props.RealOps
import Verif.Props.Regions
import Verif.Props.Rounding
import Verif.Props.RowOption
import Verif.Props.Run
import Verif.Props.Scalar
import Verif.Props.Select
import Verif.Props.Show
import Verif.Props.ShowMesh
import Verif.Props.Source
import Verif.Props.Ssw
import Verif.Props.State
import Verif.Props.Surface
import Verif.Props.SurfaceGap
import Verif.Props.TallyCells
import Verif.Props.TallyFile
import Verif.Props.TallyPlain
import Verif.Props.Text
import Verif.Props.Texts
import Verif.Props.TrackFilter
import Verif.Props.Transform
import Verif.Props.Vertical
import Verif.Props.Whole
import Verif.Ptrac.ErrLemmas
import Verif.Ptrac.Event
import Verif.Ptrac.EventLemmas
import Verif.Ptrac.FileLemmas
import Verif.Ptrac.FmtLemmas
import Verif.Ptrac.Header
import Verif.Ptrac.HeaderLemmas
import Verif.Ptrac.HistoryLemmas
import Verif.Ptrac.Line
import Verif.Ptrac.LineLemmas
import Verif.Ptrac.RoundLemmas
import Verif.Py.Caps
import Verif.Py.Decimal
import Verif.Py.Double
import Verif.Py.DoubleLemmas
import Verif.Py.Err
import Verif.Py.Float
import Verif.Py.Lit
import Verif.Py.Regex
import Verif.Py.RegexLemmas
import Verif.Py.RegexLex
import Verif.Py.RegexMt
import Verif.Py.RegexStep
import Verif.Py.RegexSub
import Verif.Py.Str
import Verif.Py.StrLemmas
import Verif.Py.Tmpl
import Verif.Py.TmplLemmas
import Verif.Run.Cli
import Verif.Run.Commands
import Verif.Run.DirLemmas
import Verif.Run.Lemmas
import Verif.Run.Messages
import Verif.Run.Run
import Verif.Run.Visualize
import Verif.Show.Cells
import Verif.Show.Grid
import Verif.Show.Select
import Verif.Show.Shape
import Verif.State.Cell
import Verif.State.CellLemmas
import Verif.State.Data
import Verif.State.DataLemmas
import Verif.State.DataSpec
import Verif.State.Held
import Verif.State.HistoryLemmas
import Verif.State.Whole
import Verif.Types.Division
import Verif.Types.Geometry
import Verif.Types.GeometryGrammar
import Verif.Types.GeometryLemmas
import Verif.Types.GeometryLex
import Verif.Types.Hash
import Verif.Types.Lattice
import Verif.Types.LatticeLemmas
import Verif.Types.Lazy
import Verif.Types.Number
import Verif.Types.NumberLemmas
import Verif.Types.Operators
import Verif.Types.Powers
import Verif.Types.RealOps
import Verif.Types.Regions
import Verif.Types.Rounding
import Verif.Types.Scalar
import Verif.Types.ScalarLemmas
import Verif.Types.Text
