import Verif.Base
import Verif.Distances.Props
import Verif.Levenshtein.Props
import Verif.Metrics.Jaccard
import Verif.Metrics.JaroWinkler
import Verif.Cluster.Props
import Verif.CStr.Num
import Verif.Threads.Props
import Verif.Normalize.Props
import Verif.Normalize.Pairing
import Verif.Koops.Normalize
import Verif.Frames.CmpProps
import Verif.Hash.Dup
import Verif.Hash.Format
import Verif.Hash.Distinct
import Verif.Json.Documents
import Verif.Json.DocumentsProps
import Verif.Report.Documents
import Verif.Hash.Bt
import Verif.Frames.ThreadCmp
import Verif.Crash.Quality
import Verif.Normalize.Main
import Verif.Os.Props
import Verif.Rpm.Names
import Verif.Rpm.Order
import Verif.Rpm.DbModel
import Verif.Rpm.Db
import Verif.Rpm.Dso
import Verif.Json.Escape
import Verif.Json.Core
import Verif.Json.Koops
import Verif.Json.Script
import Verif.Json.Package
import Verif.Report.Reason
import Verif.Report.Types
import Verif.Report.Json
import Verif.Lookup
import Verif.CStr.Scan
import Verif.Gdb.Funs
import Verif.Gdb.Lib
import Verif.Gdb.FrameModel
import Verif.Gdb.FrameLoops
import Verif.Gdb.FrameSafe
import Verif.Gdb.FrameNames
import Verif.Gdb.FrameCalls
import Verif.Gdb.FrameRead
import Verif.Gdb.TraceModel
import Verif.Gdb.Trace
import Verif.Gdb.LocModel
import Verif.Gdb.LocMoves
import Verif.Gdb.Loc
import Verif.Unstrip.Props
import Verif.Disasm.Props
import Verif.CStr.Parse
import Verif.Text.Js
import Verif.Text.JsLines
import Verif.Text.LocModel
import Verif.Text.LocProps
import Verif.Text.JsLocModel
import Verif.Text.JsLoc
import Verif.Text.Python
import Verif.CStr.Exact
import Verif.Text.PythonLines
import Verif.Text.RubyLines
import Verif.Text.Ruby
import Verif.Text.RubyLocModel
import Verif.Text.RubyLoc
import Verif.Text.PythonLocModel
import Verif.Text.PythonLoc
import Verif.Text.JavaLocModel
import Verif.Text.JavaLoc
import Verif.Text.Java
import Verif.Text.JavaLines
import Verif.Text.KoopsModel
import Verif.Text.KoopsSound
import Verif.Text.KoopsRead
import Verif.Text.KoopsSafe
import Verif.Text.KoopsModules
import Verif.Text.KoopsTrace
import Verif.Text.Home
import Verif.Short.Model
import Verif.Short.Lines
import Verif.Short.Gdb
import Verif.Short.Ident
import Verif.Short.IdentRead
import Verif.Abrt.Model
import Verif.Abrt.Props
import Verif.Abrt.Report
import Verif.Elf.Model
import Verif.Elf.Props
import Verif.Callgraph.Model
import Verif.Callgraph.Props
import Verif.Unwind.Model
import Verif.Unwind.Props
import Verif.Unwind.OpenModel
import Verif.Unwind.OpenProps
import Verif.Heap.Model
import Verif.Heap.Copy
import Verif.Heap.Free
import Verif.Heap.Lists
import Verif.Heap.Props
import Verif.Heap.JsonModel
import Verif.Heap.Json
import Verif.Heap.JsonLemmas
import Verif.Heap.JsonSteps
import Verif.Heap.JsonParts
import Verif.Heap.JsonProps
import Verif.Heap.Message
import Verif.Heap.TextModel
import Verif.Heap.TextLemmas
import Verif.Heap.TextPython
import Verif.Heap.TextLists
import Verif.Heap.TextTracePython
import Verif.Heap.TextRuby
import Verif.Heap.TextJs
import Verif.Text.RubyErase
import Verif.Heap.TextProps
import Verif.Heap.KoopsTextProps
import Verif.Heap.JavaTextProps
import Verif.Heap.GdbTextModel
import Verif.Heap.GdbTextNames
import Verif.Heap.GdbTextCalls
import Verif.Heap.GdbTextFrames
import Verif.Heap.GdbTextThreads
import Verif.Heap.GdbTextTrace
import Verif.Heap.GdbTextProps
import Verif.Heap.PackageProps
import Verif.Heap.PackageDirModel
import Verif.Heap.PackageDirLemmas
import Verif.Heap.PackageDirProps
import Verif.Heap.SystemDirModel
import Verif.Heap.SystemDirLemmas
import Verif.Heap.SystemDirProps
import Verif.Heap.ReportDirModel
import Verif.Heap.ReportDirLemmas
import Verif.Heap.ReportDirProps
import Verif.Heap.TraceDirModel
import Verif.Heap.TraceDirLemmas
import Verif.Heap.TraceDirProps
import Verif.Heap.CoreDirModel
import Verif.Heap.CoreDirProps
import Verif.Heap.WholeDirProps
import Verif.Heap.FramesModel
import Verif.Heap.FramesProps
import Verif.Text.JsNames
import Verif.Report.ReasonNot
import Verif.Heap.ReportJsonModel
import Verif.Heap.ReportJson
import Verif.Heap.ReportJsonLemmas
import Verif.Heap.ReportJsonWhole
import Verif.Heap.ReportJsonProps
import Verif.Py.Attr
import Verif.Py.AttrProps
import Verif.Py.Lists
import Verif.Py.ListsProps
import Verif.Py.ReportModel
import Verif.Py.ReportProps
import Verif.Py.Metrics
import Verif.Py.MetricsProps
import Verif.Py.PartsProps
import Verif.Py.GdbModel
import Verif.Py.GdbProps
import Verif.Py.CompareModel
import Verif.Py.CompareProps
import Verif.Py.TextModel
import Verif.Py.TextProps
import Verif.Normalize.Matching
import Verif.Metrics.Natural
import Verif.Metrics.GdbCompare
import Verif.Rounding
import Verif.Metrics.Float
import Verif.Crash.Float
import Verif.Cluster.Float
import Verif.Generic.Model
import Verif.Generic.Props
import Verif.Generic.Cmp
import Verif.Generic.Survive
import Verif.Generic.Load
import Verif.Unwind.Load
import Verif.Platform.Model
import Verif.Platform.Props
import Verif.Cli.Model
import Verif.Cli.Normalize
import Verif.Cli.Props
import Verif.Cli.Args
import Verif.Abrt.CreateModel
import Verif.Abrt.Create
import Verif.Cluster.Order
import Verif.Py.ObjectsProps
import Verif.Py.KoopsProps
import Verif.Py.CoreProps
import Verif.Py.ThreadProps
import Verif.Py.FrameProps
import Verif.Py.LangProps
import Verif.Conformance.Script
import Verif.Conformance.Hash
import Verif.Conformance.Gdb
import Verif.Conformance.Metrics
import Verif.Conformance.Java
import Verif.Conformance.Locations
import Verif.Conformance.Koops
import Verif.Conformance.Utils
import Verif.Conformance.System
import Verif.Conformance.Core
import Verif.Conformance.Platform
import Verif.Conformance.Python
import Verif.Cluster.Relabel
import Verif.Generic.Triangle
import Verif.Py.JavaProps
import Verif.CStr.Cut
import Verif.Text.KoopsCut
import Verif.Text.Cut
import Verif.Cluster.Duplicates
import Verif.Generic.Duplicates
import Verif.Distances.MemoryProps
import Verif.Cluster.ArrayProps
