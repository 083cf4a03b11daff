import Verif.Basic
import Verif.Model.Seq
import Verif.Lemmas.Seq
import Verif.Props.Seq
import Verif.Model.Map
import Verif.Lemmas.Map
import Verif.Props.Map
import Verif.Model.Text
import Verif.Spec.Text
import Verif.Lemmas.Text
import Verif.Lemmas.TextSearch
import Verif.Lemmas.TextOrder
import Verif.Props.Text
import Verif.Model.Mem
import Verif.Spec.Mem
import Verif.Lemmas.Mem
import Verif.Props.Mem
import Verif.Model.GC
import Verif.Spec.GC
import Verif.Lemmas.GC
import Verif.Props.GC
import Verif.Model.Interp
import Verif.Spec.Interp
import Verif.Lemmas.Interp
import Verif.Lemmas.InterpMono
import Verif.Lemmas.InterpBoot
import Verif.Lemmas.InterpScope
import Verif.Lemmas.InterpLoop
import Verif.Props.Interp
import Verif.Model.Sip
import Verif.Spec.Sip
import Verif.Lemmas.Sip
import Verif.Props.Sip
import Verif.Model.Num
import Verif.Spec.Num
import Verif.Lemmas.Num
import Verif.Props.Num
import Verif.Spec.Dict
import Verif.Model.Lexer
import Verif.Spec.Lexer
import Verif.Lemmas.Lexer
import Verif.Lemmas.LexerCode
import Verif.Lemmas.LexerTok
import Verif.Props.Lexer
import Verif.Spec.Ast
import Verif.Model.Parser
import Verif.Lemmas.Parser
import Verif.Spec.Parser
import Verif.Lemmas.LexerFwd
import Verif.Lemmas.ParserFwd
import Verif.Lemmas.ParserShape
import Verif.Lemmas.ParserLong
import Verif.Props.Parser
import Verif.Model.Translator
import Verif.Spec.Translator
import Verif.Lemmas.Translator
import Verif.Props.Translator
import Verif.Model.Clock
import Verif.Spec.Calendar
import Verif.Lemmas.Clock
import Verif.Props.Clock
import Verif.Model.ClockText
import Verif.Spec.ClockText
import Verif.Lemmas.ClockText
import Verif.Props.ClockText
import Verif.Model.Bits
import Verif.Spec.Bits
import Verif.Props.Bits
import Verif.Model.Respond
import Verif.Spec.Respond
import Verif.Props.Respond
import Verif.Model.Raw
import Verif.Spec.Raw
import Verif.Props.Raw
import Verif.Model.Report
import Verif.Spec.Report
import Verif.Lemmas.Report
import Verif.Props.Report
import Verif.Model.Root
import Verif.Spec.Root
import Verif.Lemmas.Root
import Verif.Props.Root
import Verif.Model.Exists
import Verif.Spec.Exists
import Verif.Props.Exists
import Verif.Model.Summer
import Verif.Props.Summer
import Verif.Model.Export
import Verif.Props.Export
import Verif.Model.Render
import Verif.Spec.Render
import Verif.Props.Render
import Verif.Model.Click
import Verif.Spec.Click
import Verif.Props.Click
import Verif.Model.Assets
import Verif.Spec.Assets
import Verif.Props.Assets
import Verif.Model.Foreign
import Verif.Spec.Foreign
import Verif.Props.Foreign
import Verif.Model.Network
import Verif.Props.Network
import Verif.Spec.Nest
import Verif.Model.Nest
import Verif.Lemmas.Nest
import Verif.Props.Nest
import Verif.Model.File
import Verif.Spec.File
import Verif.Props.File
import Verif.Model.System
import Verif.Spec.System
import Verif.Lemmas.System
import Verif.Props.System
import Verif.Spec.Track
import Verif.Model.Track
import Verif.Lemmas.Track
import Verif.Props.Track
import Verif.Spec.Value
import Verif.Model.Value
import Verif.Props.Value
import Verif.Props.Extreme
import Verif.Spec.Share
import Verif.Model.Share
import Verif.Lemmas.Share
import Verif.Props.Share
import Verif.Model.TransProg
import Verif.Spec.TransProg
import Verif.Lemmas.TransScan
import Verif.Lemmas.TransTree
import Verif.Lemmas.TransNote
import Verif.Lemmas.TransRun
import Verif.Lemmas.TransWhole
import Verif.Lemmas.TransDict
import Verif.Props.TransProg
import Verif.Spec.ReadBack
import Verif.Model.ReadBack
import Verif.Lemmas.ReadBackText
import Verif.Lemmas.ReadBackRun
import Verif.Lemmas.ReadBackEval
import Verif.Lemmas.ReadBackView
import Verif.Props.ReadBack
import Verif.Props.ReadBackLangs
import Verif.Spec.Sort
import Verif.Model.Sort
import Verif.Lemmas.Sort
import Verif.Props.Sort
import Verif.Spec.Json
import Verif.Model.Json
import Verif.Lemmas.JsonText
import Verif.Lemmas.JsonTok
import Verif.Lemmas.JsonRun
import Verif.Lemmas.JsonLock
import Verif.Lemmas.JsonDump
import Verif.Lemmas.JsonEnds
import Verif.Lemmas.JsonWrite
import Verif.Props.Json
import Verif.Spec.Generate
import Verif.Model.Generate
import Verif.Lemmas.Generate
import Verif.Props.Generate
import Verif.Spec.Regex
import Verif.Model.Regex
import Verif.Lemmas.Regex
import Verif.Props.Regex
import Verif.Spec.Request
import Verif.Model.Request
import Verif.Lemmas.Request
import Verif.Lemmas.RequestForm
import Verif.Props.Request
import Verif.Props.Package
import Verif.Props.Lines
import Verif.Props.Editor
import Verif.Props.Timer
import Verif.Props.Blob
import Verif.Props.Temp
import Verif.Props.Float
import Verif.Props.Slots
import Verif.Props.Stage
import Verif.Props.Camera
import Verif.Props.Keys
import Verif.Spec.Program
import Verif.Model.Program
import Verif.Lemmas.ProgramHeap
import Verif.Lemmas.ProgramQuiet
import Verif.Lemmas.ProgramSim
import Verif.Lemmas.ProgramRun
import Verif.Lemmas.ProgramMain
import Verif.Lemmas.ProgramStart
import Verif.Lemmas.ProgramEuclid
import Verif.Props.Program
import Verif.Spec.Objects
import Verif.Model.Objects
import Verif.Lemmas.ObjectsHeap
import Verif.Lemmas.ObjectsSim
import Verif.Lemmas.ObjectsRun
import Verif.Lemmas.ObjectsMain
import Verif.Lemmas.ObjectsStart
import Verif.Props.Objects
import Verif.Spec.Retold
import Verif.Lemmas.Retold
import Verif.Props.Retold
import Verif.Props.JsonNumbers
import Verif.Spec.RetoldObjects
import Verif.Lemmas.RetoldObjects
import Verif.Props.RetoldObjects
