import Verif.Model.Str
import Verif.Model.Types
import Verif.Model.Lex
import Verif.Model.Lua
import Verif.Model.Analyze
import Verif.Model.Combine
import Verif.Model.Parse
import Verif.Model.Build
import Verif.Model.Tables.All
import Verif.Model.Chan
import Verif.Model.Utf8
import Verif.Model.Json
import Verif.Model.Gen
import Verif.Spec.Items
import Verif.Proofs.LexBasic
import Verif.Proofs.LexItems
import Verif.Proofs.LexCover
import Verif.Proofs.LexProps
import Verif.Props.Lexer
import Verif.Spec.Stream
import Verif.Proofs.ChanInv
import Verif.Props.Chan
import Verif.Spec.Utf8
import Verif.Proofs.Utf8
import Verif.Props.Utf8
import Verif.Spec.Masks
import Verif.Proofs.Analyze
import Verif.Props.Analyze
import Verif.Props.Tables
import Verif.Spec.Tree
import Verif.Proofs.Tree
import Verif.Props.Types
import Verif.Spec.Expand
import Verif.Proofs.Combine
import Verif.Props.Combine
import Verif.Spec.Gen
import Verif.Proofs.Gen
import Verif.Props.Gen
import Verif.Props.Json
import Verif.Proofs.Run
import Verif.Proofs.Files
import Verif.Spec.Placed
import Verif.Spec.IfArgs
import Verif.Proofs.ParseTree
import Verif.Proofs.IfArgs
import Verif.Proofs.ParseTop
import Verif.Proofs.Visits
import Verif.Proofs.Dec
import Verif.Proofs.Congr
import Verif.Props.Ex
import Verif.Props.Tree
import Verif.Props.Errors
import Verif.Props.EnvProps
import Verif.Proofs.Kahn
import Verif.Proofs.IncludeGraph
import Verif.Proofs.IncludeTree
import Verif.Props.Include
import Verif.Props.Clean
import Verif.Props.Stop
import Verif.Spec.Comments
import Verif.Proofs.Sim
import Verif.Props.Relate
import Verif.Props.Context
import Verif.Spec.Source
import Verif.Props.Source
import Verif.Spec.Layout
import Verif.Props.Build
import Verif.Props.Enquote
import Verif.Proofs.BuildItems
import Verif.Proofs.BuildToks
import Verif.Proofs.BuildHead
import Verif.Props.BuildLex
import Verif.Spec.Rebuild
import Verif.Proofs.Rebuild
import Verif.Props.Rebuild
import Verif.Proofs.Restable
import Verif.Proofs.Relined
import Verif.Props.Restable
import Verif.Spec.UpToLines
import Verif.Proofs.Refile
import Verif.Proofs.Written
import Verif.Props.Refile
import Verif.Spec.External
import Verif.Spec.LuaCode
import Verif.Spec.LuaText
import Verif.Proofs.LexExt
import Verif.Proofs.LexChunks
import Verif.Proofs.WFDec
import Verif.Proofs.Lua
import Verif.Props.External
import Verif.Props.Lua
import Verif.Props.LuaBuild
import Verif.Props.LuaTable
import Verif.Props.Configs
import Verif.Props.GenSrc
import Verif.Props.GenOut
import Verif.Props.Upgrade
import Verif.Props.Goroutines
import Verif.Props.GoroutinesEnd
import Verif.Props.GoroutinesLeft
import Verif.Props.Examples
import Verif.Props.ChanExt
import Verif.Props.EnquoteIff
import Verif.Proofs.ExtTree
import Verif.Props.LuaTree
import Verif.Proofs.ExtWritten
import Verif.Props.LuaFiles
import Verif.Spec.Lines
import Verif.Spec.SourceToks
import Verif.Props.Lines
import Verif.Props.SourceExt
import Verif.Spec.Stands
import Verif.Proofs.Placement
import Verif.Props.Combined
import Verif.Spec.Handles
import Verif.Model.Handles
import Verif.Proofs.Handles
import Verif.Props.Handles
import Verif.Spec.Grammar
import Verif.Proofs.Grammar
import Verif.Props.Grammar
import Verif.Spec.Project
import Verif.Proofs.Project
import Verif.Props.Project
import Verif.Spec.Size
import Verif.Props.ProjectCombined
import Verif.Props.Size
import Verif.Props.Blowup
import Verif.Spec.Without
import Verif.Props.Without
import Verif.Spec.Recovery
import Verif.Proofs.Recovery
import Verif.Props.Recovery
import Verif.Spec.Concat
import Verif.Proofs.Concat
import Verif.Props.Concat
import Verif.Model.ParseChan
import Verif.Proofs.ParseChan
import Verif.Props.ParseChan
import Verif.Spec.Inline
import Verif.Proofs.Inline
import Verif.Proofs.InlineProject
import Verif.Proofs.InlineText
import Verif.Props.Inline
import Verif.Spec.Reformat
import Verif.Proofs.Reformat
import Verif.Props.Reformat
import Verif.Spec.Causes
import Verif.Proofs.Causes
import Verif.Props.Causes
import Verif.Spec.Outcome
import Verif.Proofs.Outcome
import Verif.Props.Outcome
import Verif.Spec.Works
import Verif.Proofs.Works
import Verif.Props.Works
import Verif.Props.WorksCombined
import Verif.Spec.Frame
import Verif.Proofs.Frame
import Verif.Props.Frame
import Verif.Props.StopFirst
import Verif.Spec.Hole
import Verif.Props.Local
import Verif.Model.BuildState
import Verif.Model.BuildRace
import Verif.Spec.Session
import Verif.Props.Session
import Verif.Props.BuildRace
import Verif.Model.ParseShare
import Verif.Props.ParseShare
import Verif.Model.Heap
import Verif.Spec.Heap
import Verif.Props.Heap
import Verif.Props.CombinedLua
import Verif.Props.ContextDeep
import Verif.Props.ContextChecked
import Verif.Props.ParseExtLua
import Verif.Props.ParseExtBound
import Verif.Proofs.ConcatExt
import Verif.Props.ConcatExt
import Verif.Proofs.InlineExt
import Verif.Props.InlineExt
import Verif.Props.LinesExt
import Verif.Spec.Moved
import Verif.Proofs.Moved
import Verif.Props.Moved
import Verif.Spec.Escapes
import Verif.Props.Escapes
import Verif.Spec.Words
import Verif.Props.Words
import Verif.Model.BuildPanic
import Verif.Spec.Panics
import Verif.Props.BuildPanic
import Verif.Props.RefileTables
import Verif.Props.CarriageReturns
import Verif.Props.SourceOrder
import Verif.Props.Alone
import Verif.Props.Callback
import Verif.Props.Cut
import Verif.Props.Edit
import Verif.Props.EditProject
import Verif.Props.EditWrong
import Verif.Props.Unused
import Verif.Spec.Nginx
import Verif.Props.Nginx
import Verif.Spec.NginxTree
import Verif.Props.NginxBuild
import Verif.Props.NginxFormat
import Verif.Props.NginxFiles
