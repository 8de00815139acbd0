import Verif.Props.Safety
import Verif.Props.Peg
import Verif.Props.Kernels
import Verif.Props.Trees
import Verif.Props.Store
import Verif.Props.Termination
import Verif.Props.Blowup
import Verif.Props.LeftRec
import Verif.Props.LeftTrees
import Verif.Props.Hooked
import Verif.Props.Reentry
import Verif.Model.Gen.Generate
import Verif.Lemmas.Gen.Lex
import Verif.Lemmas.Gen.Involved
import Verif.Lemmas.Gen.Symbols
import Verif.Lemmas.Gen.RuleCode
import Verif.Lemmas.Gen.Exec
import Verif.Lemmas.Gen.ReadGrammar
import Verif.Lemmas.Gen.Invert
import Verif.Props.Generator
import Verif.Props.GenFiles
import Verif.Props.Lexical
import Verif.Props.EndToEnd
import Verif.Props.Runner
import Verif.Props.Linear
import Verif.Props.GroupTrees
import Verif.Props.Indirect
import Verif.Props.Calc1
import Verif.Props.Maths
import Verif.Props.Borrow
import Verif.Props.Files
import Verif.Props.Json
import Verif.Props.Depth
import Verif.Props.Layout
import Verif.Props.Example2
import Verif.Props.Text
import Verif.Props.Checked
import Verif.Props.Execute
import Verif.Props.Generated
import Verif.Props.Execute11
import Verif.Props.GeneratedHooked
import Verif.Props.Clearing
import Verif.Props.ExecuteCalc
import Verif.Props.Regenerate
import Verif.Props.Respelt
import Verif.Props.ExecuteGen
import Verif.Props.ExecuteSymbols
import Verif.Props.ExecuteConstructor
import Verif.Props.ExecuteDetector
import Verif.Props.ExecuteWhole
import Verif.Props.ExecuteFiles
import Verif.Props.ExecuteAll
import Verif.Props.Compile
import Verif.Props.CompileFiles
import Verif.Props.TestMacro
import Verif.Props.CompileCalc
import Verif.Props.Script
import Verif.Props.ByHand
import Verif.Props.Session
import Verif.Props.SessionEnds
import Verif.Props.DepthLR
import Verif.Props.DiskCompiled
import Verif.Props.ExecuteStores
import Verif.Props.RepoTests
