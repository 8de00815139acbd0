import Verif.Spec.Mini.Reader
import Verif.Model.CoreAst
import Verif.Model.CoreTexts
import Verif.Spec.Files

/-! Generated by tools/core2lean.py: the core files, read as Rust. -/
namespace PP.Mini
open PP.Gen

set_option maxRecDepth 100000 in
theorem read_keys : readFile (fileOf CoreTexts.keys) = some Ast.keysItems := by decide +kernel

set_option maxRecDepth 100000 in
theorem read_source : readFile (fileOf CoreTexts.source) = some Ast.sourceItems := by decide +kernel

set_option maxRecDepth 100000 in
theorem read_userState : readFile (fileOf CoreTexts.userState) = some Ast.userStateItems := by decide +kernel

set_option maxRecDepth 100000 in
theorem read_hookedCalls : readFile (fileOf CoreTexts.hookedCalls) = some Ast.hookedCallsItems := by decide +kernel

set_option maxRecDepth 100000 in
theorem read_cache : readFile (fileOf CoreTexts.cache) = some Ast.cacheItems := by decide +kernel

set_option maxRecDepth 100000 in
theorem read_ex11UserState : readFile (fileOf CoreTexts.ex11UserState) = some Ast.ex11UserStateItems := by decide +kernel

set_option maxRecDepth 100000 in
theorem read_ex11HookedCalls : readFile (fileOf CoreTexts.ex11HookedCalls) = some Ast.ex11HookedCallsItems := by decide +kernel

end PP.Mini
