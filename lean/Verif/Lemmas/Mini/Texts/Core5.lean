import Verif.Spec.Mini.Reader
import Verif.Model.CoreAst
import Verif.Model.CoreTexts
import Verif.Spec.Files

/-! Generated by tools/core2lean.py: the core files, read as Rust. -/
namespace PP.Mini
open PP.Gen

set_option maxRecDepth 100000 in
theorem read_varName : readFile (fileOf CoreTexts.varName) = some Ast.varNameItems := by decide +kernel

set_option maxRecDepth 100000 in
theorem read_exVarName : readFile (fileOf CoreTexts.exVarName) = some Ast.varNameItems := by decide +kernel

set_option maxRecDepth 100000 in
theorem read_parse : readFile (fileOf CoreTexts.parse) = some Ast.parseItems := by decide +kernel

set_option maxRecDepth 100000 in
theorem read_exParse : readFile (fileOf CoreTexts.exParse) = some Ast.parseItems := by decide +kernel

end PP.Mini
