import Verif.Spec.Mini.Reader
import Verif.Model.CoreAst
import Verif.Model.CoreTexts
import Verif.Spec.Files

/-! Generated by tools/core2lean.py: the core files, read as Rust. -/
namespace PP.Mini
open PP.Gen

set_option maxRecDepth 100000 in
theorem read_context : readFile (fileOf CoreTexts.context) = some Ast.contextItems := by decide +kernel

set_option maxRecDepth 100000 in
theorem read_exContext : readFile (fileOf CoreTexts.exContext) = some Ast.contextItems := by decide +kernel

end PP.Mini
