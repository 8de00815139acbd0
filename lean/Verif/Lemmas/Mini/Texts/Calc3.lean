import Verif.Spec.Mini.Reader
import Verif.Model.CoreAst
import Verif.Model.CoreTexts
import Verif.Spec.Files

/-! Generated by tools/core2lean.py: the core files, read as Rust. -/
namespace PP.Mini
open PP.Gen

set_option maxRecDepth 100000 in
theorem read_calc3Lib : readFile (fileOf CoreTexts.calc3Lib) = some Ast.calc3LibItems := by decide +kernel

end PP.Mini
