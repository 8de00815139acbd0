import Verif.Spec.Mini.Reader
import Verif.Model.CoreAst
import Verif.Model.CoreTexts
import Verif.Spec.Files

/-! Generated by tools/core2lean.py: the core files, read as Rust. -/
namespace PP.Mini
open PP.Gen

set_option maxRecDepth 100000 in
theorem read_calc1Lib : readFile (fileOf CoreTexts.calc1Lib) = some Ast.calc1LibItems := by decide +kernel

end PP.Mini
