import Verif.Spec.Rs.Reader
import Verif.Model.GenAst
import Verif.Model.GenTexts
import Verif.Model.CoreTexts
import Verif.Lemmas.FastText
import Verif.Props.Checked
import Verif.Props.ExecuteCalc

/-! Generated by tools/gen2lean.py: generator/src/constructor.rs, read as Rust. -/
namespace PP.Rs
open PP.Gen

fast_file GenTexts.constructor constructorCodes

set_option maxRecDepth 100000 in
theorem read_constructor : readFile (fileOf GenTexts.constructor) = some Ast.constructorItems := by
  rw [constructorCodes_eq]
  decide +kernel

end PP.Rs
