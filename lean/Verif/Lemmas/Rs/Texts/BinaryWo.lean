import Verif.Spec.Rs.Reader
import Verif.Model.GenAst
import Verif.Model.GenTexts
import Verif.Model.CoreTexts
import Verif.Lemmas.FastText
import Verif.Lemmas.Rs.Texts.CycleDetector

/-! Generated by tools/gen2lean.py: generator/src/binary_wo.rs, read as Rust. -/
namespace PP.Rs
open PP.Gen

fast_file GenTexts.binaryWo binaryWoCodes

set_option maxRecDepth 100000 in
theorem read_binaryWo : readFile (fileOf GenTexts.binaryWo) = some Ast.binaryWoItems := by
  rw [binaryWoCodes_eq]
  decide +kernel

end PP.Rs
