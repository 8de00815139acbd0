import Verif.Spec.Rs.Reader
import Verif.Model.GenAst
import Verif.Model.GenTexts
import Verif.Model.CoreTexts
import Verif.Lemmas.FastText
import Verif.Lemmas.Rs.Texts.Constructor

/-! Generated by tools/gen2lean.py: generator/src/cycle_detector.rs, read as Rust. -/
namespace PP.Rs
open PP.Gen

fast_file GenTexts.cycleDetector cycleDetectorCodes

set_option maxRecDepth 100000 in
theorem read_cycleDetector : readFile (fileOf GenTexts.cycleDetector) = some Ast.cycleDetectorItems := by
  rw [cycleDetectorCodes_eq]
  decide +kernel

end PP.Rs
