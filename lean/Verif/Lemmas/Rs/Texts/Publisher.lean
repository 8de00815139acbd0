import Verif.Spec.Rs.Reader
import Verif.Model.GenAst
import Verif.Model.GenTexts
import Verif.Model.CoreTexts
import Verif.Lemmas.FastText
import Verif.Lemmas.Rs.Texts.BinaryWo

/-! Generated by tools/gen2lean.py: parser/src/publisher.rs, read as Rust. -/
namespace PP.Rs
open PP.Gen

fast_file CoreTexts.publisher publisherCodes

set_option maxRecDepth 100000 in
theorem read_publisher : readFile (fileOf CoreTexts.publisher) = some Ast.publisherItems := by
  rw [publisherCodes_eq]
  decide +kernel

end PP.Rs
