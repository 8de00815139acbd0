import Verif.Spec.Rs.Reader
import Verif.Model.GenAst
import Verif.Model.GenTexts
import Verif.Model.CoreTexts
import Verif.Lemmas.FastText
import Verif.Lemmas.Rs.Texts.Lib

/-! Generated by tools/gen2lean.py: parser/src/keys.rs, read as Rust. -/
namespace PP.Rs
open PP.Gen

fast_file CoreTexts.keys keysCodes

set_option maxRecDepth 100000 in
theorem read_keys : readFile (fileOf CoreTexts.keys) = some Ast.keysItems := by
  rw [keysCodes_eq]
  decide +kernel

end PP.Rs
