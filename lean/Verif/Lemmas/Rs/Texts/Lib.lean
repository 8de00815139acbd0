import Verif.Spec.Rs.Reader
import Verif.Model.GenAst
import Verif.Model.GenTexts
import Verif.Model.CoreTexts
import Verif.Lemmas.FastText
import Verif.Lemmas.Rs.Texts.SymbolTable

/-! Generated by tools/gen2lean.py: generator/src/lib.rs, read as Rust. -/
namespace PP.Rs
open PP.Gen

fast_file GenTexts.lib libCodes

set_option maxRecDepth 100000 in
theorem read_lib : readFile (fileOf GenTexts.lib) = some Ast.libItems := by
  rw [libCodes_eq]
  decide +kernel

end PP.Rs
