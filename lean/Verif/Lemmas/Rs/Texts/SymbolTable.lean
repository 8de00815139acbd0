import Verif.Spec.Rs.Reader
import Verif.Model.GenAst
import Verif.Model.GenTexts
import Verif.Model.CoreTexts
import Verif.Lemmas.FastText
import Verif.Lemmas.Rs.Texts.Publisher

/-! Generated by tools/gen2lean.py: generator/src/symbol_table.rs, read as Rust. -/
namespace PP.Rs
open PP.Gen

fast_file GenTexts.symbolTable symbolTableCodes

set_option maxRecDepth 100000 in
theorem read_symbolTable : readFile (fileOf GenTexts.symbolTable) = some Ast.symbolTableItems := by
  rw [symbolTableCodes_eq]
  decide +kernel

end PP.Rs
