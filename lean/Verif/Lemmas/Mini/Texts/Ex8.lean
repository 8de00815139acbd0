import Verif.Lemmas.Mini.Check
import Verif.Model.Texts
import Verif.Model.Files
import Verif.Spec.Files
import Verif.Model.Parsers

/-! Generated by tools/core2lean.py: the generated files of a crate, read as Rust. -/
namespace PP.Mini
open PP.Gen

set_option maxRecDepth 100000 in
theorem ex8Crate : crateCheck plainItems [] (fileOf Texts.ex8Rules) (fileOf Texts.ex8Parser) Ex8.all ex8Parser.body
    (fun r => utf8Of (Files.ex8Name r)) (Files.ex8Enum.map utf8Of) ex8Parser.grammar = true := by decide +kernel

end PP.Mini
