import Verif.Lemmas.Mini.Check
import Verif.Model.Texts
import Verif.Model.Files
import Verif.Spec.Files
import Verif.Model.Parsers

/-! Generated by tools/core2lean.py: the generated files of a crate, read as Rust. -/
namespace PP.Mini
open PP.Gen

set_option maxRecDepth 100000 in
theorem ex7Crate : crateCheck plainItems [] (fileOf Texts.ex7Rules) (fileOf Texts.ex7Parser) Ex7.all ex7Parser.body
    (fun r => utf8Of (Files.ex7Name r)) (Files.ex7Enum.map utf8Of) ex7Parser.grammar = true := by decide +kernel

end PP.Mini
