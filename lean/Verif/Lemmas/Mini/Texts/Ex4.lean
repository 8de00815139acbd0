import Verif.Lemmas.Mini.Check
import Verif.Model.Texts
import Verif.Model.Files
import Verif.Spec.Files
import Verif.Model.Parsers

/-! Generated by tools/core2lean.py: the generated files of a crate, read as Rust. -/
namespace PP.Mini
open PP.Gen

set_option maxRecDepth 100000 in
theorem ex4Crate : crateCheck plainItems [] (fileOf Texts.ex4Rules) (fileOf Texts.ex4Parser) Ex4.all ex4Parser.body
    (fun r => utf8Of (Files.ex4Name r)) (Files.ex4Enum.map utf8Of) ex4Parser.grammar = true := by decide +kernel

end PP.Mini
