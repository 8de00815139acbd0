import Verif.Lemmas.Mini.Check
import Verif.Model.Texts
import Verif.Model.Files
import Verif.Spec.Files
import Verif.Model.Parsers

/-! Generated by tools/core2lean.py: the generated files of a crate, read as Rust. -/
namespace PP.Mini
open PP.Gen

set_option maxRecDepth 100000 in
theorem ex3Crate : crateCheck plainItems [] (fileOf Texts.ex3Rules) (fileOf Texts.ex3Parser) Ex3.all ex3Parser.body
    (fun r => utf8Of (Files.ex3Name r)) (Files.ex3Enum.map utf8Of) ex3Parser.grammar = true := by decide +kernel

end PP.Mini
