import Verif.Lemmas.Mini.Check
import Verif.Model.Texts
import Verif.Model.Files
import Verif.Spec.Files
import Verif.Model.Parsers

/-! Generated by tools/core2lean.py: the generated files of a crate, read as Rust. -/
namespace PP.Mini
open PP.Gen

set_option maxRecDepth 100000 in
theorem ex1Crate : crateCheck plainItems [] (fileOf Texts.ex1Rules) (fileOf Texts.ex1Parser) Ex1.all ex1Parser.body
    (fun r => utf8Of (Files.ex1Name r)) (Files.ex1Enum.map utf8Of) ex1Parser.grammar = true := by decide +kernel

end PP.Mini
