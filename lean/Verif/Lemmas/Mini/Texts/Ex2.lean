import Verif.Lemmas.Mini.Check
import Verif.Model.Texts
import Verif.Model.Files
import Verif.Spec.Files
import Verif.Model.Parsers

/-! Generated by tools/core2lean.py: the generated files of a crate, read as Rust. -/
namespace PP.Mini
open PP.Gen

set_option maxRecDepth 100000 in
theorem ex2Crate : crateCheck plainItems [] (fileOf Texts.ex2Rules) (fileOf Texts.ex2Parser) Ex2.all ex2Parser.body
    (fun r => utf8Of (Files.ex2Name r)) (Files.ex2Enum.map utf8Of) ex2Parser.grammar = true := by decide +kernel

end PP.Mini
