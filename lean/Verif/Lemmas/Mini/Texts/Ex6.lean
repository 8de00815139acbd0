import Verif.Lemmas.Mini.Check
import Verif.Model.Texts
import Verif.Model.Files
import Verif.Spec.Files
import Verif.Model.Parsers

/-! Generated by tools/core2lean.py: the generated files of a crate, read as Rust. -/
namespace PP.Mini
open PP.Gen

set_option maxRecDepth 100000 in
theorem ex6Crate : crateCheck plainItems [] (fileOf Texts.ex6Rules) (fileOf Texts.ex6Parser) Ex6.all ex6Parser.body
    (fun r => utf8Of (Files.ex6Name r)) (Files.ex6Enum.map utf8Of) ex6Parser.grammar = true := by decide +kernel

end PP.Mini
