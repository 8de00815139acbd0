import Verif.Lemmas.Mini.Check
import Verif.Model.Texts
import Verif.Model.Files
import Verif.Spec.Files
import Verif.Model.Parsers

/-! Generated by tools/core2lean.py: the generated files of a crate, read as Rust. -/
namespace PP.Mini
open PP.Gen

set_option maxRecDepth 100000 in
theorem ex10Crate : crateCheck plainItems [] (fileOf Texts.ex10Rules) (fileOf Texts.ex10Parser) Ex10.all ex10Parser.body
    (fun r => utf8Of (Files.ex10Name r)) (Files.ex10Enum.map utf8Of) ex10Parser.grammar = true := by decide +kernel

end PP.Mini
