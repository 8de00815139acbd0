import Verif.Lemmas.Mini.Check
import Verif.Model.Texts
import Verif.Model.Files
import Verif.Spec.Files
import Verif.Model.Parsers

/-! Generated by tools/core2lean.py: the generated files of a crate, read as Rust. -/
namespace PP.Mini
open PP.Gen

set_option maxRecDepth 100000 in
theorem ex5Crate : crateCheck plainItems [] (fileOf Texts.ex5Rules) (fileOf Texts.ex5Parser) Ex5.all ex5Parser.body
    (fun r => utf8Of (Files.ex5Name r)) (Files.ex5Enum.map utf8Of) ex5Parser.grammar = true := by decide +kernel

end PP.Mini
