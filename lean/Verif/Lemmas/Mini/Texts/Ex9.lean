import Verif.Lemmas.Mini.Check
import Verif.Model.Texts
import Verif.Model.Files
import Verif.Spec.Files
import Verif.Model.Parsers

/-! Generated by tools/core2lean.py: the generated files of a crate, read as Rust. -/
namespace PP.Mini
open PP.Gen

set_option maxRecDepth 100000 in
theorem ex9Crate : crateCheck plainItems [] (fileOf Texts.ex9Rules) (fileOf Texts.ex9Parser) Ex9.all ex9Parser.body
    (fun r => utf8Of (Files.ex9Name r)) (Files.ex9Enum.map utf8Of) ex9Parser.grammar = true := by decide +kernel

end PP.Mini
