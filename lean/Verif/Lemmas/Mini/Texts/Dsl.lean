import Verif.Lemmas.Mini.Check
import Verif.Model.Texts
import Verif.Model.Files
import Verif.Spec.Files
import Verif.Model.Parsers

/-! Generated by tools/core2lean.py: the generated files of a crate, read as Rust. -/
namespace PP.Mini
open PP.Gen

set_option maxRecDepth 100000 in
theorem dslCrate : crateCheck plainItems [] (fileOf Texts.dslRules) (fileOf Texts.dslParser) Dsl.all dslParser.body
    (fun r => utf8Of (Files.dslName r)) (Files.dslEnum.map utf8Of) dslParser.grammar = true := by decide +kernel

end PP.Mini
