import Verif.Lemmas.Mini.Check
import Verif.Lemmas.Mini.Texts.Ex4
import Verif.Lemmas.Mini.Texts.Calc4

/-! The crate of example 4 together with the evaluator's lib.rs, checked. -/
namespace PP.Mini
open PP.Gen

set_option maxRecDepth 100000 in
theorem calc4Crate : crateCheck (plainItems ++ Ast.calc4LibItems) [] (fileOf Texts.ex4Rules) (fileOf Texts.ex4Parser) Ex4.all ex4Parser.body
    (fun r => utf8Of (Files.ex4Name r)) (Files.ex4Enum.map utf8Of) ex4Parser.grammar = true := by decide +kernel

end PP.Mini
