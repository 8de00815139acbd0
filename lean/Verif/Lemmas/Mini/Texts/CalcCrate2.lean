import Verif.Lemmas.Mini.Check
import Verif.Lemmas.Mini.Texts.Ex2
import Verif.Lemmas.Mini.Texts.Calc2

/-! The crate of example 2 together with the evaluator's lib.rs, checked. -/
namespace PP.Mini
open PP.Gen

set_option maxRecDepth 100000 in
theorem calc2Crate : crateCheck (plainItems ++ Ast.calc2LibItems) [] (fileOf Texts.ex2Rules) (fileOf Texts.ex2Parser) Ex2.all ex2Parser.body
    (fun r => utf8Of (Files.ex2Name r)) (Files.ex2Enum.map utf8Of) ex2Parser.grammar = true := by decide +kernel

end PP.Mini
