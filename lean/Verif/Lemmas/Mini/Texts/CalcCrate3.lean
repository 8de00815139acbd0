import Verif.Lemmas.Mini.Check
import Verif.Lemmas.Mini.Texts.Ex3
import Verif.Lemmas.Mini.Texts.Calc3

/-! The crate of example 3 together with the evaluator's lib.rs, checked. -/
namespace PP.Mini
open PP.Gen

set_option maxRecDepth 100000 in
theorem calc3Crate : crateCheck (plainItems ++ Ast.calc3LibItems) [] (fileOf Texts.ex3Rules) (fileOf Texts.ex3Parser) Ex3.all ex3Parser.body
    (fun r => utf8Of (Files.ex3Name r)) (Files.ex3Enum.map utf8Of) ex3Parser.grammar = true := by decide +kernel

end PP.Mini
