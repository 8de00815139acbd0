import Verif.Lemmas.Mini.Check
import Verif.Lemmas.Mini.Texts.Ex1
import Verif.Lemmas.Mini.Texts.Calc1

/-! The crate of example 1 together with the evaluator's lib.rs, checked. -/
namespace PP.Mini
open PP.Gen

set_option maxRecDepth 100000 in
theorem calc1Crate : crateCheck (plainItems ++ Ast.calc1LibItems) [] (fileOf Texts.ex1Rules) (fileOf Texts.ex1Parser) Ex1.all ex1Parser.body
    (fun r => utf8Of (Files.ex1Name r)) (Files.ex1Enum.map utf8Of) ex1Parser.grammar = true := by decide +kernel

end PP.Mini
