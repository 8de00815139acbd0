import Verif.Lemmas.Mini.Check
import Verif.Model.Texts
import Verif.Model.Files
import Verif.Spec.Files
import Verif.Model.Parsers

/-! Generated by tools/core2lean.py: the generated files of a crate, read as Rust. -/
namespace PP.Mini
open PP.Gen

set_option maxRecDepth 100000 in
theorem ex11Crate : crateCheck (Ast.ex11UserStateItems ++ Ast.ex11HookedCallsItems) [utf8Of "unique_line_cache"] (fileOf Texts.ex11Rules) (fileOf Texts.ex11Parser) Ex11.all ex11Parser.body
    (fun r => utf8Of (Files.ex11Name r)) (Files.ex11Enum.map utf8Of) ex11Parser.grammar = true := by decide +kernel

end PP.Mini
