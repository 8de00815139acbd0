import Verif.Model.Texts
import Verif.Lemmas.Checked
import Verif.Lemmas.Files.Ex8

/-! Generated by tools/rs2lean.py. -/
namespace PP.Gen
open Text

set_option maxRecDepth 100000 in
theorem ex8Text : IsTextOf (fileOf Texts.ex8Rules) (fileOf Texts.ex8Parser) Ex8.all Ex8.body (fun r => utf8Of (Files.ex8Name r))
    (Files.ex8Enum.map utf8Of) := textCheck_ok (by decide +kernel)

set_option maxRecDepth 100000 in
theorem ex8Current : UpToDate (fileOf Files.ex8File) (fileOf Texts.ex8Rules) (fileOf Texts.ex8Parser) :=
  up_to_date ex8Ok (by decide +kernel) (by unfold DGrammar.NoSetName; decide +kernel) ex8Text

end PP.Gen
