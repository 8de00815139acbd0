import Verif.Model.Texts
import Verif.Lemmas.Checked
import Verif.Lemmas.Files.Ex11

/-! Generated by tools/rs2lean.py. -/
namespace PP.Gen
open Text

set_option maxRecDepth 100000 in
theorem ex11Text : IsTextOf (fileOf Texts.ex11Rules) (fileOf Texts.ex11Parser) Ex11.all Ex11.body (fun r => utf8Of (Files.ex11Name r))
    (Files.ex11Enum.map utf8Of) := textCheck_ok (by decide +kernel)

set_option maxRecDepth 100000 in
theorem ex11Current : UpToDate (fileOf Files.ex11File) (fileOf Texts.ex11Rules) (fileOf Texts.ex11Parser) :=
  up_to_date ex11Ok (by decide +kernel) (by unfold DGrammar.NoSetName; decide +kernel) ex11Text

end PP.Gen
