import Verif.Model.Texts
import Verif.Lemmas.Checked
import Verif.Lemmas.Files.Ex6

/-! Generated by tools/rs2lean.py. -/
namespace PP.Gen
open Text

set_option maxRecDepth 100000 in
theorem ex6Text : IsTextOf (fileOf Texts.ex6Rules) (fileOf Texts.ex6Parser) Ex6.all Ex6.body (fun r => utf8Of (Files.ex6Name r))
    (Files.ex6Enum.map utf8Of) := textCheck_ok (by decide +kernel)

set_option maxRecDepth 100000 in
theorem ex6Current : UpToDate (fileOf Files.ex6File) (fileOf Texts.ex6Rules) (fileOf Texts.ex6Parser) :=
  up_to_date ex6Ok (by decide +kernel) (by unfold DGrammar.NoSetName; decide +kernel) ex6Text

end PP.Gen
