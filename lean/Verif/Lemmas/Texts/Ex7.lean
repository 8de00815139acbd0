import Verif.Model.Texts
import Verif.Lemmas.Checked
import Verif.Lemmas.Files.Ex7

/-! Generated by tools/rs2lean.py. -/
namespace PP.Gen
open Text

set_option maxRecDepth 100000 in
theorem ex7Text : IsTextOf (fileOf Texts.ex7Rules) (fileOf Texts.ex7Parser) Ex7.all Ex7.body (fun r => utf8Of (Files.ex7Name r))
    (Files.ex7Enum.map utf8Of) := textCheck_ok (by decide +kernel)

set_option maxRecDepth 100000 in
theorem ex7Current : UpToDate (fileOf Files.ex7File) (fileOf Texts.ex7Rules) (fileOf Texts.ex7Parser) :=
  up_to_date ex7Ok (by decide +kernel) (by unfold DGrammar.NoSetName; decide +kernel) ex7Text

end PP.Gen
