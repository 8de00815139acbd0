import Verif.Model.Texts
import Verif.Lemmas.Checked
import Verif.Lemmas.Files.Ex4

/-! Generated by tools/rs2lean.py. -/
namespace PP.Gen
open Text

set_option maxRecDepth 100000 in
theorem ex4Text : IsTextOf (fileOf Texts.ex4Rules) (fileOf Texts.ex4Parser) Ex4.all Ex4.body (fun r => utf8Of (Files.ex4Name r))
    (Files.ex4Enum.map utf8Of) := textCheck_ok (by decide +kernel)

set_option maxRecDepth 100000 in
theorem ex4Current : UpToDate (fileOf Files.ex4File) (fileOf Texts.ex4Rules) (fileOf Texts.ex4Parser) :=
  up_to_date ex4Ok (by decide +kernel) (by unfold DGrammar.NoSetName; decide +kernel) ex4Text

end PP.Gen
