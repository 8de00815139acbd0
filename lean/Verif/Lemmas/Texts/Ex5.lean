import Verif.Model.Texts
import Verif.Lemmas.Checked
import Verif.Lemmas.Files.Ex5

/-! Generated by tools/rs2lean.py. -/
namespace PP.Gen
open Text

set_option maxRecDepth 100000 in
theorem ex5Text : IsTextOf (fileOf Texts.ex5Rules) (fileOf Texts.ex5Parser) Ex5.all Ex5.body (fun r => utf8Of (Files.ex5Name r))
    (Files.ex5Enum.map utf8Of) := textCheck_ok (by decide +kernel)

set_option maxRecDepth 100000 in
theorem ex5Current : UpToDate (fileOf Files.ex5File) (fileOf Texts.ex5Rules) (fileOf Texts.ex5Parser) :=
  up_to_date ex5Ok (by decide +kernel) (by unfold DGrammar.NoSetName; decide +kernel) ex5Text

end PP.Gen
