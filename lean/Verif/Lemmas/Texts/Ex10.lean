import Verif.Model.Texts
import Verif.Lemmas.Checked
import Verif.Lemmas.Files.Ex10

/-! Generated by tools/rs2lean.py. -/
namespace PP.Gen
open Text

set_option maxRecDepth 100000 in
theorem ex10Text : IsTextOf (fileOf Texts.ex10Rules) (fileOf Texts.ex10Parser) Ex10.all Ex10.body (fun r => utf8Of (Files.ex10Name r))
    (Files.ex10Enum.map utf8Of) := textCheck_ok (by decide +kernel)

set_option maxRecDepth 100000 in
theorem ex10Current : UpToDate (fileOf Files.ex10File) (fileOf Texts.ex10Rules) (fileOf Texts.ex10Parser) :=
  up_to_date ex10Ok (by decide +kernel) (by unfold DGrammar.NoSetName; decide +kernel) ex10Text

end PP.Gen
