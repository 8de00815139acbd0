import Verif.Model.Texts
import Verif.Lemmas.Checked
import Verif.Lemmas.Files.Ex9

/-! Generated by tools/rs2lean.py. -/
namespace PP.Gen
open Text

set_option maxRecDepth 100000 in
theorem ex9Text : IsTextOf (fileOf Texts.ex9Rules) (fileOf Texts.ex9Parser) Ex9.all Ex9.body (fun r => utf8Of (Files.ex9Name r))
    (Files.ex9Enum.map utf8Of) := textCheck_ok (by decide +kernel)

set_option maxRecDepth 100000 in
theorem ex9Current : UpToDate (fileOf Files.ex9File) (fileOf Texts.ex9Rules) (fileOf Texts.ex9Parser) :=
  up_to_date ex9Ok (by decide +kernel) (by unfold DGrammar.NoSetName; decide +kernel) ex9Text

end PP.Gen
