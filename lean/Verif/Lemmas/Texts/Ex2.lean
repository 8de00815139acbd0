import Verif.Model.Texts
import Verif.Lemmas.Checked
import Verif.Lemmas.Files.Ex2

/-! Generated by tools/rs2lean.py. -/
namespace PP.Gen
open Text

set_option maxRecDepth 100000 in
theorem ex2Text : IsTextOf (fileOf Texts.ex2Rules) (fileOf Texts.ex2Parser) Ex2.all Ex2.body (fun r => utf8Of (Files.ex2Name r))
    (Files.ex2Enum.map utf8Of) := textCheck_ok (by decide +kernel)

set_option maxRecDepth 100000 in
theorem ex2Current : UpToDate (fileOf Files.ex2File) (fileOf Texts.ex2Rules) (fileOf Texts.ex2Parser) :=
  up_to_date ex2Ok (by decide +kernel) (by unfold DGrammar.NoSetName; decide +kernel) ex2Text

end PP.Gen
