import Verif.Model.Texts
import Verif.Lemmas.Checked
import Verif.Lemmas.Files.Ex3

/-! Generated by tools/rs2lean.py. -/
namespace PP.Gen
open Text

set_option maxRecDepth 100000 in
theorem ex3Text : IsTextOf (fileOf Texts.ex3Rules) (fileOf Texts.ex3Parser) Ex3.all Ex3.body (fun r => utf8Of (Files.ex3Name r))
    (Files.ex3Enum.map utf8Of) := textCheck_ok (by decide +kernel)

set_option maxRecDepth 100000 in
theorem ex3Current : UpToDate (fileOf Files.ex3File) (fileOf Texts.ex3Rules) (fileOf Texts.ex3Parser) :=
  up_to_date ex3Ok (by decide +kernel) (by unfold DGrammar.NoSetName; decide +kernel) ex3Text

end PP.Gen
