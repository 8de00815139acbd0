import Verif.Model.Texts
import Verif.Lemmas.Checked
import Verif.Lemmas.Files.Ex1

/-! Generated by tools/rs2lean.py. -/
namespace PP.Gen
open Text

set_option maxRecDepth 100000 in
theorem ex1Text : IsTextOf (fileOf Texts.ex1Rules) (fileOf Texts.ex1Parser) Ex1.all Ex1.body (fun r => utf8Of (Files.ex1Name r))
    (Files.ex1Enum.map utf8Of) := textCheck_ok (by decide +kernel)

set_option maxRecDepth 100000 in
theorem ex1Current : UpToDate (fileOf Files.ex1File) (fileOf Texts.ex1Rules) (fileOf Texts.ex1Parser) :=
  up_to_date ex1Ok (by decide +kernel) (by unfold DGrammar.NoSetName; decide +kernel) ex1Text

end PP.Gen
