import Verif.Model.Texts
import Verif.Lemmas.Checked
import Verif.Lemmas.Files.Dsl

/-! Generated by tools/rs2lean.py. -/
namespace PP.Gen
open Text

set_option maxRecDepth 100000 in
theorem dslText : IsTextOf (fileOf Texts.dslRules) (fileOf Texts.dslParser) Dsl.all Dsl.body (fun r => utf8Of (Files.dslName r))
    (Files.dslEnum.map utf8Of) := textCheck_ok (by decide +kernel)

set_option maxRecDepth 100000 in
theorem dslCurrent : UpToDate (fileOf Files.dslFile) (fileOf Texts.dslRules) (fileOf Texts.dslParser) :=
  up_to_date dslOk (by decide +kernel) (by unfold DGrammar.NoSetName; decide +kernel) dslText

end PP.Gen
