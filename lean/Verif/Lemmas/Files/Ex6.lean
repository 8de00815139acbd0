import Verif.Lemmas.Gen.Check
import Verif.Model.Files

/-! Generated by tools/dsl2lean.py: examples/example_6_term_and_fact/term_and_fact.dsl as a concrete syntax tree. -/
namespace PP.Gen

def ex6Rule0 : DRule :=
  ⟨[110, 117, 109], .plain [32], .atom [32] (.plain (.mk (.range [] [] (.hex ([51, 48])) (.hex ([51, 57])) []) [])), [10], []⟩
def ex6Rule1 : DRule :=
  ⟨[116, 101, 114, 109], .plain [32], .chain .choice [32] (.plain (.mk (.sub (.chain .seq [] (.plain (.mk (.ref ([116, 101, 114, 109])) [])) (.cons [32] (.plain (.mk (.term (.chr 43)) [])) (.one [32] (.plain (.mk (.ref ([102, 97, 99, 116])) [])))))) [])) (.cons [] (.plain (.mk (.sub (.chain .seq [] (.plain (.mk (.ref ([116, 101, 114, 109])) [])) (.cons [32] (.plain (.mk (.term (.chr 45)) [])) (.one [32] (.plain (.mk (.ref ([102, 97, 99, 116])) [])))))) [])) (.one [] (.plain (.mk (.ref ([102, 97, 99, 116])) [])))), [10], []⟩
def ex6Rule2 : DRule :=
  ⟨[102, 97, 99, 116], .plain [32], .chain .choice [32] (.plain (.mk (.sub (.chain .seq [] (.plain (.mk (.ref ([102, 97, 99, 116])) [])) (.cons [32] (.plain (.mk (.term (.chr 42)) [])) (.one [32] (.plain (.mk (.ref ([110, 117, 109])) [])))))) [])) (.cons [] (.plain (.mk (.sub (.chain .seq [] (.plain (.mk (.ref ([102, 97, 99, 116])) [])) (.cons [32] (.plain (.mk (.term (.chr 47)) [])) (.one [32] (.plain (.mk (.ref ([110, 117, 109])) [])))))) [])) (.one [] (.plain (.mk (.ref ([110, 117, 109])) [])))), [10], []⟩
def ex6Rule3 : DRule :=
  ⟨[71, 114, 97, 109, 109, 97, 114], .plain [32], .atom [32] (.plain (.mk (.ref ([116, 101, 114, 109])) [])), [32], []⟩

def ex6Tree : DGrammar := [ex6Rule0, ex6Rule1, ex6Rule2, ex6Rule3]

def ex6Names : List Bytes := [[71, 114, 97, 109, 109, 97, 114], [102, 97, 99, 116], [110, 117, 109], [116, 101, 114, 109]]

set_option maxHeartbeats 4000000 in
theorem ex6Ok : FileOk ex6Tree Files.ex6File 4 ex6Names Files.ex6Enum Ex6.all Ex6.body (fun r => utf8Of (Files.ex6Name r)) where
  text := by decide +kernel
  wf := by decide +kernel
  faithful := by decide +kernel
  closed := by decide +kernel
  calm := by decide +kernel
  left := by decide +kernel
  reach := by decide +kernel
  small := by decide +kernel
  sorted := by decide +kernel
  declared := by decide +kernel
  variants := by decide +kernel
  names := by decide +kernel
  mem := Ex6.mem_all
  bodies := by decide +kernel

end PP.Gen
