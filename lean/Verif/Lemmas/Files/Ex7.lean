import Verif.Lemmas.Gen.Check
import Verif.Model.Files

/-! Generated by tools/dsl2lean.py: examples/example_7_indirect_lr_num/LR_num_indirect.dsl as a concrete syntax tree. -/
namespace PP.Gen

def ex7Rule0 : DRule :=
  ⟨[110, 117, 109], .plain [32], .atom [32] (.plain (.mk (.range [] [] (.hex ([51, 48])) (.hex ([51, 57])) []) [])), [10], []⟩
def ex7Rule1 : DRule :=
  ⟨[105, 110, 116, 101, 114, 109, 101, 100, 105, 97, 116, 101], .plain [32], .atom [32] (.plain (.mk (.ref ([101, 120, 112, 114])) [])), [10], []⟩
def ex7Rule2 : DRule :=
  ⟨[101, 120, 112, 114], .plain [32], .chain .choice [32] (.plain (.mk (.sub (.chain .seq [] (.plain (.mk (.ref ([105, 110, 116, 101, 114, 109, 101, 100, 105, 97, 116, 101])) [])) (.cons [32] (.plain (.mk (.term (.chr 45)) [])) (.one [32] (.plain (.mk (.ref ([110, 117, 109])) [])))))) [32])) (.one [32] (.plain (.mk (.ref ([110, 117, 109])) []))), [32], [⟨[32, 83, 104, 111, 117, 108, 100, 32, 109, 97, 116, 99, 104, 32, 48, 45, 48, 45, 48, 45, 48, 45, 48, 45, 48, 45, 48, 45, 48, 32, 101, 116, 99, 32], [10]⟩]⟩
def ex7Rule3 : DRule :=
  ⟨[71, 114, 97, 109, 109, 97, 114], .plain [32], .atom [32] (.plain (.mk (.ref ([101, 120, 112, 114])) [])), [32], []⟩

def ex7Tree : DGrammar := [ex7Rule0, ex7Rule1, ex7Rule2, ex7Rule3]

def ex7Names : List Bytes := [[71, 114, 97, 109, 109, 97, 114], [101, 120, 112, 114], [105, 110, 116, 101, 114, 109, 101, 100, 105, 97, 116, 101], [110, 117, 109]]

set_option maxHeartbeats 4000000 in
theorem ex7Ok : FileOk ex7Tree Files.ex7File 4 ex7Names Files.ex7Enum Ex7.all Ex7.body (fun r => utf8Of (Files.ex7Name r)) where
  text := by decide +kernel
  wf := by decide +kernel
  faithful := by decide +kernel
  closed := by decide +kernel
  calm := by decide +kernel
  left := by decide +kernel
  reach := by decide +kernel
  small := by decide +kernel
  sorted := by decide +kernel
  declared := by decide +kernel
  variants := by decide +kernel
  names := by decide +kernel
  mem := Ex7.mem_all
  bodies := by decide +kernel

end PP.Gen
