import Verif.Lemmas.Gen.Check
import Verif.Model.Files

/-! Generated by tools/dsl2lean.py: examples/example_8_indirect_lr_3_level/LR_num_indirect_3_level.dsl as a concrete syntax tree. -/
namespace PP.Gen

def ex8Rule0 : DRule :=
  ⟨[110, 117, 109], .plain [32], .atom [32] (.plain (.mk (.range [] [] (.hex ([51, 48])) (.hex ([51, 57])) []) [])), [10], []⟩
def ex8Rule1 : DRule :=
  ⟨[116, 101, 115, 116, 95, 76, 82, 95, 110, 117, 109], .plain [32], .atom [32] (.plain (.mk (.ref ([110, 117, 109])) [])), [10], []⟩
def ex8Rule2 : DRule :=
  ⟨[116, 101, 115, 116, 95, 105, 110, 100, 105, 114, 101, 99, 116, 95, 116, 104, 114, 101, 101, 95, 108, 101, 118, 101, 108, 95, 65], .plain [32], .chain .choice [32] (.plain (.mk (.sub (.chain .seq [] (.plain (.mk (.ref ([116, 101, 115, 116, 95, 105, 110, 100, 105, 114, 101, 99, 116, 95, 116, 104, 114, 101, 101, 95, 108, 101, 118, 101, 108, 95, 66])) [])) (.cons [32] (.plain (.mk (.term (.chr 45)) [])) (.one [32] (.plain (.mk (.ref ([116, 101, 115, 116, 95, 76, 82, 95, 110, 117, 109])) [])))))) [32])) (.one [32] (.plain (.mk (.ref ([116, 101, 115, 116, 95, 76, 82, 95, 110, 117, 109])) []))), [10], []⟩
def ex8Rule3 : DRule :=
  ⟨[116, 101, 115, 116, 95, 105, 110, 100, 105, 114, 101, 99, 116, 95, 116, 104, 114, 101, 101, 95, 108, 101, 118, 101, 108, 95, 66], .plain [32], .atom [32] (.plain (.mk (.ref ([116, 101, 115, 116, 95, 105, 110, 100, 105, 114, 101, 99, 116, 95, 116, 104, 114, 101, 101, 95, 108, 101, 118, 101, 108, 95, 67])) [])), [10], []⟩
def ex8Rule4 : DRule :=
  ⟨[116, 101, 115, 116, 95, 105, 110, 100, 105, 114, 101, 99, 116, 95, 116, 104, 114, 101, 101, 95, 108, 101, 118, 101, 108, 95, 67], .plain [32], .atom [32] (.plain (.mk (.ref ([116, 101, 115, 116, 95, 105, 110, 100, 105, 114, 101, 99, 116, 95, 116, 104, 114, 101, 101, 95, 108, 101, 118, 101, 108, 95, 65])) [])), [10], []⟩
def ex8Rule5 : DRule :=
  ⟨[71, 114, 97, 109, 109, 97, 114], .plain [32], .atom [32] (.plain (.mk (.ref ([116, 101, 115, 116, 95, 105, 110, 100, 105, 114, 101, 99, 116, 95, 116, 104, 114, 101, 101, 95, 108, 101, 118, 101, 108, 95, 65])) [])), [], []⟩

def ex8Tree : DGrammar := [ex8Rule0, ex8Rule1, ex8Rule2, ex8Rule3, ex8Rule4, ex8Rule5]

def ex8Names : List Bytes := [[71, 114, 97, 109, 109, 97, 114], [110, 117, 109], [116, 101, 115, 116, 95, 76, 82, 95, 110, 117, 109], [116, 101, 115, 116, 95, 105, 110, 100, 105, 114, 101, 99, 116, 95, 116, 104, 114, 101, 101, 95, 108, 101, 118, 101, 108, 95, 65], [116, 101, 115, 116, 95, 105, 110, 100, 105, 114, 101, 99, 116, 95, 116, 104, 114, 101, 101, 95, 108, 101, 118, 101, 108, 95, 66], [116, 101, 115, 116, 95, 105, 110, 100, 105, 114, 101, 99, 116, 95, 116, 104, 114, 101, 101, 95, 108, 101, 118, 101, 108, 95, 67]]

set_option maxHeartbeats 4000000 in
theorem ex8Ok : FileOk ex8Tree Files.ex8File 6 ex8Names Files.ex8Enum Ex8.all Ex8.body (fun r => utf8Of (Files.ex8Name r)) where
  text := by decide +kernel
  wf := by decide +kernel
  faithful := by decide +kernel
  closed := by decide +kernel
  calm := by decide +kernel
  left := by decide +kernel
  reach := by decide +kernel
  small := by decide +kernel
  sorted := by decide +kernel
  declared := by decide +kernel
  variants := by decide +kernel
  names := by decide +kernel
  mem := Ex8.mem_all
  bodies := by decide +kernel

end PP.Gen
