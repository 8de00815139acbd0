import Verif.Lemmas.Gen.Check
import Verif.Model.Files

/-! Generated by tools/dsl2lean.py: examples/example_5_lr_num/LR_num.dsl as a concrete syntax tree. -/
namespace PP.Gen

def ex5Rule0 : DRule :=
  ⟨[110, 117, 109], .plain [32], .atom [32] (.plain (.mk (.range [] [] (.hex ([51, 48])) (.hex ([51, 57])) []) [])), [10], []⟩
def ex5Rule1 : DRule :=
  ⟨[101, 120, 112, 114], .plain [32], .chain .choice [32] (.plain (.mk (.sub (.chain .seq [] (.plain (.mk (.ref ([101, 120, 112, 114])) [])) (.cons [32] (.plain (.mk (.term (.chr 45)) [])) (.one [32] (.plain (.mk (.ref ([110, 117, 109])) [])))))) [32])) (.one [32] (.plain (.mk (.ref ([110, 117, 109])) []))), [32], [⟨[32, 83, 104, 111, 117, 108, 100, 32, 109, 97, 116, 99, 104, 32, 48, 45, 48, 45, 48, 45, 48, 45, 48, 45, 48, 45, 48, 45, 48, 32, 101, 116, 99, 32], [10]⟩]⟩
def ex5Rule2 : DRule :=
  ⟨[71, 114, 97, 109, 109, 97, 114], .plain [32], .atom [32] (.plain (.mk (.ref ([101, 120, 112, 114])) [])), [32], []⟩

def ex5Tree : DGrammar := [ex5Rule0, ex5Rule1, ex5Rule2]

def ex5Names : List Bytes := [[71, 114, 97, 109, 109, 97, 114], [101, 120, 112, 114], [110, 117, 109]]

set_option maxHeartbeats 4000000 in
theorem ex5Ok : FileOk ex5Tree Files.ex5File 3 ex5Names Files.ex5Enum Ex5.all Ex5.body (fun r => utf8Of (Files.ex5Name r)) where
  text := by decide +kernel
  wf := by decide +kernel
  faithful := by decide +kernel
  closed := by decide +kernel
  calm := by decide +kernel
  left := by decide +kernel
  reach := by decide +kernel
  small := by decide +kernel
  sorted := by decide +kernel
  declared := by decide +kernel
  variants := by decide +kernel
  names := by decide +kernel
  mem := Ex5.mem_all
  bodies := by decide +kernel

end PP.Gen
