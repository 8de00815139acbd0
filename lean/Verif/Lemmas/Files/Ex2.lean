import Verif.Lemmas.Gen.Check
import Verif.Model.Files

/-! Generated by tools/dsl2lean.py: examples/example_2/example_2.dsl as a concrete syntax tree. -/
namespace PP.Gen

def ex2Rule0 : DRule :=
  ⟨[65], .plain [32], .chain .choice [32] (.plain (.mk (.sub (.chain .seq [] (.plain (.mk (.ref ([66])) [])) (.one [32] (.plain (.mk (.term (.chr 97)) []))))) [])) (.one [] (.plain (.mk (.term (.chr 97)) []))), [10], []⟩
def ex2Rule1 : DRule :=
  ⟨[66], .plain [32], .chain .choice [32] (.plain (.mk (.sub (.chain .seq [] (.plain (.mk (.ref ([65])) [])) (.one [32] (.plain (.mk (.term (.chr 98)) []))))) [])) (.one [] (.plain (.mk (.term (.chr 98)) []))), [10], []⟩
def ex2Rule2 : DRule :=
  ⟨[71, 114, 97, 109, 109, 97, 114], .plain [32], .atom [32] (.plain (.mk (.ref ([65])) [])), [], []⟩

def ex2Tree : DGrammar := [ex2Rule0, ex2Rule1, ex2Rule2]

def ex2Names : List Bytes := [[65], [66], [71, 114, 97, 109, 109, 97, 114]]

set_option maxHeartbeats 4000000 in
theorem ex2Ok : FileOk ex2Tree Files.ex2File 3 ex2Names Files.ex2Enum Ex2.all Ex2.body (fun r => utf8Of (Files.ex2Name r)) where
  text := by decide +kernel
  wf := by decide +kernel
  faithful := by decide +kernel
  closed := by decide +kernel
  calm := by decide +kernel
  left := by decide +kernel
  reach := by decide +kernel
  small := by decide +kernel
  sorted := by decide +kernel
  declared := by decide +kernel
  variants := by decide +kernel
  names := by decide +kernel
  mem := Ex2.mem_all
  bodies := by decide +kernel

end PP.Gen
