import Verif.Lemmas.Gen.Check
import Verif.Model.Files

/-! Generated by tools/dsl2lean.py: examples/example_10_basic_bench/example_10_basic_bench.dsl as a concrete syntax tree. -/
namespace PP.Gen

def ex10Rule0 : DRule :=
  ⟨[114, 114], .plain [32], .chain .choice [32] (.plain (.mk (.sub (.chain .seq [] (.plain (.mk (.term (.chr 49)) [])) (.one [32] (.plain (.mk (.ref ([114, 114])) []))))) [])) (.one [] (.plain (.mk (.term (.chr 49)) []))), [32], [⟨[32, 114, 114, 32, 58, 58, 61, 32, 34, 49, 34, 32, 60, 114, 114, 62, 32, 47, 32, 34, 49, 34, 32], [10]⟩]⟩
def ex10Rule1 : DRule :=
  ⟨[108, 114], .plain [32], .chain .choice [32] (.plain (.mk (.sub (.chain .seq [] (.plain (.mk (.ref ([108, 114])) [])) (.one [32] (.plain (.mk (.term (.chr 49)) []))))) [])) (.one [] (.plain (.mk (.term (.chr 49)) []))), [32], [⟨[32, 108, 114, 32, 58, 58, 61, 32, 60, 108, 114, 62, 32, 34, 49, 34, 32, 47, 32, 34, 49, 34, 32], [10]⟩]⟩
def ex10Rule2 : DRule :=
  ⟨[71, 114, 97, 109, 109, 97, 114], .plain [32], .atom [32] (.plain (.mk (.ref ([114, 114])) [])), [32], [⟨[87, 101, 32, 100, 111, 32, 110, 111, 116, 32, 117, 115, 101, 32, 103, 114, 97, 109, 109, 97, 114, 32, 102, 111, 114, 32, 116, 104, 105, 115, 32, 98, 101, 110, 99, 104, 109, 97, 114, 107, 32, 98, 117, 116, 32, 119, 101, 32, 110, 101, 101, 100, 32, 111, 110, 101, 32, 102, 111, 114, 32, 116, 104, 101, 32, 103, 101, 110, 101, 114, 97, 116, 105, 111, 110, 32, 116, 111, 32, 119, 111, 114, 107, 46, 32], []⟩]⟩

def ex10Tree : DGrammar := [ex10Rule0, ex10Rule1, ex10Rule2]

def ex10Names : List Bytes := [[71, 114, 97, 109, 109, 97, 114], [108, 114], [114, 114]]

set_option maxHeartbeats 4000000 in
theorem ex10Ok : FileOk ex10Tree Files.ex10File 3 ex10Names Files.ex10Enum Ex10.all Ex10.body (fun r => utf8Of (Files.ex10Name r)) where
  text := by decide +kernel
  wf := by decide +kernel
  faithful := by decide +kernel
  closed := by decide +kernel
  calm := by decide +kernel
  left := by decide +kernel
  reach := by decide +kernel
  small := by decide +kernel
  sorted := by decide +kernel
  declared := by decide +kernel
  variants := by decide +kernel
  names := by decide +kernel
  mem := Ex10.mem_all
  bodies := by decide +kernel

end PP.Gen
