import Verif.Lemmas.Gen.Check
import Verif.Model.Files

/-! Generated by tools/dsl2lean.py: examples/example_11_external_rule_call/example_11_external_rule_call.dsl as a concrete syntax tree. -/
namespace PP.Gen

def ex11Rule0 : DRule :=
  ⟨[65, 108, 112, 104, 97, 98, 101, 116, 95, 76, 111, 119, 101, 114], .inline [32] [32], .atom [] (.plain (.mk (.range [] [] (.term (.chr 97)) (.term (.chr 122)) []) [])), [10], []⟩
def ex11Rule1 : DRule :=
  ⟨[117, 110, 105, 113, 117, 101, 95, 108, 105, 110, 101, 95, 109, 97, 116, 99, 104, 101, 114], .plain [32], .atom [32] (.plain (.mk (.hook ([117, 110, 105, 113, 117, 101, 95, 108, 105, 110, 101, 95, 99, 97, 99, 104, 101]) (.chain .seq [] (.post .plus (.mk (.sub (.chain .choice [] (.plain (.mk (.ref ([65, 108, 112, 104, 97, 98, 101, 116, 95, 76, 111, 119, 101, 114])) [])) (.one [] (.plain (.mk (.term (.chr 32)) []))))) []) []) (.one [32] (.plain (.mk (.term (.esc 110)) []))))) [])), [32], [⟨[32, 84, 114, 105, 118, 105, 97, 108, 32, 99, 111, 110, 116, 101, 120, 116, 32, 115, 101, 110, 115, 105, 116, 105, 118, 101, 32, 103, 114, 97, 109, 109, 97, 114, 44, 32, 97, 110, 121, 32, 108, 111, 119, 101, 114, 32, 99, 97, 115, 101, 32, 108, 105, 110, 101, 32, 119, 105, 108, 108, 32, 98, 101, 32, 109, 97, 116, 99, 104, 101, 100, 32, 98, 117, 116, 32, 111, 110, 108, 121, 32, 111, 110, 99, 101, 46, 32], [10]⟩]⟩
def ex11Rule2 : DRule :=
  ⟨[71, 114, 97, 109, 109, 97, 114], .plain [32], .atom [32] (.post .plus (.mk (.sub (.atom [] (.plain (.mk (.ref ([117, 110, 105, 113, 117, 101, 95, 108, 105, 110, 101, 95, 109, 97, 116, 99, 104, 101, 114])) [])))) []) []), [10], []⟩

def ex11Tree : DGrammar := [ex11Rule0, ex11Rule1, ex11Rule2]

def ex11Names : List Bytes := [[65, 108, 112, 104, 97, 98, 101, 116, 95, 76, 111, 119, 101, 114], [71, 114, 97, 109, 109, 97, 114], [117, 110, 105, 113, 117, 101, 95, 108, 105, 110, 101, 95, 109, 97, 116, 99, 104, 101, 114]]

set_option maxHeartbeats 4000000 in
theorem ex11Ok : FileOk ex11Tree Files.ex11File 3 ex11Names Files.ex11Enum Ex11.all Ex11.body (fun r => utf8Of (Files.ex11Name r)) where
  text := by decide +kernel
  wf := by decide +kernel
  faithful := by decide +kernel
  closed := by decide +kernel
  calm := by decide +kernel
  left := by decide +kernel
  reach := by decide +kernel
  small := by decide +kernel
  sorted := by decide +kernel
  declared := by decide +kernel
  variants := by decide +kernel
  names := by decide +kernel
  mem := Ex11.mem_all
  bodies := by decide +kernel

end PP.Gen
