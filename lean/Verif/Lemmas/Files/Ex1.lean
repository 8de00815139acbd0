import Verif.Lemmas.Gen.Check
import Verif.Model.Files

/-! Generated by tools/dsl2lean.py: examples/example_1/example_1.dsl as a concrete syntax tree. -/
namespace PP.Gen

def ex1Rule0 : DRule :=
  ⟨[101, 120, 112, 114], .plain [32], .chain .choice [32] (.plain (.mk (.ref ([97, 100, 100, 105, 116, 105, 111, 110])) [])) (.cons [] (.plain (.mk (.ref ([115, 117, 98, 116, 114, 97, 99, 116, 105, 111, 110])) [])) (.one [] (.plain (.mk (.ref ([105, 110, 116, 101, 103, 101, 114])) [])))), [10], []⟩
def ex1Rule1 : DRule :=
  ⟨[97, 100, 100, 105, 116, 105, 111, 110], .plain [32], .chain .seq [32] (.plain (.mk (.ref ([101, 120, 112, 114])) [])) (.cons [32] (.plain (.mk (.term (.chr 43)) [])) (.one [32] (.plain (.mk (.ref ([105, 110, 116, 101, 103, 101, 114])) [])))), [10], []⟩
def ex1Rule2 : DRule :=
  ⟨[115, 117, 98, 116, 114, 97, 99, 116, 105, 111, 110], .plain [32], .chain .seq [32] (.plain (.mk (.ref ([101, 120, 112, 114])) [])) (.cons [32] (.plain (.mk (.term (.chr 45)) [])) (.one [32] (.plain (.mk (.ref ([105, 110, 116, 101, 103, 101, 114])) [])))), [10], []⟩
def ex1Rule3 : DRule :=
  ⟨[111, 110, 101, 110, 105, 110, 101], .inline [32] [32], .atom [32] (.plain (.mk (.range [] [] (.term (.chr 49)) (.term (.chr 57)) []) [])), [10], []⟩
def ex1Rule4 : DRule :=
  ⟨[100, 105, 103, 105, 116], .inline [32] [32], .atom [32] (.plain (.mk (.range [] [] (.term (.chr 48)) (.term (.chr 57)) []) [])), [10], []⟩
def ex1Rule5 : DRule :=
  ⟨[105, 110, 116, 101, 103, 101, 114], .plain [32], .chain .seq [32] (.plain (.mk (.ref ([111, 110, 101, 110, 105, 110, 101])) [])) (.one [32] (.post .star (.mk (.ref ([100, 105, 103, 105, 116])) []) [])), [10, 10], []⟩
def ex1Rule6 : DRule :=
  ⟨[71, 114, 97, 109, 109, 97, 114], .plain [32], .atom [32] (.plain (.mk (.ref ([101, 120, 112, 114])) [])), [32], [⟨[84, 104, 105, 115, 32, 105, 115, 32, 97, 10, 77, 117, 108, 116, 105, 32, 108, 105, 110, 101, 32, 99, 111, 109, 109, 101, 110, 116, 10, 83, 111, 32, 119, 101, 32, 99, 97, 110, 32, 99, 104, 101, 99, 107, 32, 111, 117, 116, 112, 117, 116, 32, 105, 115, 32, 99, 111, 114, 114, 101, 99, 116, 32], [32]⟩]⟩

def ex1Tree : DGrammar := [ex1Rule0, ex1Rule1, ex1Rule2, ex1Rule3, ex1Rule4, ex1Rule5, ex1Rule6]

def ex1Names : List Bytes := [[71, 114, 97, 109, 109, 97, 114], [97, 100, 100, 105, 116, 105, 111, 110], [100, 105, 103, 105, 116], [101, 120, 112, 114], [105, 110, 116, 101, 103, 101, 114], [111, 110, 101, 110, 105, 110, 101], [115, 117, 98, 116, 114, 97, 99, 116, 105, 111, 110]]

set_option maxHeartbeats 4000000 in
theorem ex1Ok : FileOk ex1Tree Files.ex1File 7 ex1Names Files.ex1Enum Ex1.all Ex1.body (fun r => utf8Of (Files.ex1Name r)) where
  text := by decide +kernel
  wf := by decide +kernel
  faithful := by decide +kernel
  closed := by decide +kernel
  calm := by decide +kernel
  left := by decide +kernel
  reach := by decide +kernel
  small := by decide +kernel
  sorted := by decide +kernel
  declared := by decide +kernel
  variants := by decide +kernel
  names := by decide +kernel
  mem := Ex1.mem_all
  bodies := by decide +kernel

end PP.Gen
