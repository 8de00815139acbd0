import Verif.Lemmas.Gen.Check
import Verif.Model.Files

/-! Generated by tools/dsl2lean.py: examples/example_3_basic_maths/example_3_basic_maths.dsl as a concrete syntax tree. -/
namespace PP.Gen

def ex3Rule0 : DRule :=
  ⟨[111, 110, 101, 110, 105, 110, 101], .inline [32] [32], .atom [32] (.plain (.mk (.range [] [] (.term (.chr 49)) (.term (.chr 57)) []) [])), [10], []⟩
def ex3Rule1 : DRule :=
  ⟨[100, 105, 103, 105, 116], .inline [32] [32], .atom [32] (.plain (.mk (.range [] [] (.term (.chr 48)) (.term (.chr 57)) []) [])), [10], []⟩
def ex3Rule2 : DRule :=
  ⟨[105, 110, 116, 101, 103, 101, 114], .plain [32], .chain .seq [32] (.plain (.mk (.ref ([115, 105, 103, 110])) [])) (.one [32] (.plain (.mk (.sub (.chain .choice [] (.plain (.mk (.sub (.chain .seq [] (.plain (.mk (.ref ([111, 110, 101, 110, 105, 110, 101])) [])) (.one [32] (.post .plus (.mk (.ref ([100, 105, 103, 105, 116])) []) [])))) [])) (.one [] (.plain (.mk (.ref ([100, 105, 103, 105, 116])) []))))) []))), [10, 10], []⟩
def ex3Rule3 : DRule :=
  ⟨[110, 117, 109, 98, 101, 114], .plain [32], .chain .seq [32] (.plain (.mk (.ref ([105, 110, 116, 101, 103, 101, 114])) [])) (.cons [32] (.post .opt (.mk (.ref ([102, 114, 97, 99, 116, 105, 111, 110])) []) []) (.one [32] (.post .opt (.mk (.ref ([101, 120, 112, 111, 110, 101, 110, 116])) []) []))), [32, 10], []⟩
def ex3Rule4 : DRule :=
  ⟨[102, 114, 97, 99, 116, 105, 111, 110], .plain [32], .atom [32] (.plain (.mk (.sub (.chain .seq [] (.plain (.mk (.term (.chr 46)) [])) (.one [32] (.post .plus (.mk (.ref ([100, 105, 103, 105, 116])) []) [])))) [])), [10], []⟩
def ex3Rule5 : DRule :=
  ⟨[101, 120, 112, 111, 110, 101, 110, 116], .plain [32], .atom [32] (.plain (.mk (.sub (.chain .seq [] (.plain (.mk (.sub (.chain .choice [] (.plain (.mk (.term (.chr 69)) [])) (.one [] (.plain (.mk (.term (.chr 101)) []))))) [])) (.cons [32] (.plain (.mk (.ref ([115, 105, 103, 110])) [])) (.one [32] (.post .plus (.mk (.ref ([100, 105, 103, 105, 116])) []) []))))) [])), [10], []⟩
def ex3Rule6 : DRule :=
  ⟨[115, 105, 103, 110], .plain [32], .atom [32] (.post .opt (.mk (.sub (.chain .choice [] (.plain (.mk (.term (.chr 43)) [])) (.one [] (.plain (.mk (.term (.chr 45)) []))))) []) []), [10, 10], []⟩
def ex3Rule7 : DRule :=
  ⟨[97, 100, 100, 105, 116, 105, 111, 110], .plain [32], .chain .seq [32] (.plain (.mk (.ref ([101, 120, 112, 114])) [])) (.cons [32] (.plain (.mk (.term (.chr 43)) [])) (.one [32] (.plain (.mk (.ref ([116, 101, 114, 109])) [])))), [10], []⟩
def ex3Rule8 : DRule :=
  ⟨[115, 117, 98, 116, 114, 97, 99, 116, 105, 111, 110], .plain [32], .chain .seq [32] (.plain (.mk (.ref ([101, 120, 112, 114])) [])) (.cons [32] (.plain (.mk (.term (.chr 45)) [])) (.one [32] (.plain (.mk (.ref ([116, 101, 114, 109])) [])))), [10], []⟩
def ex3Rule9 : DRule :=
  ⟨[109, 117, 108, 116, 105, 112, 108, 105, 99, 97, 116, 105, 111, 110], .plain [32], .chain .seq [32] (.plain (.mk (.ref ([116, 101, 114, 109])) [])) (.cons [32] (.plain (.mk (.term (.chr 42)) [])) (.one [32] (.plain (.mk (.ref ([102, 97, 99, 116, 111, 114])) [])))), [10], []⟩
def ex3Rule10 : DRule :=
  ⟨[100, 105, 118, 105, 115, 105, 111, 110], .plain [32], .chain .seq [32] (.plain (.mk (.ref ([116, 101, 114, 109])) [])) (.cons [32] (.plain (.mk (.term (.chr 47)) [])) (.one [32] (.plain (.mk (.ref ([102, 97, 99, 116, 111, 114])) [])))), [10], []⟩
def ex3Rule11 : DRule :=
  ⟨[112, 97, 114, 101, 110, 116, 104, 101, 115, 101, 115], .plain [32], .chain .seq [32] (.plain (.mk (.term (.chr 40)) [])) (.cons [32] (.plain (.mk (.ref ([101, 120, 112, 114])) [])) (.one [32] (.plain (.mk (.term (.chr 41)) [])))), [10, 10], []⟩
def ex3Rule12 : DRule :=
  ⟨[101, 120, 112, 114], .plain [32, 32, 32], .chain .choice [32, 32] (.plain (.mk (.ref ([97, 100, 100, 105, 116, 105, 111, 110])) [])) (.cons [] (.plain (.mk (.ref ([115, 117, 98, 116, 114, 97, 99, 116, 105, 111, 110])) [])) (.one [] (.plain (.mk (.ref ([116, 101, 114, 109])) [])))), [10], []⟩
def ex3Rule13 : DRule :=
  ⟨[116, 101, 114, 109], .plain [32, 32, 32], .chain .choice [32, 32, 32] (.plain (.mk (.ref ([109, 117, 108, 116, 105, 112, 108, 105, 99, 97, 116, 105, 111, 110])) [])) (.cons [] (.plain (.mk (.ref ([100, 105, 118, 105, 115, 105, 111, 110])) [])) (.one [] (.plain (.mk (.ref ([102, 97, 99, 116, 111, 114])) [])))), [10], []⟩
def ex3Rule14 : DRule :=
  ⟨[102, 97, 99, 116, 111, 114], .plain [32], .chain .choice [32, 32, 32] (.plain (.mk (.ref ([112, 97, 114, 101, 110, 116, 104, 101, 115, 101, 115])) [])) (.one [] (.plain (.mk (.ref ([110, 117, 109, 98, 101, 114])) []))), [10], []⟩
def ex3Rule15 : DRule :=
  ⟨[71, 114, 97, 109, 109, 97, 114], .plain [32], .atom [32] (.plain (.mk (.ref ([101, 120, 112, 114])) [])), [], []⟩

def ex3Tree : DGrammar := [ex3Rule0, ex3Rule1, ex3Rule2, ex3Rule3, ex3Rule4, ex3Rule5, ex3Rule6, ex3Rule7, ex3Rule8, ex3Rule9, ex3Rule10, ex3Rule11, ex3Rule12, ex3Rule13, ex3Rule14, ex3Rule15]

def ex3Names : List Bytes := [[71, 114, 97, 109, 109, 97, 114], [97, 100, 100, 105, 116, 105, 111, 110], [100, 105, 103, 105, 116], [100, 105, 118, 105, 115, 105, 111, 110], [101, 120, 112, 111, 110, 101, 110, 116], [101, 120, 112, 114], [102, 97, 99, 116, 111, 114], [102, 114, 97, 99, 116, 105, 111, 110], [105, 110, 116, 101, 103, 101, 114], [109, 117, 108, 116, 105, 112, 108, 105, 99, 97, 116, 105, 111, 110], [110, 117, 109, 98, 101, 114], [111, 110, 101, 110, 105, 110, 101], [112, 97, 114, 101, 110, 116, 104, 101, 115, 101, 115], [115, 105, 103, 110], [115, 117, 98, 116, 114, 97, 99, 116, 105, 111, 110], [116, 101, 114, 109]]

set_option maxHeartbeats 4000000 in
theorem ex3Ok : FileOk ex3Tree Files.ex3File 16 ex3Names Files.ex3Enum Ex3.all Ex3.body (fun r => utf8Of (Files.ex3Name r)) where
  text := by decide +kernel
  wf := by decide +kernel
  faithful := by decide +kernel
  closed := by decide +kernel
  calm := by decide +kernel
  left := by decide +kernel
  reach := by decide +kernel
  small := by decide +kernel
  sorted := by decide +kernel
  declared := by decide +kernel
  variants := by decide +kernel
  names := by decide +kernel
  mem := Ex3.mem_all
  bodies := by decide +kernel

end PP.Gen
