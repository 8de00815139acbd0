import Verif.Lemmas.Gen.Check
import Verif.Model.Files

/-! Generated by tools/dsl2lean.py: examples/example_4_full_maths/example_4_full_maths.dsl as a concrete syntax tree. -/
namespace PP.Gen

def ex4Rule0 : DRule :=
  ⟨[111, 110, 101, 110, 105, 110, 101], .inline [32] [32], .atom [32] (.plain (.mk (.range [] [] (.term (.chr 49)) (.term (.chr 57)) []) [])), [10], []⟩
def ex4Rule1 : DRule :=
  ⟨[100, 105, 103, 105, 116], .inline [32] [32], .atom [32] (.plain (.mk (.range [] [] (.term (.chr 48)) (.term (.chr 57)) []) [])), [10], []⟩
def ex4Rule2 : DRule :=
  ⟨[105, 110, 116, 101, 103, 101, 114], .plain [32], .chain .seq [32] (.plain (.mk (.ref ([115, 105, 103, 110])) [])) (.one [32] (.plain (.mk (.sub (.chain .choice [] (.plain (.mk (.sub (.chain .seq [] (.plain (.mk (.ref ([111, 110, 101, 110, 105, 110, 101])) [])) (.one [32] (.post .plus (.mk (.ref ([100, 105, 103, 105, 116])) []) [])))) [])) (.one [] (.plain (.mk (.ref ([100, 105, 103, 105, 116])) []))))) []))), [10, 10], []⟩
def ex4Rule3 : DRule :=
  ⟨[110, 117, 109, 98, 101, 114], .plain [32], .chain .seq [32] (.plain (.mk (.ref ([105, 110, 116, 101, 103, 101, 114])) [])) (.cons [32] (.post .opt (.mk (.ref ([102, 114, 97, 99, 116, 105, 111, 110])) []) []) (.one [32] (.post .opt (.mk (.ref ([101, 120, 112, 111, 110, 101, 110, 116])) []) []))), [32, 10], []⟩
def ex4Rule4 : DRule :=
  ⟨[102, 114, 97, 99, 116, 105, 111, 110], .plain [32], .atom [32] (.plain (.mk (.sub (.chain .seq [] (.plain (.mk (.term (.chr 46)) [])) (.one [32] (.post .plus (.mk (.ref ([100, 105, 103, 105, 116])) []) [])))) [])), [10], []⟩
def ex4Rule5 : DRule :=
  ⟨[101, 120, 112, 111, 110, 101, 110, 116], .plain [32], .atom [32] (.plain (.mk (.sub (.chain .seq [] (.plain (.mk (.sub (.chain .choice [] (.plain (.mk (.term (.chr 69)) [])) (.one [] (.plain (.mk (.term (.chr 101)) []))))) [])) (.cons [32] (.plain (.mk (.ref ([115, 105, 103, 110])) [])) (.one [32] (.post .plus (.mk (.ref ([100, 105, 103, 105, 116])) []) []))))) [])), [10], []⟩
def ex4Rule6 : DRule :=
  ⟨[115, 105, 103, 110], .plain [32], .atom [32] (.post .opt (.mk (.sub (.chain .choice [] (.plain (.mk (.term (.chr 43)) [])) (.one [] (.plain (.mk (.term (.chr 45)) []))))) []) []), [10, 10], []⟩
def ex4Rule7 : DRule :=
  ⟨[97, 100, 100, 105, 116, 105, 111, 110], .plain [32], .chain .seq [32] (.plain (.mk (.ref ([101, 120, 112, 114])) [])) (.cons [32] (.plain (.mk (.term (.chr 43)) [])) (.one [32] (.plain (.mk (.ref ([116, 101, 114, 109])) [])))), [10], []⟩
def ex4Rule8 : DRule :=
  ⟨[115, 117, 98, 116, 114, 97, 99, 116, 105, 111, 110], .plain [32], .chain .seq [32] (.plain (.mk (.ref ([101, 120, 112, 114])) [])) (.cons [32] (.plain (.mk (.term (.chr 45)) [])) (.one [32] (.plain (.mk (.ref ([116, 101, 114, 109])) [])))), [10], []⟩
def ex4Rule9 : DRule :=
  ⟨[109, 117, 108, 116, 105, 112, 108, 105, 99, 97, 116, 105, 111, 110], .plain [32], .chain .seq [32] (.plain (.mk (.ref ([116, 101, 114, 109])) [])) (.cons [32] (.plain (.mk (.term (.chr 42)) [])) (.one [32] (.plain (.mk (.ref ([112, 111, 119, 101, 114, 95, 101, 120, 112, 114])) [])))), [10], []⟩
def ex4Rule10 : DRule :=
  ⟨[100, 105, 118, 105, 115, 105, 111, 110], .plain [32], .chain .seq [32] (.plain (.mk (.ref ([116, 101, 114, 109])) [])) (.cons [32] (.plain (.mk (.term (.chr 47)) [])) (.one [32] (.plain (.mk (.ref ([112, 111, 119, 101, 114, 95, 101, 120, 112, 114])) [])))), [10], []⟩
def ex4Rule11 : DRule :=
  ⟨[112, 97, 114, 101, 110, 116, 104, 101, 115, 101, 115], .plain [32], .chain .seq [32] (.plain (.mk (.term (.chr 40)) [])) (.cons [32] (.plain (.mk (.ref ([101, 120, 112, 114])) [])) (.one [32] (.plain (.mk (.term (.chr 41)) [])))), [10], []⟩
def ex4Rule12 : DRule :=
  ⟨[112, 111, 119, 101, 114], .plain [32], .chain .seq [32] (.plain (.mk (.ref ([102, 97, 99, 116, 111, 114])) [])) (.cons [32] (.plain (.mk (.term (.chr 94)) [])) (.one [32] (.plain (.mk (.ref ([112, 111, 119, 101, 114, 95, 101, 120, 112, 114])) [])))), [10, 10], []⟩
def ex4Rule13 : DRule :=
  ⟨[101, 120, 112, 114], .plain [32, 32, 32], .chain .choice [32, 32] (.plain (.mk (.ref ([97, 100, 100, 105, 116, 105, 111, 110])) [])) (.cons [] (.plain (.mk (.ref ([115, 117, 98, 116, 114, 97, 99, 116, 105, 111, 110])) [])) (.one [] (.plain (.mk (.ref ([116, 101, 114, 109])) [])))), [10], []⟩
def ex4Rule14 : DRule :=
  ⟨[116, 101, 114, 109], .plain [32, 32, 32], .chain .choice [32, 32, 32] (.plain (.mk (.ref ([109, 117, 108, 116, 105, 112, 108, 105, 99, 97, 116, 105, 111, 110])) [])) (.cons [] (.plain (.mk (.ref ([100, 105, 118, 105, 115, 105, 111, 110])) [])) (.one [] (.plain (.mk (.ref ([112, 111, 119, 101, 114, 95, 101, 120, 112, 114])) [])))), [10], []⟩
def ex4Rule15 : DRule :=
  ⟨[112, 111, 119, 101, 114, 95, 101, 120, 112, 114], .plain [32], .chain .choice [32] (.plain (.mk (.ref ([112, 111, 119, 101, 114])) [])) (.one [] (.plain (.mk (.ref ([102, 97, 99, 116, 111, 114])) []))), [10], []⟩
def ex4Rule16 : DRule :=
  ⟨[102, 97, 99, 116, 111, 114], .plain [32], .chain .choice [32, 32, 32] (.plain (.mk (.ref ([112, 97, 114, 101, 110, 116, 104, 101, 115, 101, 115])) [])) (.one [] (.plain (.mk (.ref ([110, 117, 109, 98, 101, 114])) []))), [10], []⟩
def ex4Rule17 : DRule :=
  ⟨[71, 114, 97, 109, 109, 97, 114], .plain [32], .atom [32] (.plain (.mk (.ref ([101, 120, 112, 114])) [])), [], []⟩

def ex4Tree : DGrammar := [ex4Rule0, ex4Rule1, ex4Rule2, ex4Rule3, ex4Rule4, ex4Rule5, ex4Rule6, ex4Rule7, ex4Rule8, ex4Rule9, ex4Rule10, ex4Rule11, ex4Rule12, ex4Rule13, ex4Rule14, ex4Rule15, ex4Rule16, ex4Rule17]

def ex4Names : List Bytes := [[71, 114, 97, 109, 109, 97, 114], [97, 100, 100, 105, 116, 105, 111, 110], [100, 105, 103, 105, 116], [100, 105, 118, 105, 115, 105, 111, 110], [101, 120, 112, 111, 110, 101, 110, 116], [101, 120, 112, 114], [102, 97, 99, 116, 111, 114], [102, 114, 97, 99, 116, 105, 111, 110], [105, 110, 116, 101, 103, 101, 114], [109, 117, 108, 116, 105, 112, 108, 105, 99, 97, 116, 105, 111, 110], [110, 117, 109, 98, 101, 114], [111, 110, 101, 110, 105, 110, 101], [112, 97, 114, 101, 110, 116, 104, 101, 115, 101, 115], [112, 111, 119, 101, 114], [112, 111, 119, 101, 114, 95, 101, 120, 112, 114], [115, 105, 103, 110], [115, 117, 98, 116, 114, 97, 99, 116, 105, 111, 110], [116, 101, 114, 109]]

set_option maxHeartbeats 4000000 in
theorem ex4Ok : FileOk ex4Tree Files.ex4File 18 ex4Names Files.ex4Enum Ex4.all Ex4.body (fun r => utf8Of (Files.ex4Name r)) where
  text := by decide +kernel
  wf := by decide +kernel
  faithful := by decide +kernel
  closed := by decide +kernel
  calm := by decide +kernel
  left := by decide +kernel
  reach := by decide +kernel
  small := by decide +kernel
  sorted := by decide +kernel
  declared := by decide +kernel
  variants := by decide +kernel
  names := by decide +kernel
  mem := Ex4.mem_all
  bodies := by decide +kernel

end PP.Gen
