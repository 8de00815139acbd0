import Verif.Lemmas.Gen.Check
import Verif.Model.Files

/-! Generated by tools/dsl2lean.py: examples/json_parser/json.dsl as a concrete syntax tree. -/
namespace PP.Gen

def jsonRule0 : DRule :=
  ⟨[65, 108, 112, 104, 97, 98, 101, 116, 95, 85, 112, 112, 101, 114], .inline [32] [32], .atom [32] (.plain (.mk (.range [] [] (.term (.chr 65)) (.term (.chr 90)) []) [])), [10], []⟩
def jsonRule1 : DRule :=
  ⟨[65, 108, 112, 104, 97, 98, 101, 116, 95, 76, 111, 119, 101, 114], .inline [32] [32], .atom [32] (.plain (.mk (.range [] [] (.term (.chr 97)) (.term (.chr 122)) []) [])), [10], []⟩
def jsonRule2 : DRule :=
  ⟨[111, 110, 101, 110, 105, 110, 101], .inline [32] [32], .atom [32] (.plain (.mk (.range [] [] (.term (.chr 49)) (.term (.chr 57)) []) [])), [10], []⟩
def jsonRule3 : DRule :=
  ⟨[100, 105, 103, 105, 116], .inline [32] [32], .atom [32] (.plain (.mk (.range [] [] (.term (.chr 48)) (.term (.chr 57)) []) [])), [10], []⟩
def jsonRule4 : DRule :=
  ⟨[104, 101, 120], .inline [32] [32], .chain .choice [32] (.plain (.mk (.range [] [] (.term (.chr 48)) (.term (.chr 57)) []) [])) (.one [] (.plain (.mk (.range [] [] (.term (.chr 65)) (.term (.chr 70)) []) []))), [10], []⟩
def jsonRule5 : DRule :=
  ⟨[83, 112, 101, 99, 105, 97, 108, 115], .inline [32] [32], .chain .seq [32] (.pre .not (.mk (.sub (.chain .choice [] (.plain (.mk (.ref ([65, 108, 112, 104, 97, 98, 101, 116, 95, 85, 112, 112, 101, 114])) [])) (.cons [] (.plain (.mk (.ref ([65, 108, 112, 104, 97, 98, 101, 116, 95, 76, 111, 119, 101, 114])) [])) (.cons [] (.plain (.mk (.ref ([111, 110, 101, 110, 105, 110, 101])) [])) (.one [] (.plain (.mk (.ref ([119, 115])) []))))))) [])) (.one [32] (.plain (.mk (.ref ([65, 83, 67, 73, 73])) []))), [10], []⟩
def jsonRule6 : DRule :=
  ⟨[65, 83, 67, 73, 73], .inline [32] [32], .atom [32] (.plain (.mk (.range [] [] (.hex ([48, 48])) (.hex ([70, 70])) []) [])), [10, 10, 10], []⟩
def jsonRule7 : DRule :=
  ⟨[71, 114, 97, 109, 109, 97, 114], .plain [32], .atom [32] (.plain (.mk (.ref ([106, 115, 111, 110])) [])), [32], [⟨[78, 101, 101, 100, 32, 97, 32, 103, 114, 97, 109, 109, 97, 114, 32, 114, 117, 108, 101, 32, 102, 111, 114, 32, 103, 101, 110, 101, 114, 97, 116, 101, 100, 32, 99, 111, 100, 101, 32, 116, 111, 32, 98, 101, 32, 99, 111, 114, 114, 101, 99, 116], [32, 10]⟩]⟩
def jsonRule8 : DRule :=
  ⟨[106, 115, 111, 110], .plain [32], .atom [32] (.plain (.mk (.ref ([101, 108, 101, 109, 101, 110, 116])) [])), [10], []⟩
def jsonRule9 : DRule :=
  ⟨[118, 97, 108, 117, 101], .inline [32] [32], .chain .choice [32] (.plain (.mk (.ref ([111, 98, 106, 101, 99, 116])) [])) (.cons [] (.plain (.mk (.ref ([97, 114, 114, 97, 121])) [])) (.cons [] (.plain (.mk (.ref ([115, 115, 116, 114, 105, 110, 103])) [])) (.cons [] (.plain (.mk (.ref ([110, 117, 109, 98, 101, 114])) [])) (.cons [] (.plain (.mk (.ref ([116, 116, 114, 117, 101])) [])) (.cons [] (.plain (.mk (.ref ([102, 102, 97, 108, 115, 101])) [])) (.one [] (.plain (.mk (.ref ([110, 117, 108, 108])) [])))))))), [10], []⟩
def jsonRule10 : DRule :=
  ⟨[116, 116, 114, 117, 101], .plain [32], .atom [32] (.plain (.mk (.str (.quoted ([116, 114, 117, 101]))) [])), [10], []⟩
def jsonRule11 : DRule :=
  ⟨[102, 102, 97, 108, 115, 101], .plain [32], .atom [32] (.plain (.mk (.str (.quoted ([102, 97, 108, 115, 101]))) [])), [10], []⟩
def jsonRule12 : DRule :=
  ⟨[110, 117, 108, 108], .plain [32], .atom [32] (.plain (.mk (.str (.quoted ([110, 117, 108, 108]))) [])), [10, 10], []⟩
def jsonRule13 : DRule :=
  ⟨[111, 98, 106, 101, 99, 116], .plain [32], .chain .seq [32] (.plain (.mk (.term (.chr 123)) [])) (.cons [32] (.plain (.mk (.sub (.chain .choice [] (.plain (.mk (.sub (.chain .seq [] (.plain (.mk (.ref ([109, 101, 109, 98, 101, 114])) [])) (.one [32] (.post .star (.mk (.sub (.chain .seq [] (.plain (.mk (.term (.chr 44)) [])) (.one [32] (.plain (.mk (.ref ([109, 101, 109, 98, 101, 114])) []))))) []) [])))) [])) (.one [] (.plain (.mk (.ref ([119, 115])) []))))) [])) (.one [32] (.plain (.mk (.term (.chr 125)) [])))), [10], []⟩
def jsonRule14 : DRule :=
  ⟨[109, 101, 109, 98, 101, 114, 115], .inline [32] [32], .chain .seq [32] (.plain (.mk (.ref ([109, 101, 109, 98, 101, 114])) [])) (.one [32] (.post .star (.mk (.sub (.chain .seq [] (.plain (.mk (.term (.chr 44)) [])) (.one [32] (.plain (.mk (.ref ([109, 101, 109, 98, 101, 114])) []))))) []) [])), [10], []⟩
def jsonRule15 : DRule :=
  ⟨[109, 101, 109, 98, 101, 114], .plain [32], .chain .seq [32] (.plain (.mk (.ref ([119, 115])) [])) (.cons [32] (.plain (.mk (.ref ([115, 115, 116, 114, 105, 110, 103])) [])) (.cons [32] (.plain (.mk (.ref ([119, 115])) [])) (.cons [32] (.plain (.mk (.term (.chr 58)) [])) (.cons [32] (.plain (.mk (.ref ([119, 115])) [])) (.cons [32] (.plain (.mk (.ref ([101, 108, 101, 109, 101, 110, 116])) [])) (.one [32] (.plain (.mk (.ref ([119, 115])) [])))))))), [10], []⟩
def jsonRule16 : DRule :=
  ⟨[97, 114, 114, 97, 121], .plain [32], .chain .seq [32] (.plain (.mk (.term (.chr 91)) [])) (.cons [32] (.plain (.mk (.sub (.chain .choice [] (.plain (.mk (.ref ([101, 108, 101, 109, 101, 110, 116, 115])) [])) (.one [] (.plain (.mk (.ref ([119, 115])) []))))) [])) (.one [32] (.plain (.mk (.term (.chr 93)) [])))), [10], []⟩
def jsonRule17 : DRule :=
  ⟨[101, 108, 101, 109, 101, 110, 116, 115], .inline [32] [32], .chain .seq [32] (.plain (.mk (.ref ([101, 108, 101, 109, 101, 110, 116])) [])) (.one [32] (.post .star (.mk (.sub (.chain .seq [] (.plain (.mk (.term (.chr 44)) [])) (.one [32] (.plain (.mk (.ref ([101, 108, 101, 109, 101, 110, 116])) []))))) []) [])), [10], []⟩
def jsonRule18 : DRule :=
  ⟨[101, 108, 101, 109, 101, 110, 116], .inline [32] [32], .chain .seq [32] (.plain (.mk (.ref ([119, 115])) [])) (.cons [32] (.plain (.mk (.ref ([118, 97, 108, 117, 101])) [])) (.one [32] (.plain (.mk (.ref ([119, 115])) [])))), [10], []⟩
def jsonRule19 : DRule :=
  ⟨[115, 115, 116, 114, 105, 110, 103], .plain [32], .chain .seq [32] (.plain (.mk (.term (.chr 34)) [])) (.cons [32] (.post .star (.mk (.sub (.chain .seq [] (.pre .not (.mk (.sub (.chain .choice [] (.plain (.mk (.term (.chr 34)) [])) (.cons [] (.plain (.mk (.sub (.chain .seq [] (.plain (.mk (.term (.chr 92)) [])) (.cons [32] (.plain (.mk (.term (.chr 92)) [])) (.one [32] (.plain (.mk (.ref ([101, 115, 99, 97, 112, 101])) [])))))) [])) (.one [] (.plain (.mk (.term (.chr 92)) [])))))) [])) (.one [32] (.plain (.mk (.ref ([65, 83, 67, 73, 73])) []))))) []) []) (.one [32] (.plain (.mk (.term (.chr 34)) [])))), [10], []⟩
def jsonRule20 : DRule :=
  ⟨[99, 104, 97, 114, 97, 99, 116, 101, 114], .plain [32], .chain .seq [32] (.pre .not (.mk (.sub (.chain .choice [] (.plain (.mk (.term (.chr 34)) [])) (.cons [] (.plain (.mk (.sub (.chain .seq [] (.plain (.mk (.term (.chr 92)) [])) (.cons [32] (.plain (.mk (.term (.chr 92)) [])) (.one [32] (.plain (.mk (.ref ([101, 115, 99, 97, 112, 101])) [])))))) [])) (.one [] (.plain (.mk (.term (.chr 92)) [])))))) [])) (.one [32] (.plain (.mk (.ref ([65, 83, 67, 73, 73])) []))), [32], [⟨[67, 97, 110, 110, 111, 116, 32, 104, 97, 110, 100, 108, 101, 32, 85, 84, 70, 45, 56, 32, 121, 101, 116, 32, 115, 111, 32, 116, 104, 105, 115, 32, 105, 115, 110, 39, 116, 32, 113, 117, 105, 116, 101, 32, 99, 111, 114, 114, 101, 99, 116], [10]⟩]⟩
def jsonRule21 : DRule :=
  ⟨[101, 115, 99, 97, 112, 101], .plain [32], .atom [32] (.post .opt (.mk (.sub (.chain .choice [] (.plain (.mk (.term (.chr 92)) [])) (.cons [] (.plain (.mk (.term (.chr 98)) [])) (.cons [] (.plain (.mk (.term (.chr 102)) [])) (.cons [] (.plain (.mk (.term (.chr 110)) [])) (.cons [] (.plain (.mk (.term (.chr 114)) [])) (.cons [] (.plain (.mk (.term (.chr 116)) [])) (.one [] (.plain (.mk (.sub (.chain .seq [] (.plain (.mk (.term (.chr 117)) [])) (.cons [32] (.plain (.mk (.ref ([104, 101, 120])) [])) (.cons [32] (.plain (.mk (.ref ([104, 101, 120])) [])) (.cons [32] (.plain (.mk (.ref ([104, 101, 120])) [])) (.one [32] (.plain (.mk (.ref ([104, 101, 120])) [])))))))) [])))))))))) []) []), [10], []⟩
def jsonRule22 : DRule :=
  ⟨[105, 110, 116, 101, 103, 101, 114], .plain [32], .chain .seq [32] (.post .opt (.mk (.term (.chr 45)) []) []) (.one [32] (.plain (.mk (.sub (.chain .choice [] (.plain (.mk (.sub (.chain .seq [] (.plain (.mk (.ref ([111, 110, 101, 110, 105, 110, 101])) [])) (.one [32] (.post .plus (.mk (.ref ([100, 105, 103, 105, 116])) []) [])))) [])) (.one [] (.plain (.mk (.ref ([100, 105, 103, 105, 116])) []))))) []))), [10, 10], []⟩
def jsonRule23 : DRule :=
  ⟨[110, 117, 109, 98, 101, 114], .plain [32], .chain .seq [32] (.plain (.mk (.ref ([105, 110, 116, 101, 103, 101, 114])) [])) (.cons [32] (.post .opt (.mk (.ref ([102, 114, 97, 99, 116, 105, 111, 110])) []) []) (.one [32] (.post .opt (.mk (.ref ([101, 120, 112, 111, 110, 101, 110, 116])) []) []))), [10], []⟩
def jsonRule24 : DRule :=
  ⟨[102, 114, 97, 99, 116, 105, 111, 110], .plain [32], .atom [32] (.plain (.mk (.sub (.chain .seq [] (.plain (.mk (.term (.chr 46)) [])) (.one [32] (.post .plus (.mk (.ref ([100, 105, 103, 105, 116])) []) [])))) [])), [10], []⟩
def jsonRule25 : DRule :=
  ⟨[101, 120, 112, 111, 110, 101, 110, 116], .plain [32], .atom [32] (.plain (.mk (.sub (.chain .seq [] (.plain (.mk (.sub (.chain .choice [] (.plain (.mk (.term (.chr 69)) [])) (.one [] (.plain (.mk (.term (.chr 101)) []))))) [])) (.cons [32] (.plain (.mk (.ref ([115, 105, 103, 110])) [])) (.one [32] (.post .plus (.mk (.ref ([100, 105, 103, 105, 116])) []) []))))) [])), [10], []⟩
def jsonRule26 : DRule :=
  ⟨[115, 105, 103, 110], .plain [32], .atom [32] (.post .opt (.mk (.sub (.chain .choice [] (.plain (.mk (.term (.chr 43)) [])) (.one [] (.plain (.mk (.term (.chr 45)) []))))) []) []), [10], []⟩
def jsonRule27 : DRule :=
  ⟨[119, 115], .inline [32] [32], .atom [32] (.post .star (.mk (.sub (.chain .choice [] (.plain (.mk (.term (.esc 110)) [])) (.cons [] (.plain (.mk (.term (.esc 116)) [])) (.cons [] (.plain (.mk (.term (.esc 114)) [])) (.one [] (.plain (.mk (.term (.chr 32)) []))))))) []) []), [32], [⟨[67, 97, 110, 39, 116, 32, 117, 115, 101, 32, 99, 111, 100, 101, 32, 112, 111, 105, 110, 116, 115, 32, 121, 101, 116], [10, 10]⟩]⟩
def jsonRule28 : DRule :=
  ⟨[119, 115, 97], .plain [32], .atom [32] (.plain (.mk (.str (.hex ([48, 48, 50, 48]))) [])), [10], []⟩
def jsonRule29 : DRule :=
  ⟨[119, 115, 98], .plain [32], .atom [32] (.plain (.mk (.str (.hex ([48, 48, 48, 65]))) [])), [10], []⟩
def jsonRule30 : DRule :=
  ⟨[119, 115, 99], .plain [32], .atom [32] (.plain (.mk (.str (.hex ([48, 48, 48, 68]))) [])), [10], []⟩
def jsonRule31 : DRule :=
  ⟨[119, 115, 100], .plain [32], .atom [32] (.plain (.mk (.str (.hex ([48, 48, 48, 57]))) [])), [10], []⟩

def jsonTree : DGrammar := [jsonRule0, jsonRule1, jsonRule2, jsonRule3, jsonRule4, jsonRule5, jsonRule6, jsonRule7, jsonRule8, jsonRule9, jsonRule10, jsonRule11, jsonRule12, jsonRule13, jsonRule14, jsonRule15, jsonRule16, jsonRule17, jsonRule18, jsonRule19, jsonRule20, jsonRule21, jsonRule22, jsonRule23, jsonRule24, jsonRule25, jsonRule26, jsonRule27, jsonRule28, jsonRule29, jsonRule30, jsonRule31]

def jsonNames : List Bytes := [[65, 83, 67, 73, 73], [65, 108, 112, 104, 97, 98, 101, 116, 95, 76, 111, 119, 101, 114], [65, 108, 112, 104, 97, 98, 101, 116, 95, 85, 112, 112, 101, 114], [71, 114, 97, 109, 109, 97, 114], [83, 112, 101, 99, 105, 97, 108, 115], [97, 114, 114, 97, 121], [99, 104, 97, 114, 97, 99, 116, 101, 114], [100, 105, 103, 105, 116], [101, 108, 101, 109, 101, 110, 116], [101, 108, 101, 109, 101, 110, 116, 115], [101, 115, 99, 97, 112, 101], [101, 120, 112, 111, 110, 101, 110, 116], [102, 102, 97, 108, 115, 101], [102, 114, 97, 99, 116, 105, 111, 110], [104, 101, 120], [105, 110, 116, 101, 103, 101, 114], [106, 115, 111, 110], [109, 101, 109, 98, 101, 114], [109, 101, 109, 98, 101, 114, 115], [110, 117, 108, 108], [110, 117, 109, 98, 101, 114], [111, 98, 106, 101, 99, 116], [111, 110, 101, 110, 105, 110, 101], [115, 105, 103, 110], [115, 115, 116, 114, 105, 110, 103], [116, 116, 114, 117, 101], [118, 97, 108, 117, 101], [119, 115], [119, 115, 97], [119, 115, 98], [119, 115, 99], [119, 115, 100]]

end PP.Gen
