import Verif.Lemmas.Gen.Check
import Verif.Model.Files

/-! Generated by tools/dsl2lean.py: parser/Grammar.dsl as a concrete syntax tree. -/
namespace PP.Gen

def dslRule0 : DRule :=
  ⟨[65, 108, 112, 104, 97, 98, 101, 116, 95, 85, 112, 112, 101, 114], .inline [32] [32], .atom [32] (.plain (.mk (.range [] [] (.term (.chr 65)) (.term (.chr 90)) []) [])), [32], [⟨[87, 101, 32, 97, 108, 108, 32, 108, 111, 118, 101, 32, 99, 111, 109, 109, 109, 101, 110, 116, 115], [10]⟩]⟩
def dslRule1 : DRule :=
  ⟨[65, 108, 112, 104, 97, 98, 101, 116, 95, 76, 111, 119, 101, 114], .inline [32] [32], .atom [] (.plain (.mk (.range [] [] (.term (.chr 97)) (.term (.chr 122)) []) [])), [10], []⟩
def dslRule2 : DRule :=
  ⟨[78, 117, 109], .plain [32], .atom [32] (.plain (.mk (.range [] [] (.hex ([51, 48])) (.hex ([51, 57])) []) [])), [10], []⟩
def dslRule3 : DRule :=
  ⟨[78, 117, 109, 78, 111, 90, 101, 114, 111], .plain [32], .atom [32] (.plain (.mk (.range [] [] (.hex ([51, 49])) (.hex ([51, 57])) []) [])), [10], []⟩
def dslRule4 : DRule :=
  ⟨[72, 101, 120, 86, 97, 108], .plain [], .chain .choice [32] (.plain (.mk (.range [] [] (.hex ([51, 48])) (.hex ([51, 57])) []) [])) (.one [] (.plain (.mk (.range [] [] (.hex ([52, 49])) (.hex ([52, 54])) []) []))), [10], []⟩
def dslRule5 : DRule :=
  ⟨[83, 112, 97, 99, 101, 115], .inline [32] [32], .chain .choice [32] (.plain (.mk (.term (.esc 110)) [])) (.cons [] (.plain (.mk (.term (.esc 116)) [])) (.cons [] (.plain (.mk (.term (.esc 114)) [])) (.one [] (.plain (.mk (.term (.chr 32)) []))))), [10], []⟩
def dslRule6 : DRule :=
  ⟨[83, 112, 101, 99, 105, 97, 108, 115], .inline [32] [32], .chain .seq [32] (.pre .not (.mk (.sub (.chain .choice [] (.plain (.mk (.ref ([65, 108, 112, 104, 97, 98, 101, 116, 95, 85, 112, 112, 101, 114])) [])) (.cons [] (.plain (.mk (.ref ([65, 108, 112, 104, 97, 98, 101, 116, 95, 76, 111, 119, 101, 114])) [])) (.cons [] (.plain (.mk (.ref ([78, 117, 109])) [])) (.one [] (.plain (.mk (.ref ([83, 112, 97, 99, 101, 115])) []))))))) [])) (.one [] (.plain (.mk (.range [] [] (.hex ([48])) (.hex ([70, 70])) []) [32]))), [10], []⟩
def dslRule7 : DRule :=
  ⟨[65, 83, 67, 73, 73], .plain [32], .atom [32] (.plain (.mk (.range [] [] (.hex ([48, 48])) (.hex ([70, 70])) []) [])), [10], []⟩
def dslRule8 : DRule :=
  ⟨[65, 112, 111, 115, 116, 114, 111, 112, 104, 101], .inline [32] [32], .atom [32] (.plain (.mk (.term (.chr 34)) [])), [10], []⟩
def dslRule9 : DRule :=
  ⟨[81, 117, 111, 116, 97, 116, 105, 111, 110, 77, 97, 114, 107], .inline [32] [32], .atom [32] (.plain (.mk (.term (.chr 39)) [])), [10], []⟩
def dslRule10 : DRule :=
  ⟨[76, 101, 102, 116, 95, 65, 110, 103, 108, 101, 95, 66, 114, 97, 99, 107, 101, 116], .inline [32] [32], .atom [32] (.plain (.mk (.term (.chr 60)) [])), [10], []⟩
def dslRule11 : DRule :=
  ⟨[82, 105, 103, 104, 116, 95, 65, 110, 103, 108, 101, 95, 66, 114, 97, 99, 107, 101, 116], .inline [32] [32], .atom [32] (.plain (.mk (.term (.chr 62)) [])), [10], []⟩
def dslRule12 : DRule :=
  ⟨[76, 101, 102, 116, 95, 66, 114, 97, 99, 107, 101, 116], .inline [32] [32], .atom [32] (.plain (.mk (.term (.chr 40)) [])), [10], []⟩
def dslRule13 : DRule :=
  ⟨[82, 105, 103, 104, 116, 95, 66, 114, 97, 99, 107, 101, 116], .inline [32] [32], .atom [32] (.plain (.mk (.term (.chr 41)) [])), [10], []⟩
def dslRule14 : DRule :=
  ⟨[65, 115, 115, 105, 103, 110, 109, 101, 110, 116], .inline [32] [32], .atom [32] (.plain (.mk (.term (.chr 61)) [])), [10], []⟩
def dslRule15 : DRule :=
  ⟨[69, 110, 100, 95, 82, 117, 108, 101], .inline [32] [32], .atom [32] (.plain (.mk (.term (.chr 59)) [])), [10], []⟩
def dslRule16 : DRule :=
  ⟨[65, 109, 112, 101, 114, 115, 97, 110, 100], .inline [32] [32], .atom [32] (.plain (.mk (.term (.chr 38)) [])), [10], []⟩
def dslRule17 : DRule :=
  ⟨[69, 120, 99, 108, 97, 109, 97, 116, 105, 111, 110, 95, 77, 97, 114, 107], .inline [32] [32], .atom [32] (.plain (.mk (.term (.chr 33)) [])), [10], []⟩
def dslRule18 : DRule :=
  ⟨[80, 108, 117, 115], .inline [32] [32], .atom [32] (.plain (.mk (.term (.chr 43)) [])), [10], []⟩
def dslRule19 : DRule :=
  ⟨[83, 116, 97, 114], .inline [32] [32], .atom [32] (.plain (.mk (.term (.chr 42)) [])), [10], []⟩
def dslRule20 : DRule :=
  ⟨[81, 117, 101, 115, 116, 105, 111, 110, 95, 77, 97, 114, 107], .inline [32] [32], .atom [32] (.plain (.mk (.term (.chr 63)) [])), [10], []⟩
def dslRule21 : DRule :=
  ⟨[67, 111, 109, 109, 97], .inline [32] [32], .atom [32] (.plain (.mk (.term (.chr 44)) [])), [10], []⟩
def dslRule22 : DRule :=
  ⟨[78, 101, 119, 108, 105, 110, 101], .plain [32], .atom [32] (.plain (.mk (.term (.esc 110)) [])), [10], []⟩
def dslRule23 : DRule :=
  ⟨[66, 97, 99, 107, 115, 108, 97, 115, 104], .inline [32] [32], .atom [32] (.plain (.mk (.term (.chr 47)) [])), [10, 10], []⟩
def dslRule24 : DRule :=
  ⟨[86, 97, 114, 95, 78, 97, 109, 101], .inline [32] [32], .chain .seq [32] (.plain (.mk (.sub (.chain .choice [] (.plain (.mk (.ref ([65, 108, 112, 104, 97, 98, 101, 116, 95, 76, 111, 119, 101, 114])) [])) (.one [] (.plain (.mk (.ref ([65, 108, 112, 104, 97, 98, 101, 116, 95, 85, 112, 112, 101, 114])) []))))) [])) (.one [] (.post .star (.mk (.sub (.chain .choice [] (.plain (.mk (.ref ([65, 108, 112, 104, 97, 98, 101, 116, 95, 76, 111, 119, 101, 114])) [])) (.cons [] (.plain (.mk (.ref ([65, 108, 112, 104, 97, 98, 101, 116, 95, 85, 112, 112, 101, 114])) [])) (.one [] (.plain (.mk (.term (.chr 95)) [])))))) []) [])), [10], []⟩
def dslRule25 : DRule :=
  ⟨[86, 97, 114, 95, 78, 97, 109, 101, 95, 68, 101, 99, 108], .plain [32], .chain .seq [32] (.plain (.mk (.ref ([76, 101, 102, 116, 95, 65, 110, 103, 108, 101, 95, 66, 114, 97, 99, 107, 101, 116])) [])) (.cons [32] (.plain (.mk (.ref ([86, 97, 114, 95, 78, 97, 109, 101])) [])) (.one [32] (.plain (.mk (.ref ([82, 105, 103, 104, 116, 95, 65, 110, 103, 108, 101, 95, 66, 114, 97, 99, 107, 101, 116])) [])))), [10], []⟩
def dslRule26 : DRule :=
  ⟨[86, 97, 114, 95, 78, 97, 109, 101, 95, 82, 101, 102], .plain [], .chain .seq [32] (.plain (.mk (.ref ([76, 101, 102, 116, 95, 65, 110, 103, 108, 101, 95, 66, 114, 97, 99, 107, 101, 116])) [])) (.cons [32] (.plain (.mk (.ref ([86, 97, 114, 95, 78, 97, 109, 101])) [])) (.one [32] (.plain (.mk (.ref ([82, 105, 103, 104, 116, 95, 65, 110, 103, 108, 101, 95, 66, 114, 97, 99, 107, 101, 116])) [])))), [10], []⟩
def dslRule27 : DRule :=
  ⟨[72, 101, 120], .plain [32], .chain .seq [32] (.plain (.mk (.term (.chr 48)) [])) (.cons [32] (.plain (.mk (.term (.chr 120)) [])) (.one [32] (.post .plus (.mk (.ref ([72, 101, 120, 86, 97, 108])) []) []))), [32], [⟨[82, 101, 112, 108, 97, 99, 101, 32, 119, 105, 116, 104, 32, 99, 117, 115, 116, 111, 109, 32, 99, 111, 100, 101], [10]⟩]⟩
def dslRule28 : DRule :=
  ⟨[73, 110, 116, 101, 103, 101, 114], .plain [32], .chain .seq [32] (.plain (.mk (.ref ([78, 117, 109, 78, 111, 90, 101, 114, 111])) [])) (.one [32] (.post .star (.mk (.ref ([78, 117, 109])) []) [])), [32], [⟨[78, 111, 32, 110, 101, 103, 97, 116, 105, 118, 101, 32, 118, 97, 108, 117, 101, 115, 32, 115, 105, 110, 99, 101, 32, 116, 104, 97, 116, 32, 105, 115, 32, 109, 101, 97, 110, 105, 110, 103, 108, 101, 115, 115, 32, 105, 110, 32, 116, 104, 105, 115, 32, 99, 111, 110, 116, 101, 120, 116], [10]⟩]⟩
def dslRule29 : DRule :=
  ⟨[79, 114, 100, 101, 114, 101, 100, 67, 104, 111, 105, 99, 101, 77, 97, 116, 99, 104, 82, 97, 110, 103, 101], .plain [32], .chain .seq [32] (.plain (.mk (.ref ([87, 104, 105, 116, 101, 115, 112, 97, 99, 101])) [])) (.cons [32] (.plain (.mk (.term (.chr 91)) [])) (.cons [32] (.plain (.mk (.ref ([87, 104, 105, 116, 101, 115, 112, 97, 99, 101])) [])) (.cons [] (.plain (.mk (.sub (.chain .choice [] (.plain (.mk (.ref ([84, 101, 114, 109, 105, 110, 97, 108])) [])) (.cons [] (.plain (.mk (.ref ([73, 110, 116, 101, 103, 101, 114])) [])) (.one [] (.plain (.mk (.ref ([72, 101, 120])) [])))))) [])) (.cons [] (.plain (.mk (.term (.chr 46)) [])) (.cons [32] (.plain (.mk (.term (.chr 46)) [])) (.cons [] (.plain (.mk (.sub (.chain .choice [] (.plain (.mk (.ref ([84, 101, 114, 109, 105, 110, 97, 108])) [])) (.cons [] (.plain (.mk (.ref ([73, 110, 116, 101, 103, 101, 114])) [])) (.one [] (.plain (.mk (.ref ([72, 101, 120])) [])))))) [32])) (.cons [] (.plain (.mk (.ref ([87, 104, 105, 116, 101, 115, 112, 97, 99, 101])) [])) (.cons [32] (.plain (.mk (.term (.chr 93)) [])) (.one [32] (.plain (.mk (.ref ([87, 104, 105, 116, 101, 115, 112, 97, 99, 101])) []))))))))))), [10, 10, 10], []⟩
def dslRule30 : DRule :=
  ⟨[83, 117, 98, 101, 120, 112, 114, 101, 115, 115, 105, 111, 110], .plain [32], .chain .seq [32] (.plain (.mk (.ref ([76, 101, 102, 116, 95, 66, 114, 97, 99, 107, 101, 116])) [])) (.cons [] (.plain (.mk (.ref ([82, 72, 83])) [])) (.one [] (.plain (.mk (.ref ([82, 105, 103, 104, 116, 95, 66, 114, 97, 99, 107, 101, 116])) [])))), [10], []⟩
def dslRule31 : DRule :=
  ⟨[72, 111, 111, 107, 101, 100, 95, 67, 97, 108, 108], .plain [32], .chain .seq [32] (.plain (.mk (.ref ([86, 97, 114, 95, 78, 97, 109, 101])) [])) (.cons [32] (.plain (.mk (.ref ([76, 101, 102, 116, 95, 66, 114, 97, 99, 107, 101, 116])) [])) (.cons [] (.plain (.mk (.ref ([82, 72, 83])) [])) (.one [] (.plain (.mk (.ref ([82, 105, 103, 104, 116, 95, 66, 114, 97, 99, 107, 101, 116])) []))))), [32], [⟨[32, 65, 108, 108, 111, 119, 115, 32, 102, 111, 114, 32, 104, 97, 110, 100, 108, 105, 110, 103, 32, 99, 111, 110, 116, 101, 120, 116, 32, 115, 101, 110, 115, 116, 105, 118, 101, 32, 103, 114, 97, 109, 109, 97, 114, 115, 32, 98, 121, 32, 99, 97, 108, 108, 105, 110, 103, 32, 111, 117, 116, 32, 116, 111, 32, 104, 97, 110, 100, 119, 114, 105, 116, 116, 101, 110, 32, 99, 111, 100, 101, 46, 32], [32, 10]⟩]⟩
def dslRule32 : DRule :=
  ⟨[69, 112, 115, 105, 108, 111, 110], .plain [32], .chain .seq [32] (.plain (.mk (.ref ([81, 117, 111, 116, 97, 116, 105, 111, 110, 77, 97, 114, 107])) [])) (.one [32] (.plain (.mk (.ref ([81, 117, 111, 116, 97, 116, 105, 111, 110, 77, 97, 114, 107])) []))), [10], []⟩
def dslRule33 : DRule :=
  ⟨[83, 116, 114, 105, 110, 103, 84, 101, 114, 109, 105, 110, 97, 108], .plain [32], .chain .choice [32] (.plain (.mk (.sub (.chain .seq [] (.plain (.mk (.ref ([65, 112, 111, 115, 116, 114, 111, 112, 104, 101])) [])) (.cons [32] (.pre .not (.mk (.ref ([65, 112, 111, 115, 116, 114, 111, 112, 104, 101])) [])) (.cons [32] (.plain (.mk (.sub (.chain .seq [] (.plain (.mk (.ref ([65, 83, 67, 73, 73])) [])) (.one [32] (.post .plus (.mk (.sub (.chain .seq [] (.pre .not (.mk (.ref ([65, 112, 111, 115, 116, 114, 111, 112, 104, 101])) [])) (.one [] (.plain (.mk (.ref ([65, 83, 67, 73, 73])) []))))) []) [])))) [])) (.one [32] (.plain (.mk (.ref ([65, 112, 111, 115, 116, 114, 111, 112, 104, 101])) []))))))) [])) (.cons [] (.plain (.mk (.ref ([72, 101, 120])) [])) (.one [] (.plain (.mk (.ref ([73, 110, 116, 101, 103, 101, 114])) [])))), [32], [⟨[77, 117, 108, 116, 105, 98, 121, 116, 101, 32, 109, 97, 116, 99, 104, 101, 115, 32, 101, 115, 115, 101, 110, 116, 105, 97, 108, 108, 121], [10, 10]⟩]⟩
def dslRule34 : DRule :=
  ⟨[84, 101, 114, 109, 105, 110, 97, 108], .plain [32], .chain .choice [32] (.plain (.mk (.sub (.chain .seq [] (.plain (.mk (.ref ([81, 117, 111, 116, 97, 116, 105, 111, 110, 77, 97, 114, 107])) [])) (.cons [] (.plain (.mk (.ref ([65, 83, 67, 73, 73])) [])) (.one [] (.plain (.mk (.ref ([81, 117, 111, 116, 97, 116, 105, 111, 110, 77, 97, 114, 107])) [])))))) [])) (.cons [] (.plain (.mk (.sub (.chain .seq [] (.plain (.mk (.ref ([81, 117, 111, 116, 97, 116, 105, 111, 110, 77, 97, 114, 107])) [])) (.cons [] (.plain (.mk (.term (.chr 92)) [])) (.cons [] (.plain (.mk (.sub (.chain .choice [] (.plain (.mk (.term (.chr 110)) [])) (.cons [] (.plain (.mk (.term (.chr 114)) [])) (.one [] (.plain (.mk (.term (.chr 116)) [])))))) [])) (.one [] (.plain (.mk (.ref ([81, 117, 111, 116, 97, 116, 105, 111, 110, 77, 97, 114, 107])) []))))))) [])) (.one [] (.plain (.mk (.ref ([69, 112, 115, 105, 108, 111, 110])) [])))), [10], []⟩
def dslRule35 : DRule :=
  ⟨[78, 117, 99, 108, 101, 117, 115], .plain [32], .chain .seq [32] (.plain (.mk (.sub (.chain .choice [] (.plain (.mk (.ref ([79, 114, 100, 101, 114, 101, 100, 67, 104, 111, 105, 99, 101, 77, 97, 116, 99, 104, 82, 97, 110, 103, 101])) [])) (.cons [] (.plain (.mk (.ref ([72, 111, 111, 107, 101, 100, 95, 67, 97, 108, 108])) [])) (.cons [] (.plain (.mk (.ref ([83, 117, 98, 101, 120, 112, 114, 101, 115, 115, 105, 111, 110])) [])) (.cons [] (.plain (.mk (.ref ([84, 101, 114, 109, 105, 110, 97, 108])) [])) (.cons [] (.plain (.mk (.ref ([83, 116, 114, 105, 110, 103, 84, 101, 114, 109, 105, 110, 97, 108])) [])) (.one [] (.plain (.mk (.ref ([86, 97, 114, 95, 78, 97, 109, 101, 95, 82, 101, 102])) []))))))))) [])) (.one [32] (.plain (.mk (.ref ([87, 104, 105, 116, 101, 115, 112, 97, 99, 101])) []))), [10], []⟩
def dslRule36 : DRule :=
  ⟨[65, 116, 111, 109], .plain [32], .chain .seq [32] (.plain (.mk (.sub (.chain .choice [] (.plain (.mk (.ref ([65, 110, 100, 95, 80, 114, 101, 100, 105, 99, 97, 116, 101])) [])) (.cons [] (.plain (.mk (.ref ([78, 111, 116, 95, 80, 114, 101, 100, 105, 99, 97, 116, 101])) [])) (.cons [] (.plain (.mk (.ref ([79, 110, 101, 95, 79, 114, 95, 77, 111, 114, 101])) [])) (.cons [] (.plain (.mk (.ref ([90, 101, 114, 111, 95, 79, 114, 95, 77, 111, 114, 101])) [])) (.cons [] (.plain (.mk (.ref ([79, 112, 116, 105, 111, 110, 97, 108])) [])) (.one [] (.plain (.mk (.ref ([78, 117, 99, 108, 101, 117, 115])) []))))))))) [])) (.one [32] (.plain (.mk (.ref ([87, 104, 105, 116, 101, 115, 112, 97, 99, 101])) []))), [10, 10], []⟩
def dslRule37 : DRule :=
  ⟨[65, 110, 100, 95, 80, 114, 101, 100, 105, 99, 97, 116, 101], .plain [32], .chain .seq [32] (.plain (.mk (.ref ([65, 109, 112, 101, 114, 115, 97, 110, 100])) [])) (.one [32] (.plain (.mk (.ref ([78, 117, 99, 108, 101, 117, 115])) []))), [10], []⟩
def dslRule38 : DRule :=
  ⟨[78, 111, 116, 95, 80, 114, 101, 100, 105, 99, 97, 116, 101], .plain [32], .chain .seq [32] (.plain (.mk (.ref ([69, 120, 99, 108, 97, 109, 97, 116, 105, 111, 110, 95, 77, 97, 114, 107])) [])) (.one [32] (.plain (.mk (.ref ([78, 117, 99, 108, 101, 117, 115])) []))), [10], []⟩
def dslRule39 : DRule :=
  ⟨[83, 101, 113, 117, 101, 110, 99, 101], .plain [32], .chain .seq [32] (.plain (.mk (.ref ([65, 116, 111, 109])) [])) (.cons [32] (.plain (.mk (.ref ([87, 104, 105, 116, 101, 115, 112, 97, 99, 101])) [])) (.cons [32] (.plain (.mk (.ref ([67, 111, 109, 109, 97])) [])) (.cons [32] (.plain (.mk (.ref ([87, 104, 105, 116, 101, 115, 112, 97, 99, 101])) [])) (.cons [32] (.plain (.mk (.ref ([65, 116, 111, 109])) [])) (.one [32] (.post .star (.mk (.sub (.chain .seq [] (.plain (.mk (.ref ([67, 111, 109, 109, 97])) [])) (.cons [32] (.plain (.mk (.ref ([87, 104, 105, 116, 101, 115, 112, 97, 99, 101])) [])) (.one [32] (.plain (.mk (.ref ([65, 116, 111, 109])) [])))))) []) [])))))), [10], []⟩
def dslRule40 : DRule :=
  ⟨[79, 114, 100, 101, 114, 101, 100, 95, 67, 104, 111, 105, 99, 101], .plain [32], .chain .seq [32] (.plain (.mk (.ref ([65, 116, 111, 109])) [])) (.cons [32] (.plain (.mk (.ref ([87, 104, 105, 116, 101, 115, 112, 97, 99, 101])) [])) (.cons [] (.plain (.mk (.ref ([66, 97, 99, 107, 115, 108, 97, 115, 104])) [])) (.cons [32] (.plain (.mk (.ref ([87, 104, 105, 116, 101, 115, 112, 97, 99, 101])) [])) (.cons [] (.plain (.mk (.ref ([65, 116, 111, 109])) [])) (.one [32] (.post .star (.mk (.sub (.chain .seq [] (.plain (.mk (.ref ([87, 104, 105, 116, 101, 115, 112, 97, 99, 101])) [])) (.cons [32] (.plain (.mk (.ref ([66, 97, 99, 107, 115, 108, 97, 115, 104])) [])) (.cons [32] (.plain (.mk (.ref ([87, 104, 105, 116, 101, 115, 112, 97, 99, 101])) [])) (.one [32] (.plain (.mk (.ref ([65, 116, 111, 109])) []))))))) []) [])))))), [10], []⟩
def dslRule41 : DRule :=
  ⟨[79, 110, 101, 95, 79, 114, 95, 77, 111, 114, 101], .plain [32], .chain .seq [32] (.plain (.mk (.ref ([78, 117, 99, 108, 101, 117, 115])) [])) (.cons [32] (.plain (.mk (.ref ([87, 104, 105, 116, 101, 115, 112, 97, 99, 101])) [])) (.one [32] (.plain (.mk (.ref ([80, 108, 117, 115])) [])))), [10], []⟩
def dslRule42 : DRule :=
  ⟨[90, 101, 114, 111, 95, 79, 114, 95, 77, 111, 114, 101], .plain [32], .chain .seq [32] (.plain (.mk (.ref ([78, 117, 99, 108, 101, 117, 115])) [])) (.cons [32] (.plain (.mk (.ref ([87, 104, 105, 116, 101, 115, 112, 97, 99, 101])) [])) (.one [32] (.plain (.mk (.ref ([83, 116, 97, 114])) [])))), [10], []⟩
def dslRule43 : DRule :=
  ⟨[79, 112, 116, 105, 111, 110, 97, 108], .plain [32], .chain .seq [32] (.plain (.mk (.ref ([78, 117, 99, 108, 101, 117, 115])) [])) (.cons [32] (.plain (.mk (.ref ([87, 104, 105, 116, 101, 115, 112, 97, 99, 101])) [])) (.one [32] (.plain (.mk (.ref ([81, 117, 101, 115, 116, 105, 111, 110, 95, 77, 97, 114, 107])) [])))), [10, 10], []⟩
def dslRule44 : DRule :=
  ⟨[87, 104, 105, 116, 101, 115, 112, 97, 99, 101], .inline [32] [32], .atom [32] (.post .star (.mk (.sub (.chain .choice [] (.plain (.mk (.term (.chr 32)) [])) (.cons [] (.plain (.mk (.term (.esc 110)) [])) (.cons [] (.plain (.mk (.term (.esc 114)) [])) (.one [] (.plain (.mk (.term (.esc 116)) []))))))) []) []), [10], []⟩
def dslRule45 : DRule :=
  ⟨[82, 72, 83], .plain [32], .chain .seq [32] (.plain (.mk (.ref ([87, 104, 105, 116, 101, 115, 112, 97, 99, 101])) [])) (.one [32] (.plain (.mk (.sub (.chain .choice [] (.plain (.mk (.ref ([83, 101, 113, 117, 101, 110, 99, 101])) [])) (.cons [] (.plain (.mk (.ref ([79, 114, 100, 101, 114, 101, 100, 95, 67, 104, 111, 105, 99, 101])) [])) (.one [] (.plain (.mk (.ref ([65, 116, 111, 109])) [])))))) []))), [10], []⟩
def dslRule46 : DRule :=
  ⟨[76, 72, 83], .plain [32], .chain .seq [32] (.plain (.mk (.ref ([86, 97, 114, 95, 78, 97, 109, 101, 95, 68, 101, 99, 108])) [])) (.one [32] (.post .opt (.mk (.sub (.chain .seq [] (.plain (.mk (.ref ([87, 104, 105, 116, 101, 115, 112, 97, 99, 101])) [])) (.cons [32] (.plain (.mk (.ref ([83, 101, 109, 97, 110, 116, 105, 99, 95, 73, 110, 115, 116, 114, 117, 99, 116, 105, 111, 110, 115])) [])) (.one [32] (.plain (.mk (.ref ([87, 104, 105, 116, 101, 115, 112, 97, 99, 101])) [])))))) []) [])), [10], []⟩
def dslRule47 : DRule :=
  ⟨[82, 117, 108, 101], .plain [32], .chain .seq [32] (.plain (.mk (.ref ([76, 72, 83])) [])) (.cons [32] (.plain (.mk (.ref ([87, 104, 105, 116, 101, 115, 112, 97, 99, 101])) [])) (.cons [32] (.plain (.mk (.ref ([65, 115, 115, 105, 103, 110, 109, 101, 110, 116])) [])) (.cons [32] (.plain (.mk (.ref ([87, 104, 105, 116, 101, 115, 112, 97, 99, 101])) [])) (.cons [32] (.plain (.mk (.ref ([82, 72, 83])) [])) (.cons [32] (.plain (.mk (.ref ([87, 104, 105, 116, 101, 115, 112, 97, 99, 101])) [])) (.cons [32] (.plain (.mk (.ref ([69, 110, 100, 95, 82, 117, 108, 101])) [])) (.cons [32] (.plain (.mk (.ref ([87, 104, 105, 116, 101, 115, 112, 97, 99, 101])) [])) (.one [32] (.post .star (.mk (.ref ([67, 111, 109, 109, 101, 110, 116])) []) []))))))))), [10], []⟩
def dslRule48 : DRule :=
  ⟨[71, 114, 97, 109, 109, 97, 114], .plain [32], .chain .seq [32] (.post .plus (.mk (.ref ([82, 117, 108, 101])) []) []) (.one [32] (.post .opt (.mk (.ref ([87, 104, 105, 116, 101, 115, 112, 97, 99, 101])) []) [])), [10], [⟨[76, 101, 109, 109, 101, 32, 106, 117, 115, 116, 32, 99, 104, 101, 99, 107, 32, 99, 111, 109, 109, 101, 110, 116, 115, 32, 119, 111, 114, 107], [32]⟩, ⟨[68, 111, 117, 98, 108, 101, 32, 117, 112, 32, 100, 101, 109, 32, 99, 111, 109, 109, 101, 110, 116, 115], [10]⟩]⟩
def dslRule49 : DRule :=
  ⟨[67, 111, 109, 109, 101, 110, 116], .plain [32], .chain .seq [32] (.plain (.mk (.ref ([87, 104, 105, 116, 101, 115, 112, 97, 99, 101])) [])) (.cons [32] (.plain (.mk (.term (.chr 35)) [])) (.cons [32] (.post .star (.mk (.sub (.chain .seq [] (.pre .not (.mk (.term (.chr 35)) [])) (.one [] (.plain (.mk (.ref ([65, 83, 67, 73, 73])) []))))) []) []) (.cons [32] (.plain (.mk (.term (.chr 35)) [])) (.one [32] (.plain (.mk (.ref ([87, 104, 105, 116, 101, 115, 112, 97, 99, 101])) [])))))), [10], []⟩
def dslRule50 : DRule :=
  ⟨[83, 101, 109, 97, 110, 116, 105, 99, 95, 73, 110, 115, 116, 114, 117, 99, 116, 105, 111, 110, 115], .plain [32], .atom [32] (.plain (.mk (.ref ([73, 110, 108, 105, 110, 101])) [])), [10], []⟩
def dslRule51 : DRule :=
  ⟨[73, 110, 108, 105, 110, 101], .plain [32], .atom [32] (.plain (.mk (.str (.quoted ([73, 110, 108, 105, 110, 101]))) [])), [32], [⟨[67, 111, 109, 109, 101, 110, 116], []⟩]⟩

def dslTree : DGrammar := [dslRule0, dslRule1, dslRule2, dslRule3, dslRule4, dslRule5, dslRule6, dslRule7, dslRule8, dslRule9, dslRule10, dslRule11, dslRule12, dslRule13, dslRule14, dslRule15, dslRule16, dslRule17, dslRule18, dslRule19, dslRule20, dslRule21, dslRule22, dslRule23, dslRule24, dslRule25, dslRule26, dslRule27, dslRule28, dslRule29, dslRule30, dslRule31, dslRule32, dslRule33, dslRule34, dslRule35, dslRule36, dslRule37, dslRule38, dslRule39, dslRule40, dslRule41, dslRule42, dslRule43, dslRule44, dslRule45, dslRule46, dslRule47, dslRule48, dslRule49, dslRule50, dslRule51]

def dslNames : List Bytes := [[65, 83, 67, 73, 73], [65, 108, 112, 104, 97, 98, 101, 116, 95, 76, 111, 119, 101, 114], [65, 108, 112, 104, 97, 98, 101, 116, 95, 85, 112, 112, 101, 114], [65, 109, 112, 101, 114, 115, 97, 110, 100], [65, 110, 100, 95, 80, 114, 101, 100, 105, 99, 97, 116, 101], [65, 112, 111, 115, 116, 114, 111, 112, 104, 101], [65, 115, 115, 105, 103, 110, 109, 101, 110, 116], [65, 116, 111, 109], [66, 97, 99, 107, 115, 108, 97, 115, 104], [67, 111, 109, 109, 97], [67, 111, 109, 109, 101, 110, 116], [69, 110, 100, 95, 82, 117, 108, 101], [69, 112, 115, 105, 108, 111, 110], [69, 120, 99, 108, 97, 109, 97, 116, 105, 111, 110, 95, 77, 97, 114, 107], [71, 114, 97, 109, 109, 97, 114], [72, 101, 120], [72, 101, 120, 86, 97, 108], [72, 111, 111, 107, 101, 100, 95, 67, 97, 108, 108], [73, 110, 108, 105, 110, 101], [73, 110, 116, 101, 103, 101, 114], [76, 72, 83], [76, 101, 102, 116, 95, 65, 110, 103, 108, 101, 95, 66, 114, 97, 99, 107, 101, 116], [76, 101, 102, 116, 95, 66, 114, 97, 99, 107, 101, 116], [78, 101, 119, 108, 105, 110, 101], [78, 111, 116, 95, 80, 114, 101, 100, 105, 99, 97, 116, 101], [78, 117, 99, 108, 101, 117, 115], [78, 117, 109], [78, 117, 109, 78, 111, 90, 101, 114, 111], [79, 110, 101, 95, 79, 114, 95, 77, 111, 114, 101], [79, 112, 116, 105, 111, 110, 97, 108], [79, 114, 100, 101, 114, 101, 100, 67, 104, 111, 105, 99, 101, 77, 97, 116, 99, 104, 82, 97, 110, 103, 101], [79, 114, 100, 101, 114, 101, 100, 95, 67, 104, 111, 105, 99, 101], [80, 108, 117, 115], [81, 117, 101, 115, 116, 105, 111, 110, 95, 77, 97, 114, 107], [81, 117, 111, 116, 97, 116, 105, 111, 110, 77, 97, 114, 107], [82, 72, 83], [82, 105, 103, 104, 116, 95, 65, 110, 103, 108, 101, 95, 66, 114, 97, 99, 107, 101, 116], [82, 105, 103, 104, 116, 95, 66, 114, 97, 99, 107, 101, 116], [82, 117, 108, 101], [83, 101, 109, 97, 110, 116, 105, 99, 95, 73, 110, 115, 116, 114, 117, 99, 116, 105, 111, 110, 115], [83, 101, 113, 117, 101, 110, 99, 101], [83, 112, 97, 99, 101, 115], [83, 112, 101, 99, 105, 97, 108, 115], [83, 116, 97, 114], [83, 116, 114, 105, 110, 103, 84, 101, 114, 109, 105, 110, 97, 108], [83, 117, 98, 101, 120, 112, 114, 101, 115, 115, 105, 111, 110], [84, 101, 114, 109, 105, 110, 97, 108], [86, 97, 114, 95, 78, 97, 109, 101], [86, 97, 114, 95, 78, 97, 109, 101, 95, 68, 101, 99, 108], [86, 97, 114, 95, 78, 97, 109, 101, 95, 82, 101, 102], [87, 104, 105, 116, 101, 115, 112, 97, 99, 101], [90, 101, 114, 111, 95, 79, 114, 95, 77, 111, 114, 101]]

set_option maxHeartbeats 4000000 in
theorem dslOk : FileOk dslTree Files.dslFile 52 dslNames Files.dslEnum Dsl.all Dsl.body (fun r => utf8Of (Files.dslName r)) where
  text := by decide +kernel
  wf := by decide +kernel
  faithful := by decide +kernel
  closed := by decide +kernel
  calm := by decide +kernel
  left := by decide +kernel
  reach := by decide +kernel
  small := by decide +kernel
  sorted := by decide +kernel
  declared := by decide +kernel
  variants := by decide +kernel
  names := by decide +kernel
  mem := Dsl.mem_all
  bodies := by decide +kernel

end PP.Gen
