import Verif.Lemmas.Files.Json
import Verif.Lemmas.Json.Values
import Verif.Model.Grammars.Json
import Verif.Props.Generator
import Verif.Props.Peg
import Verif.Props.Termination
import Verif.Props.Linear

/-! # C69: the JSON grammar of the examples

examples/json_parser/json.dsl has no checked-in parser.  The generator turns it into code, but one function of that code does not
compile; without that rule (which nothing refers to) the code is the parser `jsonParser`, and the texts it consumes completely are
those of `IsJson` (Spec/Json.lean). -/
namespace PP.Gen

/-- examples/json_parser/json.dsl without its line 36 -/
def jsonFileFixed : List String := Files.jsonFile.filter (· != "<wsc> = 0x000D;\n")

def jsonEnum : List String :=
  ["Grammar", "Array", "Character", "Escape", "Exponent", "Ffalse", "Fraction", "Integer", "Json", "Member", "Null", "Number",
    "Object", "Sign", "Sstring", "Ttrue", "Wsa", "Wsb", "Wsd"]

def jsonTreeFixed : DGrammar := jsonTree.eraseIdx 30
def jsonNamesFixed : List Bytes := jsonNames.eraseIdx 30

set_option maxHeartbeats 4000000 in
theorem jsonOk : FileOk jsonTreeFixed jsonFileFixed 31 jsonNamesFixed jsonEnum Json.all Json.body (fun r => utf8Of (jsonName r)) where
  text := by decide +kernel
  wf := by decide +kernel
  faithful := by decide +kernel
  closed := by decide +kernel
  calm := by decide +kernel
  left := by decide +kernel
  reach := by decide +kernel
  small := by decide +kernel
  sorted := by decide +kernel
  declared := by decide +kernel
  variants := by decide +kernel
  names := by decide +kernel
  mem := Json.mem_all
  bodies := by decide +kernel

/-- C69: without the rule `wsc`, the generator makes of json.dsl the parser `Json.body`. -/
theorem C69_json_regenerates : Regenerates (fileOf jsonFileFixed) Json.all Json.body (fun r => utf8Of (jsonName r)) (jsonEnum.map utf8Of) :=
  jsonOk.links

theorem jsonTree_text : jsonTree.text = fileOf Files.jsonFile := by
  rw [text_flatten, show jsonTree.map DRule.text = Files.jsonFile.map utf8Of by decide +kernel]; rfl


theorem jsonTree_wf : jsonTree.WF := by decide +kernel

/-- C69: the generator turns json.dsl, as it is, into code, one function of which (that of the rule `wsc`, whose literal is a bare
carriage return) does not compile. -/
theorem C69_json_file_does_not_compile : ∃ c : GeneratedCode,
    (∀ ord : HashOrd, ∃ N, ∀ n, N ≤ n → generateParser ord n (fileOf Files.jsonFile) = .ok (.code c)) ∧
    ∃ k ∈ c.rules, k.name = utf8Of "wsc" ∧ execLines .empty k.lines = none := by
  have hlen : jsonTree.text.length < 82000000 := by
    rw [text_flatten, List.length_flatten]; decide +kernel
  rw [← jsonTree_text]
  have hd : ¬ jsonTree.Dangling := not_dangling_of (by decide +kernel)
  have hpan : ∀ r ∈ jsonTree, ¬ r.rhs.Panics ∧ ∀ k ∈ r.comments, ¬ k.Panics := by
    intro r hr
    have h1 : r ∈ jsonTreeFixed ∨ r = jsonRule30 := by
      have : ∀ r ∈ jsonTree, r ∈ jsonTreeFixed ∨ r = jsonRule30 := by simp [jsonTree, jsonTreeFixed]
      exact this r hr
    rcases h1 with h1 | rfl
    · exact ⟨(rhs_faithful (c := jsonTree.ctx.refs) (jsonOk.wf r h1).2.2.1 (jsonOk.faithful r h1)).2.2, fun k hk => DComment.calm_ok (jsonOk.calm r h1 k hk)⟩
    · refine ⟨?_, by simp [jsonRule30]⟩
      simp only [jsonRule30, DRhs.Panics, DAtom.Panics, DNuc.Panics, DCore.Panics, DStr.Panics]
      decide
  obtain ⟨c, hout⟩ := (output_panics jsonTree_wf).mpr ⟨hd, hpan⟩
  have conv : ∀ ord : HashOrd, ∃ N, ∀ n, N ≤ n → generateParser ord n jsonTree.text = .ok (.code c) := fun ord => by
    obtain ⟨_, _, N, hN⟩ := gen_conv jsonTree_wf hlen ord
    exact ⟨N, fun m hm => (hN m hm).trans hout⟩
  refine ⟨c, conv, ?_⟩
  obtain ⟨N, hN⟩ := conv .id
  obtain ⟨refs, -, -, h3⟩ := denotes_grammar jsonTree_wf hlen (hN N (Nat.le_refl _))
  obtain ⟨k, k1, k2, k3⟩ := h3 30 jsonRule30 rfl
  refine ⟨k, List.mem_of_getElem? k1, k2.trans (by decide +kernel), k3.trans ?_⟩
  rfl

end PP.Gen

namespace PP

/-- The generated parser of json.dsl (without `wsc`); `parse` is parser/src/lib.rs and as generated, see Model/Interp.lean. -/
def jsonParser : Parser Json Unit := .plain Json.body .r_grammar

theorem wf_json : WellFormed Json.body :=
  C07_certificate_sound Json.mem_all [.r_ws, .r_escape, .r_sign]
    [.r_alphabet_upper, .r_alphabet_lower, .r_onenine, .r_digit, .r_hex, .r_ascii, .r_ws, .r_specials, .r_wsa, .r_wsb, .r_wsd,
      .r_sign, .r_escape, .r_integer, .r_fraction, .r_exponent, .r_number, .r_sstring, .r_character, .r_ttrue, .r_ffalse, .r_null,
      .r_object, .r_array, .r_value, .r_element, .r_elements, .r_member, .r_members, .r_json, .r_grammar] (by decide +kernel)

theorem json_plain : ∀ r, (Json.body r).Plain := by intro r; cases r <;> simp [Json.body, Expr.Plain]

/-- The certificate of a linear tree (Spec/Linear.lean), with slope 2. -/
def jsonLin : Json → Lin
  | .r_alphabet_upper | .r_alphabet_lower | .r_onenine | .r_digit | .r_hex | .r_specials | .r_ascii | .r_integer | .r_wsa | .r_wsb
  | .r_wsd | .r_ttrue | .r_ffalse | .r_null | .r_fraction => ⟨2, some 0, some 0, some 0, false, false, false⟩
  | .r_grammar => ⟨-1, none, some 0, some 0, false, false, false⟩
  | .r_json | .r_value | .r_elements | .r_element | .r_members => ⟨0, none, some 0, some 0, false, false, false⟩
  | .r_object | .r_array | .r_member => ⟨1, none, none, none, false, false, false⟩
  | .r_sstring | .r_character | .r_exponent => ⟨2, some 1, some 1, some 1, false, false, false⟩
  | .r_escape | .r_sign | .r_ws => ⟨0, some 0, some 0, some 0, false, false, true⟩
  | .r_number => ⟨1, some 4, some 0, some 0, false, false, false⟩

theorem json_linOK : linOK 2 0 jsonLin Json.body Json.all = true := by decide +kernel

/-- C69: the tree has at most `4 + 2 * q` nodes, `q` being where the parse ended. -/
theorem C69_json_tree_is_linear (src : Source) {n : Nat} {b : Bool} {q : Nat} {t : Publisher Json}
    (h : parse jsonParser src n = .ok (b, q, t)) : t.nodes.length ≤ 4 + 2 * q := by
  obtain ⟨h1, h2⟩ := C61_certified_tree_is_linear Json.body .r_grammar src json_plain Json.all Json.mem_all 2 0 jsonLin json_linOK h
  cases b with
  | true =>
    have := h1 rfl
    rw [show (jsonLin .r_grammar).d = -1 from rfl] at this
    omega
  | false => have := h2 rfl; omega

theorem json_peg (src : Source) (hs : src.bytes.length < 4294967296) :
    Peg Json.body src (.varName .r_grammar) 0 true src.bytes.length ↔ JsonText.IsJson src.bytes := by
  have hr : Gen.Rem src 0 src.bytes := ⟨hs, Nat.zero_le _, by simp⟩
  constructor
  · intro h
    cases h with
    | ref h =>
      obtain ⟨s', h1, h2⟩ := (LPeg.ofPeg h src.bytes hr).1 rfl
      have : s' = [] := by have := h1.drop; rw [List.drop_length] at this; exact this.symm
      subst this
      exact (JsonText.json_whole _).mp h2
  · intro h
    obtain ⟨q, h1, h2⟩ := LPeg.toPeg ((JsonText.json_whole _).mpr h) 0 hr
    have hq : q = src.bytes.length := by
      have := congrArg List.length h1.drop
      have h3 := h1.le
      simp only [List.length_drop, List.length_nil] at this
      omega
    subst hq
    exact .ref h2

/-- C69: on every text below 138 million bytes the parser returns, and it succeeds with the whole text consumed exactly if the text
is JSON in the sense of `IsJson`. -/
theorem C69_json_language (src : Source) (hsmall : src.bytes.length < 138000000) :
    ∃ b q t, (∃ N, ∀ n, N ≤ n → parse jsonParser src n = .ok (b, q, t)) ∧
      ((b = true ∧ q = src.bytes.length) ↔ JsonText.IsJson src.bytes) := by
  have hlen : src.len = src.bytes.length := by unfold Source.len; omega
  obtain ⟨b, q, t, hp, hN⟩ := C61_certified_parse_is_total Json.body .r_grammar src json_plain Json.all Json.mem_all wf_json 2 0 jsonLin
    json_linOK (by rw [show Json.all.length = 31 from rfl]; omega) (by rw [show (jsonLin .r_grammar).d = -1 from rfl]; omega)
  refine ⟨b, q, t, hN, ?_⟩
  rw [← json_peg src (by omega)]
  constructor
  · rintro ⟨rfl, rfl⟩; exact hp
  · intro h; exact hp.det h

namespace JsonText

theorem digits_92 {l : List UInt8} (h : IsDigits l) : 92 ∉ l := fun hm => by have := (h.2 _ hm).2; revert this; decide
theorem layout_92 {l : List UInt8} (h : IsLayout l) : 92 ∉ l := fun hm => by have := h _ hm; revert this; decide
theorem string_92 {l : List UInt8} (h : IsString l) : 92 ∉ l := by
  obtain ⟨s, rfl, hs⟩ := h
  intro hm
  simp only [List.mem_cons, List.mem_append, List.not_mem_nil, or_false] at hm
  rcases hm with hm | hm | hm
  · revert hm; decide
  · exact (hs _ hm).2 rfl
  · revert hm; decide
theorem number_92 {l : List UInt8} (h : IsNumber l) : 92 ∉ l := by
  obtain ⟨i, f, e, rfl, ⟨sg, ds, rfl, hsg, hds, -⟩, hf, he⟩ := h
  have h1 : 92 ∉ sg := by rcases hsg with rfl | rfl <;> decide
  have h2 := digits_92 hds
  have h3 : 92 ∉ f := by
    rcases hf with rfl | ⟨d, rfl, hd⟩
    · decide
    · have := digits_92 hd; simp [this]
  have h4 : 92 ∉ e := by
    rcases he with rfl | ⟨x, sg, d, rfl, hx, hsg, hd⟩
    · decide
    · have := digits_92 hd
      have h5 : 92 ∉ sg := by rcases hsg with rfl | rfl | rfl <;> decide
      have h6 : (92 : UInt8) ≠ x := by rcases hx with rfl | rfl <;> decide
      simp [this, h5, h6]
  simp [h1, h2, h3, h4]

mutual
theorem value_92 {l : List UInt8} : IsValue l → 92 ∉ l
  | .emptyObject h => by have := layout_92 h; simp [this]
  | .object h => by have := members_92 h; simp [this]
  | .emptyArray h => by have := layout_92 h; simp [this]
  | .array h => by have := elements_92 h; simp [this]
  | .string h => string_92 h
  | .number h => number_92 h
  | .true => by decide
  | .false => by decide
  | .null => by decide
theorem element_92 {l : List UInt8} : IsElement l → 92 ∉ l
  | .mk h1 h2 h3 => by have := layout_92 h1; have := value_92 h2; have := layout_92 h3; simp [*]
theorem elements_92 {l : List UInt8} : IsElements l → 92 ∉ l
  | .one h => element_92 h
  | .cons h1 h2 => by have := element_92 h1; have := elements_92 h2; simp [*]
theorem member_92 {l : List UInt8} : IsMember l → 92 ∉ l
  | .mk h1 h2 h3 h4 => by
    have := layout_92 h1; have := string_92 h2; have := layout_92 h3; have := element_92 h4; simp [*]
theorem members_92 {l : List UInt8} : IsMembers l → 92 ∉ l
  | .one h => member_92 h
  | .cons h1 h2 => by have := member_92 h1; have := members_92 h2; simp [*]
end

end JsonText

/-- C69: a text with a backslash anywhere (so every JSON text with an escape sequence) is never consumed completely. -/
theorem C69_json_has_no_escapes (src : Source) (hsmall : src.bytes.length < 138000000) (hb : 92 ∈ src.bytes) {n : Nat}
    {t : Publisher Json} : parse jsonParser src n ≠ .ok (true, src.bytes.length, t) := by
  intro h
  have hp : Peg Json.body src (.varName .r_grammar) 0 true src.bytes.length := by
    obtain ⟨b, q, t', ⟨N, hN⟩, hj⟩ := C69_json_language src hsmall
    have hmax := hN (max N n) (Nat.le_max_left _ _)
    have : parse jsonParser src (max N n) = .ok (true, src.bytes.length, t) := by
      rw [parse_mono (Nat.le_max_right N n) (by rw [h]; simp)]; exact h
    rw [this] at hmax
    cases hmax
    exact (json_peg src (by omega)).mpr (hj.mp ⟨rfl, rfl⟩)
  exact JsonText.element_92 ((json_peg src (by omega)).mp hp) hb

/-- The hypotheses are met, both ways: `[1, {"a":-0.5e+3}]` is consumed completely, `["\n"]` is not, and the leading zero of `01`
is read alone. -/
example : (match parse jsonParser ⟨bytesOf "[1, {\"a\":-0.5e+3}]"⟩ 200 with | .ok (b, q, _) => some (b, q) | _ => none) = some (true, 18) ∧
    (match parse jsonParser ⟨bytesOf "[\"\\n\"]"⟩ 200 with | .ok (b, q, _) => some (b, q) | _ => none) = some (false, 0) ∧
    (match parse jsonParser ⟨bytesOf "01"⟩ 200 with | .ok (b, q, _) => some (b, q) | _ => none) = some (true, 1) := by decide +kernel

/-- An instance of the specification. -/
example : JsonText.IsJson (bytesOf "[1]") :=
  .mk (w := []) (w' := []) (by simp [JsonText.IsLayout]) (v := [91, 49, 93]) (.array (e := [49]) (.one (.mk (w := []) (w' := [])
    (by simp [JsonText.IsLayout]) (v := [49]) (.number ⟨[49], [], [], rfl, ⟨[], [49], rfl, .inl rfl, ⟨by simp, by decide⟩, by simp⟩,
    .inl rfl, .inl rfl⟩) (by simp [JsonText.IsLayout])))) (by simp [JsonText.IsLayout])
end PP
