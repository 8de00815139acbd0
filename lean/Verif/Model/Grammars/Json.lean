import Verif.Model.Interp

/-! Examples/json_parser/json.dsl: what the generator makes of the rules, printed from the model of the generator (there is no checked-in
parser); C69 proves that it is.  The rule `wsc`, whose function does not compile (C69), is left out; nothing refers to it. -/
namespace PP

/-- examples/json_parser/json.dsl:1-38: the rules, by the names of their functions -/
inductive Json where
  | r_alphabet_upper
  | r_alphabet_lower
  | r_onenine
  | r_digit
  | r_hex
  | r_specials
  | r_ascii
  | r_grammar
  | r_json
  | r_value
  | r_ttrue
  | r_ffalse
  | r_null
  | r_object
  | r_members
  | r_member
  | r_array
  | r_elements
  | r_element
  | r_sstring
  | r_character
  | r_escape
  | r_integer
  | r_number
  | r_fraction
  | r_exponent
  | r_sign
  | r_ws
  | r_wsa
  | r_wsb
  | r_wsd
  deriving DecidableEq, Repr

namespace Json

/-- examples/json_parser/json.dsl, rule by rule (lines on the right); that the generator builds these closures is C69. -/
def body : Json → Expr Json
  | .r_alphabet_upper => -- examples/json_parser/json.dsl:1
    .matchRange 65 90
  | .r_alphabet_lower => -- examples/json_parser/json.dsl:2
    .matchRange 97 122
  | .r_onenine => -- examples/json_parser/json.dsl:3
    .matchRange 49 57
  | .r_digit => -- examples/json_parser/json.dsl:4
    .matchRange 48 57
  | .r_hex => -- examples/json_parser/json.dsl:5
    .orderedChoice (.matchRange 48 57) (.matchRange 65 70)
  | .r_specials => -- examples/json_parser/json.dsl:6
    .sequence (.notPredicate (.subexpression (.orderedChoice (.orderedChoice (.orderedChoice (.inlined
    .r_alphabet_upper) (.inlined .r_alphabet_lower)) (.inlined .r_onenine)) (.inlined .r_ws)))) (.inlined
    .r_ascii)
  | .r_ascii => -- examples/json_parser/json.dsl:7
    .matchRange 0 255
  | .r_grammar => -- examples/json_parser/json.dsl:10
    .varName .r_json
  | .r_json => -- examples/json_parser/json.dsl:11
    .inlined .r_element
  | .r_value => -- examples/json_parser/json.dsl:12
    .orderedChoice (.orderedChoice (.orderedChoice (.orderedChoice (.orderedChoice (.orderedChoice (.varName
    .r_object) (.varName .r_array)) (.varName .r_sstring)) (.varName .r_number)) (.varName .r_ttrue))
    (.varName .r_ffalse)) (.varName .r_null)
  | .r_ttrue => -- examples/json_parser/json.dsl:13
    .stringTerminal [116, 114, 117, 101]
  | .r_ffalse => -- examples/json_parser/json.dsl:14
    .stringTerminal [102, 97, 108, 115, 101]
  | .r_null => -- examples/json_parser/json.dsl:15
    .stringTerminal [110, 117, 108, 108]
  | .r_object => -- examples/json_parser/json.dsl:17
    .sequence (.sequence (.terminal 123) (.subexpression (.orderedChoice (.subexpression (.sequence (.varName
    .r_member) (.zeroOrMore (.subexpression (.sequence (.terminal 44) (.varName .r_member)))))) (.inlined
    .r_ws)))) (.terminal 125)
  | .r_members => -- examples/json_parser/json.dsl:18
    .sequence (.varName .r_member) (.zeroOrMore (.subexpression (.sequence (.terminal 44) (.varName
    .r_member))))
  | .r_member => -- examples/json_parser/json.dsl:19
    .sequence (.sequence (.sequence (.sequence (.sequence (.sequence (.inlined .r_ws) (.varName .r_sstring))
    (.inlined .r_ws)) (.terminal 58)) (.inlined .r_ws)) (.inlined .r_element)) (.inlined .r_ws)
  | .r_array => -- examples/json_parser/json.dsl:20
    .sequence (.sequence (.terminal 91) (.subexpression (.orderedChoice (.inlined .r_elements) (.inlined
    .r_ws)))) (.terminal 93)
  | .r_elements => -- examples/json_parser/json.dsl:21
    .sequence (.inlined .r_element) (.zeroOrMore (.subexpression (.sequence (.terminal 44) (.inlined
    .r_element))))
  | .r_element => -- examples/json_parser/json.dsl:22
    .sequence (.sequence (.inlined .r_ws) (.inlined .r_value)) (.inlined .r_ws)
  | .r_sstring => -- examples/json_parser/json.dsl:23
    .sequence (.sequence (.terminal 34) (.zeroOrMore (.subexpression (.sequence (.notPredicate (.subexpression
    (.orderedChoice (.orderedChoice (.terminal 34) (.subexpression (.sequence (.sequence (.terminal 92)
    (.terminal 92)) (.varName .r_escape)))) (.terminal 92)))) (.inlined .r_ascii))))) (.terminal 34)
  | .r_character => -- examples/json_parser/json.dsl:24
    .sequence (.notPredicate (.subexpression (.orderedChoice (.orderedChoice (.terminal 34) (.subexpression
    (.sequence (.sequence (.terminal 92) (.terminal 92)) (.varName .r_escape)))) (.terminal 92)))) (.inlined
    .r_ascii)
  | .r_escape => -- examples/json_parser/json.dsl:25
    .optional (.subexpression (.orderedChoice (.orderedChoice (.orderedChoice (.orderedChoice (.orderedChoice
    (.orderedChoice (.terminal 92) (.terminal 98)) (.terminal 102)) (.terminal 110)) (.terminal 114))
    (.terminal 116)) (.subexpression (.sequence (.sequence (.sequence (.sequence (.terminal 117) (.inlined
    .r_hex)) (.inlined .r_hex)) (.inlined .r_hex)) (.inlined .r_hex)))))
  | .r_integer => -- examples/json_parser/json.dsl:26
    .sequence (.optional (.terminal 45)) (.subexpression (.orderedChoice (.subexpression (.sequence (.inlined
    .r_onenine) (.oneOrMore (.inlined .r_digit)))) (.inlined .r_digit)))
  | .r_number => -- examples/json_parser/json.dsl:28
    .sequence (.sequence (.varName .r_integer) (.optional (.varName .r_fraction))) (.optional (.varName
    .r_exponent))
  | .r_fraction => -- examples/json_parser/json.dsl:29
    .subexpression (.sequence (.terminal 46) (.oneOrMore (.inlined .r_digit)))
  | .r_exponent => -- examples/json_parser/json.dsl:30
    .subexpression (.sequence (.sequence (.subexpression (.orderedChoice (.terminal 69) (.terminal 101)))
    (.varName .r_sign)) (.oneOrMore (.inlined .r_digit)))
  | .r_sign => -- examples/json_parser/json.dsl:31
    .optional (.subexpression (.orderedChoice (.terminal 43) (.terminal 45)))
  | .r_ws => -- examples/json_parser/json.dsl:32
    .zeroOrMore (.subexpression (.orderedChoice (.orderedChoice (.orderedChoice (.terminal 10) (.terminal 9))
    (.terminal 13)) (.terminal 32)))
  | .r_wsa => -- examples/json_parser/json.dsl:34
    .stringTerminal [32]
  | .r_wsb => -- examples/json_parser/json.dsl:35
    .stringTerminal [10]
  | .r_wsd => -- examples/json_parser/json.dsl:37
    .stringTerminal [9]

/-- Every rule. -/
def all : List Json := [.r_alphabet_upper, .r_alphabet_lower, .r_onenine, .r_digit, .r_hex, .r_specials, .r_ascii, .r_grammar, .r_json, .r_value, .r_ttrue, .r_ffalse, .r_null, .r_object, .r_members, .r_member, .r_array, .r_elements, .r_element, .r_sstring, .r_character, .r_escape, .r_integer, .r_number, .r_fraction, .r_exponent, .r_sign, .r_ws, .r_wsa, .r_wsb, .r_wsd]

theorem mem_all : ∀ r, r ∈ all := by intro r; cases r <;> decide

end Json

/-- The names of the rule functions. -/
def jsonName : Json → String
  | .r_alphabet_upper => "alphabet_upper"
  | .r_alphabet_lower => "alphabet_lower"
  | .r_onenine => "onenine"
  | .r_digit => "digit"
  | .r_hex => "hex"
  | .r_specials => "specials"
  | .r_ascii => "ascii"
  | .r_grammar => "grammar"
  | .r_json => "json"
  | .r_value => "value"
  | .r_ttrue => "ttrue"
  | .r_ffalse => "ffalse"
  | .r_null => "null"
  | .r_object => "object"
  | .r_members => "members"
  | .r_member => "member"
  | .r_array => "array"
  | .r_elements => "elements"
  | .r_element => "element"
  | .r_sstring => "sstring"
  | .r_character => "character"
  | .r_escape => "escape"
  | .r_integer => "integer"
  | .r_number => "number"
  | .r_fraction => "fraction"
  | .r_exponent => "exponent"
  | .r_sign => "sign"
  | .r_ws => "ws"
  | .r_wsa => "wsa"
  | .r_wsb => "wsb"
  | .r_wsd => "wsd"

end PP
