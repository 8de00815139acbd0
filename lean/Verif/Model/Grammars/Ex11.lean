import Verif.Model.Interp

/-! Generated by tools/translate.py from examples/example_11_external_rule_call_parser/src/parser.rs -/
namespace PP

/-- examples/example_11_external_rule_call_parser/src/parser.rs: the rule functions -/
inductive Ex11 where
  | r_alphabet_lower
  | r_unique_line_matcher
  | r_grammar
  deriving DecidableEq, Repr

namespace Ex11

/-- examples/example_11_external_rule_call_parser/src/parser.rs, translated closure by closure (line ranges of the functions on the right). -/
def body : Ex11 → Expr Ex11
  | .r_alphabet_lower => -- examples/example_11_external_rule_call_parser/src/parser.rs:8-17
    .matchRange 97 122
  | .r_unique_line_matcher => -- examples/example_11_external_rule_call_parser/src/parser.rs:19-40
    .hooked "unique_line_cache" (.subexpression (.sequence (.oneOrMore (.subexpression (.orderedChoice (.inlined
    .r_alphabet_lower) (.terminal 32)))) (.terminal 10)))
  | .r_grammar => -- examples/example_11_external_rule_call_parser/src/parser.rs:42-58
    .oneOrMore (.subexpression (.varName .r_unique_line_matcher))

/-- all rule functions -/
def all : List Ex11 :=
  [.r_alphabet_lower, .r_unique_line_matcher, .r_grammar]

theorem mem_all (r : Ex11) : r ∈ all := by cases r <;> decide

end Ex11

end PP
