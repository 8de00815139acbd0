import Verif.Model.Interp

/-! Generated by tools/translate.py from examples/example_6_term_and_fact_parser/src/parser.rs -/
namespace PP

/-- examples/example_6_term_and_fact_parser/src/parser.rs: the rule functions -/
inductive Ex6 where
  | r_num
  | r_term
  | r_fact
  | r_grammar
  deriving DecidableEq, Repr

namespace Ex6

/-- examples/example_6_term_and_fact_parser/src/parser.rs, translated closure by closure (line ranges of the functions on the right). -/
def body : Ex6 → Expr Ex6
  | .r_num => -- examples/example_6_term_and_fact_parser/src/parser.rs:7-16
    .matchRange 48 57
  | .r_term => -- examples/example_6_term_and_fact_parser/src/parser.rs:18-51
    .orderedChoice (.orderedChoice (.subexpression (.sequence (.sequence (.varNameLR [.r_term] .r_term) (.terminal
    43)) (.varNameLR [.r_fact] .r_fact))) (.subexpression (.sequence (.sequence (.varNameLR [.r_term] .r_term)
    (.terminal 45)) (.varNameLR [.r_fact] .r_fact)))) (.varNameLR [.r_fact] .r_fact)
  | .r_fact => -- examples/example_6_term_and_fact_parser/src/parser.rs:53-80
    .orderedChoice (.orderedChoice (.subexpression (.sequence (.sequence (.varNameLR [.r_fact] .r_fact) (.terminal
    42)) (.varName .r_num))) (.subexpression (.sequence (.sequence (.varNameLR [.r_fact] .r_fact) (.terminal 47))
    (.varName .r_num)))) (.varName .r_num)
  | .r_grammar => -- examples/example_6_term_and_fact_parser/src/parser.rs:82-93
    .varNameLR [.r_term] .r_term

/-- all rule functions -/
def all : List Ex6 :=
  [.r_num, .r_term, .r_fact, .r_grammar]

theorem mem_all (r : Ex6) : r ∈ all := by cases r <;> decide

end Ex6

end PP
