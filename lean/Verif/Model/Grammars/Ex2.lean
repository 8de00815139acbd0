import Verif.Model.Interp

/-! Generated by tools/translate.py from examples/example_2_parser/src/parser.rs -/
namespace PP

/-- examples/example_2_parser/src/parser.rs: the rule functions -/
inductive Ex2 where
  | r_a
  | r_b
  | r_grammar
  deriving DecidableEq, Repr

namespace Ex2

/-- examples/example_2_parser/src/parser.rs, translated closure by closure (line ranges of the functions on the right). -/
def body : Ex2 → Expr Ex2
  | .r_a => -- examples/example_2_parser/src/parser.rs:7-23
    .orderedChoice (.subexpression (.sequence (.varNameLR [.r_a, .r_b] .r_b) (.terminal 97))) (.terminal 97)
  | .r_b => -- examples/example_2_parser/src/parser.rs:25-41
    .orderedChoice (.subexpression (.sequence (.varNameLR [.r_a, .r_b] .r_a) (.terminal 98))) (.terminal 98)
  | .r_grammar => -- examples/example_2_parser/src/parser.rs:43-54
    .varNameLR [.r_a, .r_b] .r_a

/-- all rule functions -/
def all : List Ex2 :=
  [.r_a, .r_b, .r_grammar]

theorem mem_all (r : Ex2) : r ∈ all := by cases r <;> decide

end Ex2

end PP
