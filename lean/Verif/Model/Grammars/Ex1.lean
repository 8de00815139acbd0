import Verif.Model.Interp

/-! Generated by tools/translate.py from examples/example_1_parser/src/parser.rs -/
namespace PP

/-- examples/example_1_parser/src/parser.rs: the rule functions -/
inductive Ex1 where
  | r_expr
  | r_addition
  | r_subtraction
  | r_onenine
  | r_digit
  | r_integer
  | r_grammar
  deriving DecidableEq, Repr

namespace Ex1

/-- examples/example_1_parser/src/parser.rs, translated closure by closure (line ranges of the functions on the right). -/
def body : Ex1 → Expr Ex1
  | .r_expr => -- examples/example_1_parser/src/parser.rs:7-34
    .orderedChoice (.orderedChoice (.varNameLR [.r_addition, .r_expr, .r_subtraction] .r_addition) (.varNameLR
    [.r_addition, .r_expr, .r_subtraction] .r_subtraction)) (.varName .r_integer)
  | .r_addition => -- examples/example_1_parser/src/parser.rs:36-51
    .sequence (.sequence (.varNameLR [.r_addition, .r_expr, .r_subtraction] .r_expr) (.terminal 43)) (.varName
    .r_integer)
  | .r_subtraction => -- examples/example_1_parser/src/parser.rs:53-68
    .sequence (.sequence (.varNameLR [.r_addition, .r_expr, .r_subtraction] .r_expr) (.terminal 45)) (.varName
    .r_integer)
  | .r_onenine => -- examples/example_1_parser/src/parser.rs:70-79
    .matchRange 49 57
  | .r_digit => -- examples/example_1_parser/src/parser.rs:81-90
    .matchRange 48 57
  | .r_integer => -- examples/example_1_parser/src/parser.rs:92-108
    .sequence (.inlined .r_onenine) (.zeroOrMore (.inlined .r_digit))
  | .r_grammar => -- examples/example_1_parser/src/parser.rs:110-125
    .varNameLR [.r_addition, .r_expr, .r_subtraction] .r_expr

/-- all rule functions -/
def all : List Ex1 :=
  [.r_expr, .r_addition, .r_subtraction, .r_onenine, .r_digit, .r_integer, .r_grammar]

theorem mem_all (r : Ex1) : r ∈ all := by cases r <;> decide

end Ex1

end PP
