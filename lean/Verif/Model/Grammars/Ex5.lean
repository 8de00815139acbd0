import Verif.Model.Interp

/-! Generated by tools/translate.py from examples/example_5_lr_num_parser/src/parser.rs -/
namespace PP

/-- examples/example_5_lr_num_parser/src/parser.rs: the rule functions -/
inductive Ex5 where
  | r_num
  | r_expr
  | r_grammar
  deriving DecidableEq, Repr

namespace Ex5

/-- examples/example_5_lr_num_parser/src/parser.rs, translated closure by closure (line ranges of the functions on the right). -/
def body : Ex5 → Expr Ex5
  | .r_num => -- examples/example_5_lr_num_parser/src/parser.rs:7-16
    .matchRange 48 57
  | .r_expr => -- examples/example_5_lr_num_parser/src/parser.rs:18-38
    .orderedChoice (.subexpression (.sequence (.sequence (.varNameLR [.r_expr] .r_expr) (.terminal 45)) (.varName
    .r_num))) (.varName .r_num)
  | .r_grammar => -- examples/example_5_lr_num_parser/src/parser.rs:40-51
    .varNameLR [.r_expr] .r_expr

/-- all rule functions -/
def all : List Ex5 :=
  [.r_num, .r_expr, .r_grammar]

theorem mem_all (r : Ex5) : r ∈ all := by cases r <;> decide

end Ex5

end PP
