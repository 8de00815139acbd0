import Verif.Model.Interp

/-! Generated by tools/translate.py from examples/example_7_indirect_lr_num_parser/src/parser.rs -/
namespace PP

/-- examples/example_7_indirect_lr_num_parser/src/parser.rs: the rule functions -/
inductive Ex7 where
  | r_num
  | r_intermediate
  | r_expr
  | r_grammar
  deriving DecidableEq, Repr

namespace Ex7

/-- examples/example_7_indirect_lr_num_parser/src/parser.rs, translated closure by closure (line ranges of the functions on the right). -/
def body : Ex7 → Expr Ex7
  | .r_num => -- examples/example_7_indirect_lr_num_parser/src/parser.rs:7-16
    .matchRange 48 57
  | .r_intermediate => -- examples/example_7_indirect_lr_num_parser/src/parser.rs:18-29
    .varNameLR [.r_expr, .r_intermediate] .r_expr
  | .r_expr => -- examples/example_7_indirect_lr_num_parser/src/parser.rs:31-56
    .orderedChoice (.subexpression (.sequence (.sequence (.varNameLR [.r_expr, .r_intermediate] .r_intermediate)
    (.terminal 45)) (.varName .r_num))) (.varName .r_num)
  | .r_grammar => -- examples/example_7_indirect_lr_num_parser/src/parser.rs:58-69
    .varNameLR [.r_expr, .r_intermediate] .r_expr

/-- all rule functions -/
def all : List Ex7 :=
  [.r_num, .r_intermediate, .r_expr, .r_grammar]

theorem mem_all (r : Ex7) : r ∈ all := by cases r <;> decide

end Ex7

end PP
