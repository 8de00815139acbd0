import Verif.Model.Interp

/-! Generated by tools/translate.py from examples/example_8_indirect_lr_3_level_parser/src/parser.rs -/
namespace PP

/-- examples/example_8_indirect_lr_3_level_parser/src/parser.rs: the rule functions -/
inductive Ex8 where
  | r_num
  | r_test_lr_num
  | r_test_indirect_three_level_a
  | r_test_indirect_three_level_b
  | r_test_indirect_three_level_c
  | r_grammar
  deriving DecidableEq, Repr

namespace Ex8

/-- examples/example_8_indirect_lr_3_level_parser/src/parser.rs, translated closure by closure (line ranges of the functions on the right). -/
def body : Ex8 → Expr Ex8
  | .r_num => -- examples/example_8_indirect_lr_3_level_parser/src/parser.rs:7-16
    .matchRange 48 57
  | .r_test_lr_num => -- examples/example_8_indirect_lr_3_level_parser/src/parser.rs:18-27
    .varName .r_num
  | .r_test_indirect_three_level_a => -- examples/example_8_indirect_lr_3_level_parser/src/parser.rs:29-57
    .orderedChoice (.subexpression (.sequence (.sequence (.varNameLR [.r_test_indirect_three_level_a,
    .r_test_indirect_three_level_b, .r_test_indirect_three_level_c] .r_test_indirect_three_level_b) (.terminal
    45)) (.varName .r_test_lr_num))) (.varName .r_test_lr_num)
  | .r_test_indirect_three_level_b => -- examples/example_8_indirect_lr_3_level_parser/src/parser.rs:59-80
    .varNameLR [.r_test_indirect_three_level_a, .r_test_indirect_three_level_b, .r_test_indirect_three_level_c]
    .r_test_indirect_three_level_c
  | .r_test_indirect_three_level_c => -- examples/example_8_indirect_lr_3_level_parser/src/parser.rs:82-103
    .varNameLR [.r_test_indirect_three_level_a, .r_test_indirect_three_level_b, .r_test_indirect_three_level_c]
    .r_test_indirect_three_level_a
  | .r_grammar => -- examples/example_8_indirect_lr_3_level_parser/src/parser.rs:105-126
    .varNameLR [.r_test_indirect_three_level_a, .r_test_indirect_three_level_b, .r_test_indirect_three_level_c]
    .r_test_indirect_three_level_a

/-- all rule functions -/
def all : List Ex8 :=
  [.r_num, .r_test_lr_num, .r_test_indirect_three_level_a, .r_test_indirect_three_level_b,
  .r_test_indirect_three_level_c, .r_grammar]

theorem mem_all (r : Ex8) : r ∈ all := by cases r <;> decide

end Ex8

end PP
