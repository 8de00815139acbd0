import Verif.Model.Interp

/-! Generated by tools/translate.py from examples/example_9_indirect_lr_5_level_parser/src/parser.rs -/
namespace PP

/-- examples/example_9_indirect_lr_5_level_parser/src/parser.rs: the rule functions -/
inductive Ex9 where
  | r_num
  | r_test_lr_num
  | r_test_indirect_three_level_a
  | r_test_indirect_three_level_b
  | r_test_indirect_three_level_c
  | r_test_indirect_three_level_d
  | r_test_indirect_three_level_e
  | r_grammar
  deriving DecidableEq, Repr

namespace Ex9

/-- examples/example_9_indirect_lr_5_level_parser/src/parser.rs, translated closure by closure (line ranges of the functions on the right). -/
def body : Ex9 → Expr Ex9
  | .r_num => -- examples/example_9_indirect_lr_5_level_parser/src/parser.rs:7-16
    .matchRange 48 57
  | .r_test_lr_num => -- examples/example_9_indirect_lr_5_level_parser/src/parser.rs:18-27
    .varName .r_num
  | .r_test_indirect_three_level_a => -- examples/example_9_indirect_lr_5_level_parser/src/parser.rs:29-59
    .orderedChoice (.subexpression (.sequence (.sequence (.varNameLR [.r_test_indirect_three_level_a,
    .r_test_indirect_three_level_b, .r_test_indirect_three_level_c, .r_test_indirect_three_level_d,
    .r_test_indirect_three_level_e] .r_test_indirect_three_level_b) (.terminal 45)) (.varName .r_test_lr_num)))
    (.varName .r_test_lr_num)
  | .r_test_indirect_three_level_b => -- examples/example_9_indirect_lr_5_level_parser/src/parser.rs:61-84
    .varNameLR [.r_test_indirect_three_level_a, .r_test_indirect_three_level_b, .r_test_indirect_three_level_c,
    .r_test_indirect_three_level_d, .r_test_indirect_three_level_e] .r_test_indirect_three_level_c
  | .r_test_indirect_three_level_c => -- examples/example_9_indirect_lr_5_level_parser/src/parser.rs:86-109
    .varNameLR [.r_test_indirect_three_level_a, .r_test_indirect_three_level_b, .r_test_indirect_three_level_c,
    .r_test_indirect_three_level_d, .r_test_indirect_three_level_e] .r_test_indirect_three_level_d
  | .r_test_indirect_three_level_d => -- examples/example_9_indirect_lr_5_level_parser/src/parser.rs:111-134
    .varNameLR [.r_test_indirect_three_level_a, .r_test_indirect_three_level_b, .r_test_indirect_three_level_c,
    .r_test_indirect_three_level_d, .r_test_indirect_three_level_e] .r_test_indirect_three_level_e
  | .r_test_indirect_three_level_e => -- examples/example_9_indirect_lr_5_level_parser/src/parser.rs:136-159
    .varNameLR [.r_test_indirect_three_level_a, .r_test_indirect_three_level_b, .r_test_indirect_three_level_c,
    .r_test_indirect_three_level_d, .r_test_indirect_three_level_e] .r_test_indirect_three_level_a
  | .r_grammar => -- examples/example_9_indirect_lr_5_level_parser/src/parser.rs:161-184
    .varNameLR [.r_test_indirect_three_level_a, .r_test_indirect_three_level_b, .r_test_indirect_three_level_c,
    .r_test_indirect_three_level_d, .r_test_indirect_three_level_e] .r_test_indirect_three_level_a

/-- all rule functions -/
def all : List Ex9 :=
  [.r_num, .r_test_lr_num, .r_test_indirect_three_level_a, .r_test_indirect_three_level_b,
  .r_test_indirect_three_level_c, .r_test_indirect_three_level_d, .r_test_indirect_three_level_e, .r_grammar]

theorem mem_all (r : Ex9) : r ∈ all := by cases r <;> decide

end Ex9

end PP
