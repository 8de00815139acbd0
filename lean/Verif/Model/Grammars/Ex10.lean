import Verif.Model.Interp

/-! Generated by tools/translate.py from examples/example_10_basic_bench_parser/src/parser.rs -/
namespace PP

/-- examples/example_10_basic_bench_parser/src/parser.rs: the rule functions -/
inductive Ex10 where
  | r_rr
  | r_lr
  | r_grammar
  deriving DecidableEq, Repr

namespace Ex10

/-- examples/example_10_basic_bench_parser/src/parser.rs, translated closure by closure (line ranges of the functions on the right). -/
def body : Ex10 → Expr Ex10
  | .r_rr => -- examples/example_10_basic_bench_parser/src/parser.rs:7-23
    .orderedChoice (.subexpression (.sequence (.terminal 49) (.varName .r_rr))) (.terminal 49)
  | .r_lr => -- examples/example_10_basic_bench_parser/src/parser.rs:25-43
    .orderedChoice (.subexpression (.sequence (.varNameLR [.r_lr] .r_lr) (.terminal 49))) (.terminal 49)
  | .r_grammar => -- examples/example_10_basic_bench_parser/src/parser.rs:45-56
    .varName .r_rr

/-- all rule functions -/
def all : List Ex10 :=
  [.r_rr, .r_lr, .r_grammar]

theorem mem_all (r : Ex10) : r ∈ all := by cases r <;> decide

end Ex10

end PP
