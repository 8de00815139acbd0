import Verif.Model.Interp

/-! Generated by tools/translate.py from examples/example_3_basic_maths_parser/src/parser.rs -/
namespace PP

/-- examples/example_3_basic_maths_parser/src/parser.rs: the rule functions -/
inductive Ex3 where
  | r_onenine
  | r_digit
  | r_integer
  | r_number
  | r_fraction
  | r_exponent
  | r_sign
  | r_addition
  | r_subtraction
  | r_multiplication
  | r_division
  | r_parentheses
  | r_expr
  | r_term
  | r_factor
  | r_grammar
  deriving DecidableEq, Repr

namespace Ex3

/-- examples/example_3_basic_maths_parser/src/parser.rs, translated closure by closure (line ranges of the functions on the right). -/
def body : Ex3 → Expr Ex3
  | .r_onenine => -- examples/example_3_basic_maths_parser/src/parser.rs:7-16
    .matchRange 49 57
  | .r_digit => -- examples/example_3_basic_maths_parser/src/parser.rs:18-27
    .matchRange 48 57
  | .r_integer => -- examples/example_3_basic_maths_parser/src/parser.rs:29-53
    .sequence (.varName .r_sign) (.subexpression (.orderedChoice (.subexpression (.sequence (.inlined .r_onenine)
    (.oneOrMore (.inlined .r_digit)))) (.inlined .r_digit)))
  | .r_number => -- examples/example_3_basic_maths_parser/src/parser.rs:55-70
    .sequence (.sequence (.varName .r_integer) (.optional (.varName .r_fraction))) (.optional (.varName
    .r_exponent))
  | .r_fraction => -- examples/example_3_basic_maths_parser/src/parser.rs:72-87
    .subexpression (.sequence (.terminal 46) (.oneOrMore (.inlined .r_digit)))
  | .r_exponent => -- examples/example_3_basic_maths_parser/src/parser.rs:89-109
    .subexpression (.sequence (.sequence (.subexpression (.orderedChoice (.terminal 69) (.terminal 101)))
    (.varName .r_sign)) (.oneOrMore (.inlined .r_digit)))
  | .r_sign => -- examples/example_3_basic_maths_parser/src/parser.rs:111-124
    .optional (.subexpression (.orderedChoice (.terminal 43) (.terminal 45)))
  | .r_addition => -- examples/example_3_basic_maths_parser/src/parser.rs:126-143
    .sequence (.sequence (.varNameLR [.r_addition, .r_expr, .r_subtraction] .r_expr) (.terminal 43)) (.varNameLR
    [.r_division, .r_multiplication, .r_term] .r_term)
  | .r_subtraction => -- examples/example_3_basic_maths_parser/src/parser.rs:145-162
    .sequence (.sequence (.varNameLR [.r_addition, .r_expr, .r_subtraction] .r_expr) (.terminal 45)) (.varNameLR
    [.r_division, .r_multiplication, .r_term] .r_term)
  | .r_multiplication => -- examples/example_3_basic_maths_parser/src/parser.rs:164-179
    .sequence (.sequence (.varNameLR [.r_division, .r_multiplication, .r_term] .r_term) (.terminal 42)) (.varName
    .r_factor)
  | .r_division => -- examples/example_3_basic_maths_parser/src/parser.rs:181-196
    .sequence (.sequence (.varNameLR [.r_division, .r_multiplication, .r_term] .r_term) (.terminal 47)) (.varName
    .r_factor)
  | .r_parentheses => -- examples/example_3_basic_maths_parser/src/parser.rs:198-213
    .sequence (.sequence (.terminal 40) (.varNameLR [.r_addition, .r_expr, .r_subtraction] .r_expr)) (.terminal
    41)
  | .r_expr => -- examples/example_3_basic_maths_parser/src/parser.rs:215-244
    .orderedChoice (.orderedChoice (.varNameLR [.r_addition, .r_expr, .r_subtraction] .r_addition) (.varNameLR
    [.r_addition, .r_expr, .r_subtraction] .r_subtraction)) (.varNameLR [.r_division, .r_multiplication, .r_term]
    .r_term)
  | .r_term => -- examples/example_3_basic_maths_parser/src/parser.rs:246-273
    .orderedChoice (.orderedChoice (.varNameLR [.r_division, .r_multiplication, .r_term] .r_multiplication)
    (.varNameLR [.r_division, .r_multiplication, .r_term] .r_division)) (.varName .r_factor)
  | .r_factor => -- examples/example_3_basic_maths_parser/src/parser.rs:275-286
    .orderedChoice (.varName .r_parentheses) (.varName .r_number)
  | .r_grammar => -- examples/example_3_basic_maths_parser/src/parser.rs:288-299
    .varNameLR [.r_addition, .r_expr, .r_subtraction] .r_expr

/-- all rule functions -/
def all : List Ex3 :=
  [.r_onenine, .r_digit, .r_integer, .r_number, .r_fraction, .r_exponent, .r_sign, .r_addition, .r_subtraction,
  .r_multiplication, .r_division, .r_parentheses, .r_expr, .r_term, .r_factor, .r_grammar]

theorem mem_all (r : Ex3) : r ∈ all := by cases r <;> decide

end Ex3

end PP
