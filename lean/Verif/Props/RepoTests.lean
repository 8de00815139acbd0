import Verif.Model.Parsers
import Verif.Model.Hooked
import Verif.Model.Calc.Calc1
import Verif.Model.Calc.Ab
import Verif.Model.Calc.Maths

/-! # The repository's own tests, in the model

Not properties, but a check of the model against what the developers observed of the code: for every test of the examples that parses a given text
(and evaluates the tree, or compares it with an expected one), the model gives the result the test asserts.  The name of the test stands before each line.  Left out: `test_16` of
examples 3 and 4 (the kernel takes half a minute for each; they hold too) and the tests of parser/tests that read files (C68 and C75 treat these files). -/
namespace PP

/-- A test: a call of `_var_name` or `_var_name_indirect_left_recursion` with `Key(0)` at position 0 on a fresh context, the assertion on the truth
value and the position, and what the test does with the tree of nodes. -/
def runsTest {R U : Type} [DecidableEq R] (P : Parser R U) (e : Expr R) (text : String) (b : Bool) (q : Nat) (check : Publisher R → List UInt8 → Bool) : Bool :=
  match eval P ⟨bytesOf text⟩ 300 e 0 0 (St.new P.grammar P.userInit) with
  | .ok (b', q', st) => b == b' && q == q' && check st.pub (bytesOf text)
  | _ => false

/-- Nothing more is asserted. -/
def noCheck {R : Type} : Publisher R → List UInt8 → Bool := fun _ _ => true

/-- `assert_eq!(evaluate_tree(publisher, &string), v)`; `evaluate_tree` begins with `clear_false`. -/
def evaluatesTo {R α : Type} [BEq α] (grammar : R) (evaluate : Publisher R → List UInt8 → Nat → Out α) (v : α) : Publisher R → List UInt8 → Bool :=
  fun t src => match t.clearFalse grammar 300 with
    | .ok t => (match evaluate t src 300 with | .ok x => x == v | _ => false)
    | _ => false

/-- `assert_eq!(expected_tree, result_tree)`, the expected tree made by `add_node` and `connect`. -/
def treeIs {R : Type} [DecidableEq R] (grammar : R) (steps : List (R × Nat × Nat × Nat)) : Publisher R → List UInt8 → Bool := fun t _ =>
  let expected := steps.foldlM (fun p (x : R × Nat × Nat × Nat) => do
    let (k, p) ← Publisher.addNode p x.1 x.2.1 x.2.2.1 true
    p.connect x.2.2.2 k) (Publisher.new grammar)
  match expected with
  | .ok p => (match Publisher.eq 300 p t with | .ok b => b | _ => false)
  | _ => false


/-! ## examples/example_1/src/lib.rs -/
-- test_1
example : runsTest ex1Parser (.varName .r_grammar) "20+10" true 5 (evaluatesTo .r_grammar (calc1Tree true) (30)) = true := by decide +kernel
-- test_2
example : runsTest ex1Parser (.varName .r_grammar) "20-10" true 5 (evaluatesTo .r_grammar (calc1Tree true) (10)) = true := by decide +kernel
-- test_3
example : runsTest ex1Parser (.varName .r_grammar) "20+10+20" true 8 (evaluatesTo .r_grammar (calc1Tree true) (50)) = true := by decide +kernel
-- test_4
example : runsTest ex1Parser (.varName .r_grammar) "7+5-3" true 5 (evaluatesTo .r_grammar (calc1Tree true) (9)) = true := by decide +kernel

/-! ## examples/example_2/src/lib.rs -/
-- test_1
example : runsTest ex2Parser (.varName .r_grammar) "ababababa" true 9 (evaluatesTo .r_grammar (fun t _ n => abTree t n) (bytesOf "ababababa")) = true := by decide +kernel
-- test_2
example : runsTest ex2Parser (.varName .r_grammar) "babababababa" false 0 noCheck = true := by decide +kernel
-- test_3
example : runsTest ex2Parser (.varName .r_grammar) "bababababab" false 0 noCheck = true := by decide +kernel
-- test_4
example : runsTest ex2Parser (.varName .r_grammar) "aba" true 3 (evaluatesTo .r_grammar (fun t _ n => abTree t n) (bytesOf "aba")) = true := by decide +kernel
-- test_5
example : runsTest ex2Parser (.varName .r_grammar) "a" true 1 (evaluatesTo .r_grammar (fun t _ n => abTree t n) (bytesOf "a")) = true := by decide +kernel
-- test_6
example : runsTest ex2Parser (.varName .r_grammar) "b" false 0 noCheck = true := by decide +kernel

/-! ## examples/example_3_basic_maths/src/lib.rs -/
-- test_1
example : runsTest ex3Parser (.varName .r_grammar) "20+10" true 5 (evaluatesTo .r_grammar (mathsTree ex3Maths true) (30)) = true := by decide +kernel
-- test_2
example : runsTest ex3Parser (.varName .r_grammar) "20-10" true 5 (evaluatesTo .r_grammar (mathsTree ex3Maths true) (10)) = true := by decide +kernel
-- test_3
example : runsTest ex3Parser (.varName .r_grammar) "20+10+20" true 8 (evaluatesTo .r_grammar (mathsTree ex3Maths true) (50)) = true := by decide +kernel
-- test_4
example : runsTest ex3Parser (.varName .r_grammar) "7+5-3" true 5 (evaluatesTo .r_grammar (mathsTree ex3Maths true) (9)) = true := by decide +kernel
-- test_5
example : runsTest ex3Parser (.varName .r_grammar) "7/5+3" true 5 (evaluatesTo .r_grammar (mathsTree ex3Maths true) (4)) = true := by decide +kernel
-- test_6
example : runsTest ex3Parser (.varName .r_grammar) "7+5/3" true 5 (evaluatesTo .r_grammar (mathsTree ex3Maths true) (8)) = true := by decide +kernel
-- test_7
example : runsTest ex3Parser (.varName .r_grammar) "7/5-3" true 5 (evaluatesTo .r_grammar (mathsTree ex3Maths true) (-2)) = true := by decide +kernel
-- test_8
example : runsTest ex3Parser (.varName .r_grammar) "7-5/3" true 5 (evaluatesTo .r_grammar (mathsTree ex3Maths true) (6)) = true := by decide +kernel
-- test_9
example : runsTest ex3Parser (.varName .r_grammar) "20+10+20+40" true 11 (evaluatesTo .r_grammar (mathsTree ex3Maths true) (90)) = true := by decide +kernel
-- test_10
example : runsTest ex3Parser (.varName .r_grammar) "7+5-3-60" true 8 (evaluatesTo .r_grammar (mathsTree ex3Maths true) (-51)) = true := by decide +kernel
-- test_11
example : runsTest ex3Parser (.varName .r_grammar) "7/5+3-20" true 8 (evaluatesTo .r_grammar (mathsTree ex3Maths true) (-16)) = true := by decide +kernel
-- test_12
example : runsTest ex3Parser (.varName .r_grammar) "7+5/3+40" true 8 (evaluatesTo .r_grammar (mathsTree ex3Maths true) (48)) = true := by decide +kernel
-- test_13
example : runsTest ex3Parser (.varName .r_grammar) "7/5-3+15" true 8 (evaluatesTo .r_grammar (mathsTree ex3Maths true) (13)) = true := by decide +kernel
-- test_14
example : runsTest ex3Parser (.varName .r_grammar) "7-5/3*4" true 7 (evaluatesTo .r_grammar (mathsTree ex3Maths true) (3)) = true := by decide +kernel
-- test_15
example : runsTest ex3Parser (.varName .r_grammar) "(7-5)/(3*4)" true 11 (evaluatesTo .r_grammar (mathsTree ex3Maths true) (0)) = true := by decide +kernel
-- test_17
example : runsTest ex3Parser (.varName .r_grammar) "1*2/3*7/9" true 9 (evaluatesTo .r_grammar (mathsTree ex3Maths true) (0)) = true := by decide +kernel

/-! ## examples/example_3_basic_maths/src/test_number.rs -/
-- test_1
example : runsTest ex3Parser (.varName .r_number) "20" true 2 (evaluatesTo .r_grammar (mathsTree ex3Maths true) (20)) = true := by decide +kernel

/-! ## examples/example_4_full_maths/src/lib.rs -/
-- test_1
example : runsTest ex4Parser (.varName .r_grammar) "20+10" true 5 (evaluatesTo .r_grammar (mathsTree ex4Maths true) (30)) = true := by decide +kernel
-- test_2
example : runsTest ex4Parser (.varName .r_grammar) "20-10" true 5 (evaluatesTo .r_grammar (mathsTree ex4Maths true) (10)) = true := by decide +kernel
-- test_3
example : runsTest ex4Parser (.varName .r_grammar) "20+10+20" true 8 (evaluatesTo .r_grammar (mathsTree ex4Maths true) (50)) = true := by decide +kernel
-- test_4
example : runsTest ex4Parser (.varName .r_grammar) "7+5-3" true 5 (evaluatesTo .r_grammar (mathsTree ex4Maths true) (9)) = true := by decide +kernel
-- test_5
example : runsTest ex4Parser (.varName .r_grammar) "7/5+3" true 5 (evaluatesTo .r_grammar (mathsTree ex4Maths true) (4)) = true := by decide +kernel
-- test_6
example : runsTest ex4Parser (.varName .r_grammar) "7+5/3" true 5 (evaluatesTo .r_grammar (mathsTree ex4Maths true) (8)) = true := by decide +kernel
-- test_7
example : runsTest ex4Parser (.varName .r_grammar) "7/5-3" true 5 (evaluatesTo .r_grammar (mathsTree ex4Maths true) (-2)) = true := by decide +kernel
-- test_8
example : runsTest ex4Parser (.varName .r_grammar) "7-5/3" true 5 (evaluatesTo .r_grammar (mathsTree ex4Maths true) (6)) = true := by decide +kernel
-- test_9
example : runsTest ex4Parser (.varName .r_grammar) "20+10+20+40" true 11 (evaluatesTo .r_grammar (mathsTree ex4Maths true) (90)) = true := by decide +kernel
-- test_10
example : runsTest ex4Parser (.varName .r_grammar) "7+5-3-60" true 8 (evaluatesTo .r_grammar (mathsTree ex4Maths true) (-51)) = true := by decide +kernel
-- test_11
example : runsTest ex4Parser (.varName .r_grammar) "7/5+3-20" true 8 (evaluatesTo .r_grammar (mathsTree ex4Maths true) (-16)) = true := by decide +kernel
-- test_12
example : runsTest ex4Parser (.varName .r_grammar) "7+5/3+40" true 8 (evaluatesTo .r_grammar (mathsTree ex4Maths true) (48)) = true := by decide +kernel
-- test_13
example : runsTest ex4Parser (.varName .r_grammar) "7/5-3+15" true 8 (evaluatesTo .r_grammar (mathsTree ex4Maths true) (13)) = true := by decide +kernel
-- test_14
example : runsTest ex4Parser (.varName .r_grammar) "7-5/3*4" true 7 (evaluatesTo .r_grammar (mathsTree ex4Maths true) (3)) = true := by decide +kernel
-- test_15
example : runsTest ex4Parser (.varName .r_grammar) "(7-5)/(3*4)" true 11 (evaluatesTo .r_grammar (mathsTree ex4Maths true) (0)) = true := by decide +kernel
-- test_17
example : runsTest ex4Parser (.varName .r_grammar) "7^5" true 3 (evaluatesTo .r_grammar (mathsTree ex4Maths true) (16807)) = true := by decide +kernel
-- test_18
example : runsTest ex4Parser (.varName .r_grammar) "7+4^5" true 5 (evaluatesTo .r_grammar (mathsTree ex4Maths true) (1031)) = true := by decide +kernel
-- test_19
example : runsTest ex4Parser (.varName .r_grammar) "7^5+4" true 5 (evaluatesTo .r_grammar (mathsTree ex4Maths true) (16811)) = true := by decide +kernel
-- test_20
example : runsTest ex4Parser (.varName .r_grammar) "7^(5+4)" true 7 (evaluatesTo .r_grammar (mathsTree ex4Maths true) (40353607)) = true := by decide +kernel
-- test_21
example : runsTest ex4Parser (.varName .r_grammar) "(7/5)^4" true 7 (evaluatesTo .r_grammar (mathsTree ex4Maths true) (1)) = true := by decide +kernel
-- test_22
example : runsTest ex4Parser (.varName .r_term) "20/10" true 5 (evaluatesTo .r_grammar (mathsTree ex4Maths true) (2)) = true := by decide +kernel
-- test_29
example : runsTest ex4Parser (.varName .r_expr) "20-10" true 5 (evaluatesTo .r_grammar (mathsTree ex4Maths true) (10)) = true := by decide +kernel

/-! ## examples/example_4_full_maths/src/test_number.rs -/
-- test_1
example : runsTest ex4Parser (.varName .r_number) "20" true 2 (evaluatesTo .r_grammar (mathsTree ex4Maths true) (20)) = true := by decide +kernel

/-! ## examples/example_5_lr_num/src/lib.rs -/
-- test_left_recursion_direct_1
example : runsTest ex5Parser (.varNameLR [.r_expr] .r_expr) "1-2-3-7-9-1   " true 11 (treeIs .r_grammar [(.r_expr, 0, 11, 0), (.r_expr, 0, 9, 1), (.r_expr, 0, 7, 2), (.r_expr, 0, 5, 3), (.r_expr, 0, 3, 4), (.r_expr, 0, 1, 5), (.r_num, 0, 1, 6), (.r_num, 2, 3, 5), (.r_num, 4, 5, 4), (.r_num, 6, 7, 3), (.r_num, 8, 9, 2), (.r_num, 10, 11, 1)]) = true := by decide +kernel
-- test_left_recursion_direct_2
example : runsTest ex5Parser (.varNameLR [.r_expr] .r_expr) "1-2   " true 3 (treeIs .r_grammar [(.r_expr, 0, 3, 0), (.r_expr, 0, 1, 1), (.r_num, 0, 1, 2), (.r_num, 2, 3, 1)]) = true := by decide +kernel

/-! ## examples/example_6_term_and_fact/src/lib.rs -/
-- test_left_recursion_direct_3
example : runsTest ex6Parser (.varNameLR [.r_fact] .r_fact) "1*2/3*7/9   " true 9 (treeIs .r_grammar [(.r_fact, 0, 9, 0), (.r_fact, 0, 7, 1), (.r_fact, 0, 5, 2), (.r_fact, 0, 3, 3), (.r_fact, 0, 1, 4), (.r_num, 0, 1, 5), (.r_num, 2, 3, 4), (.r_num, 4, 5, 3), (.r_num, 6, 7, 2), (.r_num, 8, 9, 1)]) = true := by decide +kernel
-- test_left_recursion_direct_6
example : runsTest ex6Parser (.varNameLR [.r_term] .r_term) "1+2/3+4/5   " true 9 (treeIs .r_grammar [(.r_term, 0, 9, 0), (.r_term, 0, 5, 1), (.r_term, 0, 1, 2), (.r_fact, 0, 1, 3), (.r_num, 0, 1, 4), (.r_fact, 2, 5, 2), (.r_fact, 2, 3, 6), (.r_num, 2, 3, 7), (.r_num, 4, 5, 6), (.r_fact, 6, 9, 1), (.r_fact, 6, 7, 10), (.r_num, 6, 7, 11), (.r_num, 8, 9, 10)]) = true := by decide +kernel

/-! ## examples/example_7_indirect_lr_num/src/lib.rs -/
-- test_left_recursion_1
example : runsTest ex7Parser (.varNameLR [.r_expr, .r_intermediate] .r_expr) "1-2-3-7-9-1   " true 11 (treeIs .r_grammar [(.r_expr, 0, 11, 0), (.r_intermediate, 0, 9, 1), (.r_expr, 0, 9, 2), (.r_intermediate, 0, 7, 3), (.r_expr, 0, 7, 4), (.r_intermediate, 0, 5, 5), (.r_expr, 0, 5, 6), (.r_intermediate, 0, 3, 7), (.r_expr, 0, 3, 8), (.r_intermediate, 0, 1, 9), (.r_expr, 0, 1, 10), (.r_num, 0, 1, 11), (.r_num, 2, 3, 9), (.r_num, 4, 5, 7), (.r_num, 6, 7, 5), (.r_num, 8, 9, 3), (.r_num, 10, 11, 1)]) = true := by decide +kernel
-- test_left_recursion_2
example : runsTest ex7Parser (.varNameLR [.r_expr, .r_intermediate] .r_expr) "1-2   " true 3 (treeIs .r_grammar [(.r_expr, 0, 3, 0), (.r_intermediate, 0, 1, 1), (.r_expr, 0, 1, 2), (.r_num, 0, 1, 3), (.r_num, 2, 3, 1)]) = true := by decide +kernel

/-! ## examples/example_8_indirect_lr_3_level/src/lib.rs -/
-- test_left_recursion_1
example : runsTest ex8Parser (.varName .r_grammar) "1-2-3-7-9-1   " true 11 noCheck = true := by decide +kernel
-- test_left_recursion_2
example : runsTest ex8Parser (.varName .r_grammar) "1-2   " true 3 noCheck = true := by decide +kernel

/-! ## examples/example_9_indirect_lr_5_level/src/lib.rs -/
-- test_left_recursion_1
example : runsTest ex9Parser (.varName .r_grammar) "1-2-3-7-9-1   " true 11 noCheck = true := by decide +kernel
-- test_left_recursion_2
example : runsTest ex9Parser (.varName .r_grammar) "1-2   " true 3 noCheck = true := by decide +kernel

/-! ## examples/example_10_basic_bench/src/lib.rs -/
-- test_rr_1
example : runsTest ex10Parser (.varName .r_rr) "1" true 1 noCheck = true := by decide +kernel
-- test_rr_2
example : runsTest ex10Parser (.varName .r_rr) "1111111" true 7 noCheck = true := by decide +kernel
-- test_lr_1
example : runsTest ex10Parser (.varNameLR [.r_lr] .r_lr) "1" true 1 noCheck = true := by decide +kernel
-- test_lr_2
example : runsTest ex10Parser (.varNameLR [.r_lr] .r_lr) "1111111" true 7 noCheck = true := by decide +kernel

/-! ## examples/example_11_external_rule_call_parser/tests/test.rs -/
-- test_example11
example : runsTest ex11Parser (.varName .r_grammar) "hello world\n" true 12 noCheck = true := by decide +kernel
-- test_example11_multiline
example : runsTest ex11Parser (.varName .r_grammar) "hello world\nhello there\nhello world\n" true 24 noCheck = true := by decide +kernel

/-! ## parser/tests/tests_parser_basic.rs -/
-- test_ppparser_dsl_grammar_rule
example : runsTest dslParser (.varName .r_grammar) "<Spaces> = '\n'/'\t'/'\r'/' ';" true 27 noCheck = true := by decide +kernel
-- test_square_braces
example : runsTest dslParser (.varName .r_grammar) "<Spaces> = ['A'..'Z'];" true 22 noCheck = true := by decide +kernel
-- test_square_braces_in_mixed
example : runsTest dslParser (.varName .r_grammar) "<Spaces> = (['A'..'Z'], 'Z');" true 29 noCheck = true := by decide +kernel
-- test_external_rule_call
example : runsTest dslParser (.varName .r_grammar) "<Spaces> = external_rule_call(['A'..'Z'], 'Z');" true 47 noCheck = true := by decide +kernel

end PP
