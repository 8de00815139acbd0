import Verif.Model.Grammars.Dsl
import Verif.Model.Grammars.Ex1
import Verif.Model.Grammars.Ex2
import Verif.Model.Grammars.Ex3
import Verif.Model.Grammars.Ex4
import Verif.Model.Grammars.Ex5
import Verif.Model.Grammars.Ex6
import Verif.Model.Grammars.Ex7
import Verif.Model.Grammars.Ex8
import Verif.Model.Grammars.Ex9
import Verif.Model.Grammars.Ex10
import Verif.Model.Grammars.Ex11

/-! # The parsers of the repository, assembled from their translated rule bodies -/
namespace PP

/-- A parser without hooked calls and with the default (empty) user state: parser/src/user_state.rs:1-19,
parser/src/hooked_calls.rs (empty).  `hook` is never consulted by a grammar that has no `.hooked`. -/
def Parser.plain {R : Type} (body : R → Expr R) (grammar : R) : Parser R Unit :=
  { body := body, grammar := grammar, hook := fun _ _ pos u => .ret u false pos, userInit := () }

/-- parser/src/ (the DSL parser itself; `Rules::Grammar` of parser/src/rules.rs) -/
def dslParser : Parser Dsl Unit := .plain Dsl.body .r_grammar
/-- examples/example_1_parser/src -/
def ex1Parser : Parser Ex1 Unit := .plain Ex1.body .r_grammar
/-- examples/example_2_parser/src -/
def ex2Parser : Parser Ex2 Unit := .plain Ex2.body .r_grammar
/-- examples/example_3_basic_maths_parser/src -/
def ex3Parser : Parser Ex3 Unit := .plain Ex3.body .r_grammar
/-- examples/example_4_full_maths_parser/src -/
def ex4Parser : Parser Ex4 Unit := .plain Ex4.body .r_grammar
/-- examples/example_5_lr_num_parser/src -/
def ex5Parser : Parser Ex5 Unit := .plain Ex5.body .r_grammar
/-- examples/example_6_term_and_fact_parser/src -/
def ex6Parser : Parser Ex6 Unit := .plain Ex6.body .r_grammar
/-- examples/example_7_indirect_lr_num_parser/src -/
def ex7Parser : Parser Ex7 Unit := .plain Ex7.body .r_grammar
/-- examples/example_8_indirect_lr_3_level_parser/src -/
def ex8Parser : Parser Ex8 Unit := .plain Ex8.body .r_grammar
/-- examples/example_9_indirect_lr_5_level_parser/src -/
def ex9Parser : Parser Ex9 Unit := .plain Ex9.body .r_grammar
/-- examples/example_10_basic_bench_parser/src -/
def ex10Parser : Parser Ex10 Unit := .plain Ex10.body .r_grammar

/-- The part of `unique_line_cache` after the wrapped closure returned `(b, q)`:
examples/example_11_external_rule_call_parser/src/hooked_calls.rs:20-39.  On success slice the matched text
(`get_string(..).expect(..)`, which panics on `None` and at a bad slice) and `HashSet::insert` it: if it was already there,
fail at the start position.  The `HashSet<String>` is a list of byte strings (only insertion and membership are used); the
`println!`s are not modelled. -/
def uniqueLineAfter (src : Source) (pos : Nat) (u : List (List UInt8)) (b : Bool) (q : Nat) :
    HookProg (List (List UInt8)) :=
  if b then
    match src.getString pos q with
    | .ok (some l) => if l ∈ u then .ret u false pos else .ret (l :: u) true q
    | _ => .panic
  else .ret u b q

/-- examples/example_11_external_rule_call_parser/src/hooked_calls.rs:9-40 `unique_line_cache`: run the wrapped closure at
the same position, then `uniqueLineAfter`. -/
def uniqueLineCache (src : Source) (pos : Nat) (u : List (List UInt8)) : HookProg (List (List UInt8)) :=
  .call u pos (uniqueLineAfter src pos)

/-- examples/example_11_external_rule_call_parser/src, with the initial user state of user_state.rs:13-22 (an empty set). -/
def ex11Parser : Parser Ex11 (List (List UInt8)) :=
  { body := Ex11.body, grammar := .r_grammar, hook := fun _ => uniqueLineCache, userInit := [] }

/-- The bytes of an (ASCII) string literal, for examples. -/
def bytesOf (s : String) : List UInt8 := s.toList.map fun c => UInt8.ofNat c.toNat

end PP
