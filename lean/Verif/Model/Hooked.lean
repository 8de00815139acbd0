import Verif.Model.Parsers

/-! # Parsers whose hooked calls are example 11's -/
namespace PP

/-- A parser with any rules, and the hooked call and user state of examples/example_11_external_rule_call_parser/src (hooked_calls.rs:9-40,
user_state.rs:13-22): every hooked call is `unique_line_cache`, and the user state starts as the empty set of lines. -/
def uniqueParser {R : Type} (body : R → Expr R) (start : R) : Parser R (List (List UInt8)) :=
  { body, grammar := start, hook := fun _ => uniqueLineCache, userInit := [] }

theorem ex11Parser_eq : ex11Parser = uniqueParser Ex11.body .r_grammar := rfl

end PP
