import Verif.Spec.Mini.Crate

/-! # Specification: how `generate_parser` uses the parser of grammar files

generator/src/lib.rs:25-51: unlike `parse`, it calls the function `grammar` itself. -/
namespace PP.Mini
open PP.Gen

/-- generator/src/lib.rs:28-34 and 48, executed: `Source::new`, `BasicContext::new`, `UserState::new`, the context and the user state in cells,
the call of `grammar` with `Key(0)` at position 0; the result of the call, and the context afterwards. -/
def runGrammar (Q : Prog) (n : Nat) (text : Bytes) : Res Val :=
  match Q.const? n!"RULES_SIZE" with
  | none => .stuck
  | some k =>
    (run Q n (.fn (some n!"Source") n!"new") [.str text] []).bind fun source h =>
    (run Q n (.fn (some n!"BasicContext") n!"new") [.int text.length, .int k] h).bind fun context h =>
    let c := h.length
    (run Q n (.fn (some n!"UserState") n!"new") [] (h ++ [context])).bind fun user h =>
    let u := h.length
    (run Q n (.fn none n!"grammar") [.cell u, encKey 0, .cell c, source, .int 0] (h ++ [user])).bind fun result h =>
    match h[c]? with
    | some context => .ok (.tuple [result, context]) h
    | none => .stuck

/-- generator/src/lib.rs:50, executed after that: `tree.get_publisher().clear_false()`. -/
def runClear (Q : Prog) (n : Nat) (text : Bytes) : Res Val :=
  (runGrammar Q n text).bind fun v h =>
  match v with
  | .tuple [_, context] =>
    (run Q n (.fn (some n!"BasicContext") n!"get_publisher") [context] h).bind fun tree h =>
    run Q n (.fn (some n!"BasicPublisher") n!"clear_false") [tree] h
  | _ => .stuck

end PP.Mini
