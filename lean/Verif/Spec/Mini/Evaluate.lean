import Verif.Spec.Mini.Crate

/-! # Specification: a parser crate and an evaluator, executed, compute what a model computes -/
namespace PP.Mini
open PP.Gen

/-- `let (_, _, tree) = parse(text); evaluate_tree(tree, text)`, executed; `n` bounds the depth of calls and the number of rounds of each
loop. -/
def runCalc (Q : Prog) (n : Nat) (text : Bytes) : Res Val :=
  (run Q n (.fn none n!"parse") [.str text] []).bind fun v h =>
    match v with
    | .tuple [_, _, tree] => run Q n (.fn none n!"evaluate_tree") [tree, .str text] h
    | _ => .stuck

/-- The program's evaluator computes what the model says: for every text, if one of the two returns a result, the other returns the same
one; one panics iff the other does; and the execution never leaves the fragment of Rust that is described here. -/
structure Evaluates {β : Type} (Q : Prog) (model : Bytes → Nat → Out β) (enc : β → Val) : Prop where
  sound : ∀ text n v h, runCalc Q n text = .ok v h → ∃ m x, model text m = .ok x ∧ v = enc x
  complete : ∀ text m x, model text m = .ok x → ∃ N, ∀ n, N ≤ n → ∃ h, runCalc Q n text = .ok (enc x) h
  panics : ∀ text, (∃ n, runCalc Q n text = .panic) ↔ ∃ m p, model text m = .panic p
  total : ∀ text n, runCalc Q n text = .oof ∨ runCalc Q n text = .panic ∨ ∃ v h, runCalc Q n text = .ok v h

end PP.Mini
