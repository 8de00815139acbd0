import Verif.Model.Parsers
import Verif.Model.Calc.Arith

/-! # Model of examples/example_1/src/lib.rs: evaluating a sum

The `println!`s are not modelled. -/
namespace PP

/-- examples/example_1/src/lib.rs:13-29, the body of the loop over the children; `rec` is the recursive call.  The rules `OneNine` and
`Digit` are inlined and have no value of the Rust enum. -/
def calc1Child (t : Publisher Ex1) (src : List UInt8) (rec : Node Ex1 → Out Int) (k : Nat) : Out Int := do
  let child ← t.getNode k
  match child.rule with
  | .r_grammar | .r_expr | .r_addition | .r_subtraction => rec child
  | .r_integer => do
    let s ← Source.strSlice src child.start child.stop
    Out.ofOption .expectFailed (parseI64 s)
  | .r_onenine | .r_digit => .panic .explicit

/-- examples/example_1/src/lib.rs:30-47: for a subtraction the second result is negated; then all are added up. -/
def calc1Finish (checked : Bool) (rule : Ex1) (results : List Int) : Out Int := do
  let results ← match rule with
    | .r_subtraction => do
      let x ← Out.ofOption .indexOutOfBounds results[1]?
      let y ← i64Result checked (-x)
      Out.ok (results.set 1 y)
    | _ => Out.ok results
  results.foldlM (fun a x => i64Result checked (a + x)) 0

/-- examples/example_1/src/lib.rs:11-48 `evaluate_tree_kernel`.  `checked`: overflow checks (debug builds). -/
def calc1Kernel (checked : Bool) (t : Publisher Ex1) (src : List UInt8) : Nat → Node Ex1 → Out Int
  | 0, _ => .oof
  | n + 1, node => do
    let results ← node.children.mapM (calc1Child t src (calc1Kernel checked t src n))
    calc1Finish checked node.rule results

/-- examples/example_1/src/lib.rs:4-8 `evaluate_tree`, after `clear_false` (which `parse` includes). -/
def calc1Tree (checked : Bool) (t : Publisher Ex1) (src : List UInt8) (n : Nat) : Out Int := do
  let nd ← t.getNode 0
  calc1Kernel checked t src n nd

/-- Parse a text and evaluate it, as the tests of examples/example_1/src/lib.rs:57-78 do (they first check that all is consumed). -/
def calc1 (checked : Bool) (src : Source) (n : Nat) : Out (Bool × Nat × Int) := do
  let (b, q, t) ← parse ex1Parser src n
  let v ← calc1Tree checked t src.bytes n
  .ok (b, q, v)

end PP
