import Verif.Model.Parsers

/-! # Model of examples/example_2/src/lib.rs: writing the tree of an alternating word out again

The `println!` is not modelled.  A `String` is its list of bytes. -/
namespace PP

/-- examples/example_2/src/lib.rs:13-30, the body of the loop over the children; `rec` is the recursive call. -/
def abChild (t : Publisher Ex2) (rec : Node Ex2 → Out (List UInt8)) (k : Nat) : Out (List UInt8) := do
  let child ← t.getNode k
  let result ← rec child
  match child.rule with
  | .r_grammar => .ok result
  | .r_a => .ok (result ++ [97])
  | .r_b => .ok (result ++ [98])

/-- examples/example_2/src/lib.rs:10-33 `evaluate_tree_kernel`. -/
def abKernel (t : Publisher Ex2) : Nat → Node Ex2 → Out (List UInt8)
  | 0, _ => .oof
  | n + 1, node => node.children.foldlM (fun results k => do
      let r ← abChild t (abKernel t n) k
      .ok (results ++ r)) []

/-- examples/example_2/src/lib.rs:3-7 `evaluate_tree`, after `clear_false` (which `parse` includes). -/
def abTree (t : Publisher Ex2) (n : Nat) : Out (List UInt8) := do
  let nd ← t.getNode 0
  abKernel t n nd

end PP
