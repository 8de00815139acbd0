import Verif.Model.Parsers
import Verif.Model.Calc.Arith

/-! # Model of examples/example_3_basic_maths/src/lib.rs and examples/example_4_full_maths/src/lib.rs: evaluating arithmetic

The two files differ only in the arms for `Power_expr` and `Power`, so the functions are modelled once, with a table of arms per
example.  The `println!`s are not modelled (they repeat an operation that succeeded, or is done right after).  `checked` stands for
both overflow checks and `debug_assert!`: on in debug builds, off in release builds. -/
namespace PP
variable {R : Type}

/-- The arms of the `match` in `evaluate_tree_kernel`. -/
inductive Arm where
  | recurse | power | addition | subtraction | multiplication | division | number | unreachable

/-- The `match` of examples/example_3_basic_maths/src/lib.rs:47-83.  `OneNine` and `Digit` are inlined and have no value of the Rust
enum. -/
def ex3Arm : Ex3 → Arm
  | .r_grammar | .r_term | .r_factor | .r_expr | .r_parentheses => .recurse
  | .r_addition => .addition
  | .r_subtraction => .subtraction
  | .r_multiplication => .multiplication
  | .r_division => .division
  | .r_number => .number
  | .r_exponent | .r_fraction | .r_integer | .r_sign => .unreachable
  | .r_onenine | .r_digit => .unreachable

/-- The `match` of examples/example_4_full_maths/src/lib.rs:46-94. -/
def ex4Arm : Ex4 → Arm
  | .r_grammar | .r_parentheses | .r_term | .r_factor | .r_expr | .r_power_expr => .recurse
  | .r_power => .power
  | .r_addition => .addition
  | .r_subtraction => .subtraction
  | .r_multiplication => .multiplication
  | .r_division => .division
  | .r_number => .number
  | .r_exponent | .r_fraction | .r_integer | .r_sign => .unreachable
  | .r_onenine | .r_digit => .unreachable

/-- `/` of `i64`: truncates; panics on division by zero and on overflow in every build. -/
def i64Div (a b : Int) : Out Int :=
  if b = 0 then .panic .explicit
  else if a = -9223372036854775808 ∧ b = -1 then .panic .overflow
  else .ok (a.tdiv b)

/-- `lhs.pow(rhs as u32)`: the cast keeps the low 32 bits. -/
def i64Pow (checked : Bool) (a b : Int) : Out Int := i64Result checked (a ^ (b % 4294967296).toNat)

/-- `debug_assert!` -/
def debugAssert (checked : Bool) (c : Bool) : Out Unit := if checked && !c then .panic .debugAssert else .ok ()

/-- examples/example_4_full_maths/src/lib.rs:10-19 (example_3_basic_maths/src/lib.rs:11-20) `evaluate_binary_node`; `rec` is
`evaluate_tree_kernel`. -/
def mathsBinary (checked : Bool) (t : Publisher R) (rec : Node R → Out Int) (node : Node R) : Out (Int × Int) := do
  debugAssert checked (node.children.length = 2)
  let k ← Out.ofOption .indexOutOfBounds node.children[0]?
  let lhs ← t.getNode k
  let a ← rec lhs
  let k ← Out.ofOption .indexOutOfBounds node.children[1]?
  let rhs ← t.getNode k
  let b ← rec rhs
  .ok (a, b)

/-- examples/example_4_full_maths/src/lib.rs:21-39 (example_3_basic_maths/src/lib.rs:22-40) `evaluate_number`. -/
def mathsNumber [DecidableEq R] (number integer : R) (checked : Bool) (t : Publisher R) (src : List UInt8) (node : Node R) : Out Int := do
  debugAssert checked (node.rule = number)
  debugAssert checked (!node.children.isEmpty)
  if 1 < node.children.length then Out.panic .explicit
  let k ← Out.ofOption .indexOutOfBounds node.children[0]?
  let nd ← t.getNode k
  debugAssert checked (nd.rule = integer)
  let s ← Source.strSlice src nd.start nd.stop
  Out.ofOption .expectFailed (parseI64 s)

/-- The rules the evaluator names. -/
structure Maths (R : Type) where
  arm : R → Arm
  number : R
  integer : R

/-- examples/example_4_full_maths/src/lib.rs:44-94 (example_3_basic_maths/src/lib.rs:45-83), the body of the loop over the children. -/
def mathsChild [DecidableEq R] (M : Maths R) (checked : Bool) (t : Publisher R) (src : List UInt8) (rec : Node R → Out Int) (k : Nat) :
    Out Int := do
  let child ← t.getNode k
  match M.arm child.rule with
  | .recurse => rec child
  | .power => do
    let (a, b) ← mathsBinary checked t rec child
    i64Pow checked a b
  | .addition => do
    let (a, b) ← mathsBinary checked t rec child
    i64Result checked (a + b)
  | .subtraction => do
    let (a, b) ← mathsBinary checked t rec child
    i64Result checked (a - b)
  | .multiplication => do
    let (a, b) ← mathsBinary checked t rec child
    i64Result checked (a * b)
  | .division => do
    let (a, b) ← mathsBinary checked t rec child
    i64Div a b
  | .number => mathsNumber M.number M.integer checked t src child
  | .unreachable => .panic .explicit

/-- examples/example_4_full_maths/src/lib.rs:41-102 (example_3_basic_maths/src/lib.rs:42-91) `evaluate_tree_kernel`: the result for the
last child; panics if there is no child. -/
def mathsKernel [DecidableEq R] (M : Maths R) (checked : Bool) (t : Publisher R) (src : List UInt8) : Nat → Node R → Out Int
  | 0, _ => .oof
  | n + 1, node => do
    let res ← node.children.foldlM (fun _ k => do
      let x ← mathsChild M checked t src (mathsKernel M checked t src n) k
      Out.ok (some x)) none
    Out.ofOption .explicit res

/-- examples/example_4_full_maths/src/lib.rs:4-8 (example_3_basic_maths/src/lib.rs:5-9) `evaluate_tree`, after `clear_false` (which
`parse` includes). -/
def mathsTree [DecidableEq R] (M : Maths R) (checked : Bool) (t : Publisher R) (src : List UInt8) (n : Nat) : Out Int := do
  let nd ← t.getNode 0
  mathsKernel M checked t src n nd

def ex3Maths : Maths Ex3 := ⟨ex3Arm, .r_number, .r_integer⟩
def ex4Maths : Maths Ex4 := ⟨ex4Arm, .r_number, .r_integer⟩

/-- Parse a text and evaluate it, as the tests of examples/example_3_basic_maths/src/lib.rs:99-485 do (they first check that all is
consumed). -/
def calc3 (checked : Bool) (src : Source) (n : Nat) : Out (Bool × Nat × Int) := do
  let (b, q, t) ← parse ex3Parser src n
  let v ← mathsTree ex3Maths checked t src.bytes n
  .ok (b, q, v)

/-- Parse a text and evaluate it, as the tests of examples/example_4_full_maths/src/lib.rs:110-629 do. -/
def calc4 (checked : Bool) (src : Source) (n : Nat) : Out (Bool × Nat × Int) := do
  let (b, q, t) ← parse ex4Parser src n
  let v ← mathsTree ex4Maths checked t src.bytes n
  .ok (b, q, v)

end PP
