import Verif.Model.Context

/-! # Model of parser/src/parser_core.rs: the combinators

The Rust `_xxx` wrappers only build a closure around the `_xxx_kernel`; the closure is the partially applied kernel. -/
namespace PP
variable {R U : Type}

/-- parser/src/parser_core.rs:4-16 -/
def andPredicateKernel (func : PFn R U) : PFn R U := fun parent position st => do
  let (valid, _, st) ← func parent position st
  if !valid then .ok (false, position, st) else .ok (true, position, st)

/-- parser/src/parser_core.rs:26-38 -/
def notPredicateKernel (func : PFn R U) : PFn R U := fun parent position st => do
  let (valid, _, st) ← func parent position st
  if !valid then .ok (true, position, st) else .ok (false, position, st)

/-- The `loop` of `_zero_or_more_kernel` (parser_core.rs:203-211) and of `_one_or_more_kernel` (60-67). -/
def repeatLoop (func : PFn R U) (parent : Nat) : Nat → Nat → St R U → Out (Bool × Nat × St R U)
  | 0, _, _ => .oof
  | n + 1, temp, st => do
    let (valid, position, st) ← func parent temp st
    if !valid then .ok (true, temp, st) else repeatLoop func parent n position st

/-- parser/src/parser_core.rs:48-68 -/
def oneOrMoreKernel (fuel : Nat) (func : PFn R U) : PFn R U := fun parent position st => do
  let (valid, position', st) ← func parent position st
  if !valid then .ok (false, position, st) else repeatLoop func parent fuel position' st

/-- parser/src/parser_core.rs:78-90 -/
def optionalKernel (func : PFn R U) : PFn R U := fun parent position st => do
  let (valid, position', st) ← func parent position st
  if !valid then .ok (true, position, st) else .ok (true, position', st)

/-- parser/src/parser_core.rs:100-120 -/
def orderedChoiceKernel (lhs rhs : PFn R U) : PFn R U := fun parent position st => do
  let (valid, position', st) ← lhs parent position st
  if valid then .ok (true, position', st)
  else do
    let (valid, position', st) ← rhs parent position st
    if valid then .ok (true, position', st) else .ok (false, position, st)

/-- parser/src/parser_core.rs:131-149 -/
def sequenceKernel (lhs rhs : PFn R U) : PFn R U := fun parent position st => do
  let (lhsBool, position', st) ← lhs parent position st
  if lhsBool then do
    let (rhsBool, position', st) ← rhs parent position' st
    if rhsBool then .ok (true, position', st) else .ok (false, position, st)
  else .ok (false, position, st)

/-- parser/src/parser_core.rs:160-172 -/
def subexpressionKernel (func : PFn R U) : PFn R U := fun parent position st => do
  let (valid, position', st) ← func parent position st
  if !valid then .ok (false, position, st) else .ok (true, position', st)

/-- parser/src/parser_core.rs:182-190 -/
def terminalKernel (src : Source) (position : Nat) (chr : UInt8) : Bool × Nat :=
  if src.getChar position = some chr then (true, position + 1) else (false, position)

/-- parser/src/parser_core.rs:196-212 -/
def zeroOrMoreKernel (fuel : Nat) (func : PFn R U) : PFn R U := fun parent position st =>
  repeatLoop func parent fuel position st

/-- the loop of parser/src/parser_core.rs:224-238 from `end_position` on -/
def stringTerminalLoop (src : Source) (position : Nat) : Nat → List UInt8 → Bool × Nat
  | endPosition, [] => (true, endPosition)
  | endPosition, c :: cs =>
    match src.getChar endPosition with
    | none => (false, position)
    | some s => if c = s then stringTerminalLoop src position (endPosition + 1) cs else (false, position)

/-- parser/src/parser_core.rs:224-238 -/
def stringTerminalKernel (src : Source) (position : Nat) (data : List UInt8) : Bool × Nat :=
  stringTerminalLoop src position position data

/-- parser/src/parser_core.rs:246-263 -/
def matchRangeKernel (src : Source) (position start stop : Nat) : Bool × Nat :=
  match src.getChar position with
  | some value =>
    if value.toNat ≥ start ∧ value.toNat ≤ stop then (true, position + 1) else (false, position)
  | none => (false, position)

/-- A closure that does not touch the state, e.g. `_terminal(chr)` (parser_core.rs:192-194). -/
def liftPure (f : Nat → Bool × Nat) : PFn R U := fun _ position st =>
  .ok ((f position).1, (f position).2, st)

end PP
