/-!
# Outcomes of a model run

A Rust call either returns, panics, or (loops / recursion) does not return.  The model makes the three cases explicit.
-/
namespace PP

/-- The Rust panics that the modelled code can raise. -/
inductive Panic where
  /-- `self.nodes[usize::from(index)]` with an index that is out of range -/
  | indexOutOfBounds
  /-- `Key(len.try_into().unwrap())`: more than `u32::MAX` nodes (publisher.rs:70) -/
  | keyOverflow
  /-- `.expect(..)` / `.unwrap()` on `None` -/
  | expectFailed
  /-- `debug_assert!` (debug builds only; release builds continue) -/
  | debugAssert
  /-- slicing a `str` / byte slice out of range, with start > end, or off a char boundary -/
  | slice
  /-- arithmetic overflow in a debug build -/
  | overflow
  /-- an explicit `panic!`, `panic_any`, `todo!` -/
  | explicit
  /-- a `RefCell` borrowed while a conflicting borrow is alive -/
  | borrow
  /-- panic raised inside a user written hooked call -/
  | user
  deriving DecidableEq, Repr

/-- Result of a model run: `oof` = the fuel did not suffice. -/
inductive Out (α : Type) where
  | oof
  | panic (p : Panic)
  | ok (a : α)
  deriving DecidableEq, Repr

namespace Out

@[inline] protected def bind {α β : Type} (x : Out α) (f : α → Out β) : Out β :=
  match x with
  | .oof => .oof
  | .panic p => .panic p
  | .ok a => f a

instance : Monad Out where
  pure := .ok
  bind := Out.bind

@[simp] theorem bind_ok {α β : Type} (a : α) (f : α → Out β) : ((Out.ok a) >>= f) = f a := rfl
@[simp] theorem bind_oof {α β : Type} (f : α → Out β) : ((Out.oof) >>= f) = Out.oof := rfl
@[simp] theorem bind_panic {α β : Type} (p : Panic) (f : α → Out β) :
    ((Out.panic p) >>= f) = Out.panic p := rfl
@[simp] theorem pure_eq {α : Type} (a : α) : (pure a : Out α) = Out.ok a := rfl

theorem bind_eq_ok {α β : Type} {x : Out α} {f : α → Out β} {b : β} :
    (x >>= f) = Out.ok b ↔ ∃ a, x = Out.ok a ∧ f a = Out.ok b := by
  cases x <;> simp

/-- `x` is below `y` if `x` ran out of fuel or they are equal. -/
def le {α : Type} (x y : Out α) : Prop := x = .oof ∨ x = y

end Out

/-- Lift an `Option` whose `none` means the Rust code panics with `p`. -/
def Out.ofOption {α : Type} (p : Panic) : Option α → Out α
  | none => .panic p
  | some a => .ok a

@[simp] theorem Out.ofOption_some {α : Type} (p : Panic) (a : α) : Out.ofOption p (some a) = .ok a := rfl
@[simp] theorem Out.ofOption_none {α : Type} (p : Panic) : Out.ofOption (α := α) p none = .panic p := rfl

end PP
