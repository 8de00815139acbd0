import Verif.Model.Cache

/-! # Specification: the memo table and the left-recursion heads as functions of the history of operations

A history is the list of operations performed so far, latest first. -/
namespace PP
variable {R : Type} [DecidableEq R]

/-- The writing operations of the cache API. -/
inductive CacheOp (R : Type) where
  | insert (rule : R) (isTrue : Bool) (start stop key : Nat)
  | setHead (start : Nat) (rule : R) (involved : List R)
  | reinitialize (rule : R) (start : Nat)
  | remove (head : R × Nat) (rule : R)
  | setActive (a : Option (R × Nat))

/-- Run one operation. -/
def CacheOp.run (c : Cache R) : CacheOp R → Out (Cache R)
  | .insert r b p q k => .ok (c.insert r b p q k)
  | .setHead p r inv => .ok (c.setHead p r inv)
  | .reinitialize r p => c.reinitializeEvalSet r p
  | .remove h r => c.removeFromEvalSet h r
  | .setActive a => .ok (c.setActive a)

/-- The cache after a history (latest operation first), starting from a new cache. -/
def Cache.after : List (CacheOp R) → Out (Cache R)
  | [] => .ok .new
  | op :: ops => do
    let c ← Cache.after ops
    op.run c

/-- The value most recently inserted for `(rule, start)`. -/
def lastInserted (rule : R) (start : Nat) : List (CacheOp R) → Option (Bool × Nat × Nat)
  | [] => none
  | .insert r b p q k :: ops => if r = rule ∧ p = start then some (b, q, k) else lastInserted rule start ops
  | _ :: ops => lastInserted rule start ops

/-- The involved set most recently given to the head `(rule, start)`. -/
def lastInvolved (rule : R) (start : Nat) : List (CacheOp R) → Option (List R)
  | [] => none
  | .setHead p r inv :: ops => if r = rule ∧ p = start then some inv else lastInvolved rule start ops
  | _ :: ops => lastInvolved rule start ops

/-- `x` was removed from the eval set of the head `(rule, start)` after it was last set or reinitialised. -/
def removedSince (rule : R) (start : Nat) (x : R) : List (CacheOp R) → Bool
  | [] => false
  | .setHead p r _ :: ops => if r = rule ∧ p = start then false else removedSince rule start x ops
  | .reinitialize r p :: ops => if r = rule ∧ p = start then false else removedSince rule start x ops
  | .remove h y :: ops => if h.1 = rule ∧ h.2 = start ∧ y = x then true else removedSince rule start x ops
  | _ :: ops => removedSince rule start x ops

/-- The active left recursion most recently set. -/
def lastActive : List (CacheOp R) → Option (R × Nat)
  | [] => none
  | .setActive a :: _ => a
  | _ :: ops => lastActive ops

end PP
