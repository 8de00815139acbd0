import Verif.Model.Out

/-! # Model of parser/src/cache.rs (memo table and left-recursion heads) -/
namespace PP

/-- parser/src/cache.rs:5-11 `struct Head`; `BTreeSet<Rules>` is a list used only through membership, insertion and
removal (its ordering is never observed). -/
structure Head (R : Type) where
  startPosition : Nat
  activeRule : R
  involved : List R
  evalSet : List R

/-- parser/src/cache.rs:13-18 `struct BasicCache`; the two `HashMap`s are finite maps, represented as functions. -/
structure Cache (R : Type) where
  memo : R → Nat → Option (Bool × Nat × Nat)
  heads : R → Nat → Option (Head R)
  active : Option (R × Nat)

namespace Cache
variable {R : Type} [DecidableEq R]

/-- parser/src/cache.rs:27-33 `new` -/
def new : Cache R := { memo := fun _ _ => none, heads := fun _ _ => none, active := none }

/-- parser/src/cache.rs:42-52 `insert` -/
def insert (c : Cache R) (rule : R) (isTrue : Bool) (start stop key : Nat) : Cache R :=
  { c with memo := fun r p => if r = rule ∧ p = start then some (isTrue, stop, key) else c.memo r p }

/-- parser/src/cache.rs:53-55 `check` -/
def check (c : Cache R) (rule : R) (start : Nat) : Option (Bool × Nat × Nat) := c.memo rule start

/-- parser/src/cache.rs:57-64 `check_head` -/
def checkHead (c : Cache R) (rule : R) (start : Nat) : Option (Head R) := c.heads rule start

/-- `HashMap::insert` on `heads` -/
def putHead (c : Cache R) (rule : R) (start : Nat) (h : Head R) : Cache R :=
  { c with heads := fun r p => if r = rule ∧ p = start then some h else c.heads r p }

/-- parser/src/cache.rs:66-80 `set_head` -/
def setHead (c : Cache R) (start : Nat) (headRule : R) (involved : List R) : Cache R :=
  c.putHead headRule start ⟨start, headRule, involved, involved⟩

/-- parser/src/cache.rs:82-88 `reinitialize_eval_set` -/
def reinitializeEvalSet (c : Cache R) (rule : R) (start : Nat) : Out (Cache R) :=
  match c.heads rule start with
  | none => .panic .expectFailed
  | some h => .ok (c.putHead rule start { h with evalSet := h.involved })

/-- parser/src/cache.rs:90-99 `rule_in_involved_set` -/
def ruleInInvolvedSet (c : Cache R) (head : R × Nat) (rule : R) : Out Bool :=
  match c.heads head.1 head.2 with
  | none => .panic .expectFailed
  | some h => .ok (h.involved.contains rule)

/-- parser/src/cache.rs:101-108 `rule_in_eval_set` -/
def ruleInEvalSet (c : Cache R) (head : R × Nat) (rule : R) : Out Bool :=
  match c.heads head.1 head.2 with
  | none => .panic .expectFailed
  | some h => .ok (h.evalSet.contains rule)

/-- parser/src/cache.rs:109-115 `remove_from_eval_set` -/
def removeFromEvalSet (c : Cache R) (head : R × Nat) (rule : R) : Out (Cache R) :=
  match c.heads head.1 head.2 with
  | none => .panic .expectFailed
  | some h => .ok (c.putHead head.1 head.2 { h with evalSet := h.evalSet.filter (· ≠ rule) })

/-- parser/src/cache.rs:38-40 `set_current_active_lr_position` (35-37 is the getter, here the field `active`) -/
def setActive (c : Cache R) (a : Option (R × Nat)) : Cache R := { c with active := a }

end Cache

/-- parser/src/var_name.rs:99-105 `convert_vec_to_btree_set` -/
def toBTreeSet {R : Type} [DecidableEq R] (v : List R) : List R :=
  v.foldl (fun s r => if s.contains r then s else s ++ [r]) []

end PP
