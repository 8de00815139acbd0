import Verif.Model.Cache
import Verif.Model.Publisher
import Verif.Model.Source

/-! # Model of parser/src/context.rs: the state threaded through a parse -/
namespace PP

/-- parser/src/context.rs:60-63 `struct BasicContext`, together with the `UserState` cell (user_state.rs) that every
generated function receives beside it. -/
structure St (R U : Type) where
  cache : Cache R
  pub : Publisher R
  user : U

namespace St
variable {R U : Type} [DecidableEq R]

/-- parser/src/context.rs:79-84 `new` -/
def new (grammar : R) (u : U) : St R U := { cache := .new, pub := .new grammar, user := u }

/-- parser/src/context.rs:107-109 `reserve_publisher_entry` -/
def reserve (st : St R U) (rule : R) : Out (Nat × St R U) := do
  let (k, p) ← st.pub.addNode rule 0 0 false
  .ok (k, { st with pub := p })

/-- parser/src/context.rs:110-112 `connect` -/
def connect (st : St R U) (parent child : Nat) : Out (St R U) := do
  let p ← st.pub.connect parent child
  .ok { st with pub := p }

/-- parser/src/context.rs:146-149 `connect_if_not_connected` -/
def connectIfNotConnected (st : St R U) (parent child : Nat) : Out (St R U) := do
  let p ← st.pub.connectIfNotConnected parent child
  .ok { st with pub := p }

/-- parser/src/context.rs:113-123 `create_cache_entry` -/
def createCacheEntry (st : St R U) (rule : R) (isTrue : Bool) (start stop key : Nat) : St R U :=
  { st with cache := st.cache.insert rule isTrue start stop key }

/-- parser/src/context.rs:125-135 `update_publisher_entry` -/
def updateEntry (st : St R U) (key : Nat) (isTrue : Bool) (start stop : Nat) : Out (St R U) := do
  let p ← st.pub.setNodeResult key isTrue
  let p ← p.setNodeStart key start
  let p ← p.setNodeStop key stop
  .ok { st with pub := p }

/-- parser/src/context.rs:93-95 -/
def reinitializeEvalSet (st : St R U) (rule : R) (start : Nat) : Out (St R U) := do
  let c ← st.cache.reinitializeEvalSet rule start
  .ok { st with cache := c }

/-- parser/src/context.rs:150-152 -/
def setHead (st : St R U) (start : Nat) (headRule : R) (involved : List R) : St R U :=
  { st with cache := st.cache.setHead start headRule involved }

/-- parser/src/context.rs:156-158 -/
def removeFromEvalSet (st : St R U) (head : R × Nat) (rule : R) : Out (St R U) := do
  let c ← st.cache.removeFromEvalSet head rule
  .ok { st with cache := c }

/-- parser/src/context.rs:89-91 -/
def setActive (st : St R U) (a : Option (R × Nat)) : St R U := { st with cache := st.cache.setActive a }

end St

/-- The type of every generated rule function and closure:
`Fn(Key, &Source, u32) -> (bool, u32)` with the hidden state made explicit (the source is a parameter of the run). -/
abbrev PFn (R U : Type) := Nat → Nat → St R U → Out (Bool × Nat × St R U)

end PP
