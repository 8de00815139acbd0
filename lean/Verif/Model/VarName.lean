import Verif.Model.Core

/-! # Model of parser/src/var_name.rs: rule calls, memoisation and left recursion -/
namespace PP
variable {R U : Type} [DecidableEq R]

/-- parser/src/var_name.rs:6-17 -/
def memoizedBehaviour (parent : Nat) (isTrue : Bool) (stop memoKey : Nat) (st : St R U) :
    Out (Bool × Nat × St R U) := do
  let st ← st.connect parent memoKey
  .ok (isTrue, stop, st)

/-- parser/src/var_name.rs:20-38 -/
def defaultBehaviour (func : PFn R U) (rule : R) : PFn R U := fun parent start st => do
  let (currentKey, st) ← st.reserve rule
  let (b, q, st) ← func currentKey start st
  let st := st.createCacheEntry rule b start q currentKey
  let st ← st.updateEntry currentKey b start q
  let st ← st.connect parent currentKey
  .ok (b, q, st)

/-- parser/src/var_name.rs:53-75 -/
def varNameKernel (rule : R) (func : PFn R U) : PFn R U := fun parent position st =>
  match st.cache.check rule position with
  | some (mb, stop, memoKey) => memoizedBehaviour parent mb stop memoKey st
  | none => defaultBehaviour func rule parent position st

/-- parser/src/var_name.rs:140-147: the memo table, if it has an entry, overrides the key and the result. -/
def growthPick (st : St R U) (rule : R) (position currentKey : Nat) (b : Bool) (q : Nat) : Nat × Bool × Nat :=
  match st.cache.check rule position with
  | none => (currentKey, b, q)
  | some (mb, mq, mk) => (mk, mb, mq)

/-- The `loop` of parser/src/var_name.rs:137-168.  `last` = (last_result, last_key). -/
def growthLoop (rule : R) (func : PFn R U) (parent position : Nat) (previous : Option (R × Nat)) :
    Nat → Bool × Nat → Nat → Nat → St R U → Out (Bool × Nat × St R U)
  | 0, _, _, _, _ => .oof
  | n + 1, last, lastKey, currentKey, st => do
    let st ← st.reinitializeEvalSet rule position
    let (b, q, st) ← func currentKey position st
    let (currentKey, b, q) := growthPick st rule position currentKey b q
    let st ← st.updateEntry currentKey b position q
    if !b || q ≤ last.2 then do
      let st ← st.connect parent lastKey
      let st := st.setActive previous
      let st := st.createCacheEntry rule last.1 position last.2 lastKey
      .ok (last.1, last.2, st)
    else do
      let (newKey, st) ← st.reserve rule
      growthLoop rule func parent position previous n (b, q) currentKey newKey st

/-- parser/src/var_name.rs:107-171 `_var_name_kernel_growth_function` -/
def growthFunction (fuel : Nat) (involved : List R) (rule : R) (func : PFn R U)
    (lastLr : Option (R × Nat)) : PFn R U := fun parent position st => do
  let (lastKey, st) ← st.reserve rule
  let st ← st.updateEntry lastKey false 0 0
  let (currentKey, st) ← st.reserve rule
  let st := st.setHead position rule (toBTreeSet involved)
  growthLoop rule func parent position lastLr fuel (false, position) lastKey currentKey st

/-- parser/src/var_name.rs:173-201 `should_go_into_growth_function` -/
def shouldGrow (rule : R) (position : Nat) (st : St R U) : Out (Bool × Option (R × Nat) × St R U) :=
  match st.cache.active with
  | none => .ok (true, none, st.setActive (some (rule, position)))
  | some lr =>
    match st.cache.checkHead rule position with
    | some _ => .ok (false, none, st)
    | none => do
      let inv ← st.cache.ruleInInvolvedSet lr rule
      if inv then .ok (false, none, st)
      else .ok (true, some lr, st.setActive (some (rule, position)))

/-- parser/src/var_name.rs:228-267: the `else` branch of `_var_name_kernel_indirect_left_recursion` (no growth). -/
def lrInner (rule : R) (func : PFn R U) : PFn R U := fun parent position st =>
  match st.cache.active with
  | none => .panic .expectFailed
  | some active => do
    let isInEvalSet ← st.cache.ruleInEvalSet active rule
    if isInEvalSet then do
      let (currentKey, st) ← st.reserve rule
      let st ← st.removeFromEvalSet active rule
      let (b, q, st) ← func currentKey position st
      let st ← st.updateEntry currentKey b position q
      let st := st.createCacheEntry rule b position q currentKey
      let st ← st.connect parent currentKey
      .ok (b, q, st)
    else
      match st.cache.check rule position with
      | some (mb, mq, mk) => do
        let st ← st.connectIfNotConnected parent mk
        .ok (mb, mq, st)
      | none => .ok (false, position, st)

/-- parser/src/var_name.rs:203-268 `_var_name_kernel_indirect_left_recursion` -/
def varNameLRKernel (fuel : Nat) (involved : List R) (rule : R) (func : PFn R U) : PFn R U :=
  fun parent position st => do
    let (should, lastLr, st) ← shouldGrow rule position st
    if should then growthFunction fuel involved rule func lastLr parent position st
    else lrInner rule func parent position st

end PP
