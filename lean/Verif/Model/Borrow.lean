import Verif.Model.Parsers

/-! # Model of the `RefCell`s: parser/src/var_name.rs with every borrow made explicit

The context and the user state are `RefCell`s shared by all rule functions; borrowing one while a conflicting borrow is alive
panics.  Here the borrow flags of the two cells are part of the state, and every `borrow`, `borrow_mut` and drop of
var_name.rs is a step.  `Model/VarName.lean` is the same code without the flags; C67 relates the two. -/
namespace PP
variable {R U : Type} [DecidableEq R] {α : Type}

/-- `core::cell::RefCell`'s borrow flag: unused, shared (by how many), or exclusive. -/
inductive Flag where
  | free
  | shared (n : Nat)
  | exclusive
  deriving DecidableEq, Repr

/-- `RefCell::borrow_mut`; `none` is a `BorrowMutError` panic. -/
def Flag.lock : Flag → Option Flag
  | .free => some .exclusive
  | _ => none

/-- `RefCell::borrow`; `none` is a `BorrowError` panic.  (`shared n` stands for `n + 1` readers.) -/
def Flag.read : Flag → Option Flag
  | .free => some (.shared 0)
  | .shared n => some (.shared (n + 1))
  | .exclusive => none

/-- Drop of a `Ref`. -/
def Flag.unread : Flag → Flag
  | .shared 0 => .free
  | .shared (n + 1) => .shared n
  | f => f

/-- The flags of the two cells that parser/src/parse.rs:14-15 creates. -/
structure Cells where
  context : Flag
  user : Flag
  deriving DecidableEq, Repr

/-- `RefCell::new`, twice. -/
def Cells.new : Cells := ⟨.free, .free⟩

/-- A state with flags. -/
abbrev StB (R U : Type) := St R (U × Cells)

def setContextFlag (f : Flag) (st : StB R U) : StB R U := { st with user := (st.user.1, { st.user.2 with context := f }) }

/-- `context.borrow_mut()`, then `f`, then the drop of the `RefMut`. -/
def borrowMut (f : StB R U → Out (α × StB R U)) (st : StB R U) : Out (α × StB R U) :=
  match st.user.2.context.lock with
  | none => .panic .borrow
  | some g => do
    let (a, st) ← f (setContextFlag g st)
    .ok (a, setContextFlag .free st)

/-- `context.borrow()`, then `f`, then the drop of the `Ref`. -/
def borrowRef (f : StB R U → Out α) (st : StB R U) : Out (α × StB R U) :=
  match st.user.2.context.read with
  | none => .panic .borrow
  | some g => do
    let st := setContextFlag g st
    let a ← f st
    .ok (a, setContextFlag st.user.2.context.unread st)

/-- A method that only changes the context. -/
def upd (x : Out (St R (U × Cells))) : Out (Unit × StB R U) := do
  let st ← x
  .ok ((), st)

/-- parser/src/var_name.rs:6-17 -/
def memoizedBehaviourB (parent : Nat) (isTrue : Bool) (stop memoKey : Nat) (st : StB R U) : Out (Bool × Nat × StB R U) := do
  let (_, st) ← borrowMut (fun st => upd (st.connect parent memoKey)) st
  .ok (isTrue, stop, st)

/-- parser/src/var_name.rs:20-38: the second borrow (`c`) lives until the function returns. -/
def defaultBehaviourB (func : PFn R (U × Cells)) (rule : R) : PFn R (U × Cells) := fun parent start st => do
  let (currentKey, st) ← borrowMut (fun st => st.reserve rule) st
  let (b, q, st) ← func currentKey start st
  let (_, st) ← borrowMut (fun st => do
    let st := st.createCacheEntry rule b start q currentKey
    let st ← st.updateEntry currentKey b start q
    upd (st.connect parent currentKey)) st
  .ok (b, q, st)

/-- parser/src/var_name.rs:53-75 -/
def varNameKernelB (rule : R) (func : PFn R (U × Cells)) : PFn R (U × Cells) := fun parent position st => do
  let (memo, st) ← borrowRef (fun st => .ok (st.cache.check rule position)) st
  match memo with
  | some (mb, stop, memoKey) => memoizedBehaviourB parent mb stop memoKey st
  | none => defaultBehaviourB func rule parent position st

/-- parser/src/var_name.rs:141-147: the memo of the iteration, if there is one, replaces the key, the flag and the end. -/
def pickMemo (memo : Option (Bool × Nat × Nat)) (currentKey : Nat) (b : Bool) (q : Nat) : Nat × Bool × Nat :=
  match memo with
  | none => (currentKey, b, q)
  | some (mb, mq, mk) => (mk, mb, mq)

/-- The `loop` of parser/src/var_name.rs:137-168. -/
def growthLoopB (rule : R) (func : PFn R (U × Cells)) (parent position : Nat) (previous : Option (R × Nat)) :
    Nat → Bool × Nat → Nat → Nat → StB R U → Out (Bool × Nat × StB R U)
  | 0, _, _, _, _ => .oof
  | n + 1, last, lastKey, currentKey, st => do
    let (_, st) ← borrowMut (fun st => upd (st.reinitializeEvalSet rule position)) st
    let (b, q, st) ← func currentKey position st
    let (memo, st) ← borrowMut (fun st => .ok (st.cache.check rule position, st)) st
    let (currentKey, b, q) := pickMemo memo currentKey b q
    let (_, st) ← borrowMut (fun st => upd (st.updateEntry currentKey b position q)) st
    if !b || q ≤ last.2 then do
      let (_, st) ← borrowMut (fun st => upd (st.connect parent lastKey)) st
      let (_, st) ← borrowMut (fun st => .ok ((), st.setActive previous)) st
      let (_, st) ← borrowMut (fun st => .ok ((), st.createCacheEntry rule last.1 position last.2 lastKey)) st
      .ok (last.1, last.2, st)
    else do
      let (newKey, st) ← borrowMut (fun st => st.reserve rule) st
      growthLoopB rule func parent position previous n (b, q) currentKey newKey st

/-- parser/src/var_name.rs:107-171 `_var_name_kernel_growth_function` -/
def growthFunctionB (fuel : Nat) (involved : List R) (rule : R) (func : PFn R (U × Cells))
    (lastLr : Option (R × Nat)) : PFn R (U × Cells) := fun parent position st => do
  let (lastKey, st) ← borrowMut (fun st => st.reserve rule) st
  let (_, st) ← borrowMut (fun st => upd (st.updateEntry lastKey false 0 0)) st
  let (currentKey, st) ← borrowMut (fun st => st.reserve rule) st
  let (_, st) ← borrowMut (fun st => .ok ((), st.setHead position rule (toBTreeSet involved))) st
  growthLoopB rule func parent position lastLr fuel (false, position) lastKey currentKey st

/-- parser/src/var_name.rs:173-201 `should_go_into_growth_function`: one borrow (`ctx`) for the whole function. -/
def shouldGrowB (rule : R) (position : Nat) (st : StB R U) : Out ((Bool × Option (R × Nat)) × StB R U) :=
  borrowMut (fun st => do
    let (b, l, st) ← shouldGrow rule position st
    .ok ((b, l), st)) st

/-- parser/src/var_name.rs:228-267: the `else` branch of `_var_name_kernel_indirect_left_recursion` (no growth). -/
def lrInnerB (rule : R) (func : PFn R (U × Cells)) : PFn R (U × Cells) := fun parent position st => do
  let (active, st) ← borrowRef (fun st => Out.ofOption .expectFailed st.cache.active) st
  let (isInEvalSet, st) ← borrowRef (fun st => st.cache.ruleInEvalSet active rule) st
  if isInEvalSet then do
    let (currentKey, st) ← borrowMut (fun st => st.reserve rule) st
    let (_, st) ← borrowMut (fun st => upd (st.removeFromEvalSet active rule)) st
    let (b, q, st) ← func currentKey position st
    let (_, st) ← borrowMut (fun st => upd (st.updateEntry currentKey b position q)) st
    let (_, st) ← borrowMut (fun st => .ok ((), st.createCacheEntry rule b position q currentKey)) st
    let (_, st) ← borrowMut (fun st => upd (st.connect parent currentKey)) st
    .ok (b, q, st)
  else do
    let (memo, st) ← borrowRef (fun st => .ok (st.cache.check rule position)) st
    match memo with
    | some (mb, mq, mk) => do
      let (_, st) ← borrowMut (fun st => upd (st.connectIfNotConnected parent mk)) st
      .ok (mb, mq, st)
    | none => .ok (false, position, st)

/-- parser/src/var_name.rs:203-268 `_var_name_kernel_indirect_left_recursion` -/
def varNameLRKernelB (fuel : Nat) (involved : List R) (rule : R) (func : PFn R (U × Cells)) : PFn R (U × Cells) :=
  fun parent position st => do
    let ((should, lastLr), st) ← shouldGrowB rule position st
    if should then growthFunctionB fuel involved rule func lastLr parent position st
    else lrInnerB rule func parent position st

/-- `eval` (`Model/Interp.lean`) with flags.  The combinators of parser_core.rs borrow nothing, so they are the same functions; hooks
see the flags, and may leave a borrow alive while they call their closure. -/
def evalB (P : Parser R (U × Cells)) (src : Source) : Nat → Expr R → PFn R (U × Cells)
  | 0, _ => fun _ _ _ => .oof
  | n + 1, .andPredicate e => andPredicateKernel (evalB P src n e)
  | n + 1, .notPredicate e => notPredicateKernel (evalB P src n e)
  | n + 1, .oneOrMore e => oneOrMoreKernel n (evalB P src n e)
  | n + 1, .zeroOrMore e => zeroOrMoreKernel n (evalB P src n e)
  | n + 1, .optional e => optionalKernel (evalB P src n e)
  | n + 1, .subexpression e => subexpressionKernel (evalB P src n e)
  | n + 1, .orderedChoice a b => orderedChoiceKernel (evalB P src n a) (evalB P src n b)
  | n + 1, .sequence a b => sequenceKernel (evalB P src n a) (evalB P src n b)
  | _ + 1, .terminal c => liftPure fun p => terminalKernel src p c
  | _ + 1, .stringTerminal d => liftPure fun p => stringTerminalKernel src p d
  | _ + 1, .matchRange lo hi => liftPure fun p => matchRangeKernel src p lo hi
  | n + 1, .varName r => varNameKernelB r (evalB P src n (P.body r))
  | n + 1, .varNameLR inv r => varNameLRKernelB n inv r (evalB P src n (P.body r))
  | n + 1, .inlined r => fun parent position st => evalB P src n (P.body r) parent position st
  | n + 1, .hooked name e => fun parent position st =>
      runHook (evalB P src n e) parent (P.hook name src position st.user) st

/-- parser/src/parse.rs:10-23 `parse`.  `into_inner` needs no borrow. -/
def parseB (P : Parser R (U × Cells)) (src : Source) (fuel : Nat) : Out (Bool × Nat × Publisher R) := do
  let (b, q, st) ← evalB P src fuel (.varName P.grammar) 0 0 (St.new P.grammar P.userInit)
  let t ← st.pub.clearFalse P.grammar fuel
  .ok (b, q, t)

/-! ## Hooks -/

/-- A hook that only uses the user state between calls of its closure and holds no borrow while calling it. -/
def HookProg.tidy : HookProg U → Cells → HookProg (U × Cells)
  | .ret u b q, c => .ret (u, c) b q
  | .panic, _ => .panic
  | .call u p k, c => .call (u, c) p fun u' b q => (k u'.1 b q).tidy u'.2

/-- A parser whose hooks are tidy. -/
def Parser.tidy (P : Parser R U) : Parser R (U × Cells) where
  body := P.body
  grammar := P.grammar
  hook name src pos u := (P.hook name src pos u.1).tidy u.2
  userInit := (P.userInit, .new)

/-- examples/example_11_external_rule_call_parser/src/hooked_calls.rs:20-39 with its borrow of the user state: taken after the closure
has returned, alive until the end of the block.  `.panic` stands for both the failed slice and the failed borrow. -/
def uniqueLineAfterB (src : Source) (pos : Nat) (u : List (List UInt8) × Cells) (b : Bool) (q : Nat) :
    HookProg (List (List UInt8) × Cells) :=
  if b then
    match src.getString pos q with
    | .ok (some l) =>
      match u.2.user.lock with
      | none => .panic
      | some g =>
        let c := { u.2 with user := g }
        if l ∈ u.1 then .ret (u.1, { c with user := .free }) false pos else .ret (l :: u.1, { c with user := .free }) true q
    | _ => .panic
  else .ret u b q

/-- examples/example_11_external_rule_call_parser/src/hooked_calls.rs:9-40 `unique_line_cache` -/
def uniqueLineCacheB (src : Source) (pos : Nat) (u : List (List UInt8) × Cells) : HookProg (List (List UInt8) × Cells) :=
  .call u pos (uniqueLineAfterB src pos)

/-- examples/example_11_external_rule_call_parser/src, with flags. -/
def ex11ParserB : Parser Ex11 (List (List UInt8) × Cells) :=
  { body := Ex11.body, grammar := .r_grammar, hook := fun _ => uniqueLineCacheB, userInit := ([], .new) }

end PP
