import Verif.Spec.Borrow

/-! # The borrows of var_name.rs never conflict -/
namespace PP
variable {R U : Type} {α β : Type}

/-- The state with free cells. -/
def up (st : St R U) : StB R U := ⟨st.cache, st.pub, (st.user, .new)⟩

def upOut : Out (α × St R U) → Out (α × StB R U)
  | .oof => .oof
  | .panic p => .panic p
  | .ok (a, st) => .ok (a, up st)

def upRes : Out (Bool × Nat × St R U) → Out (Bool × Nat × StB R U)
  | .oof => .oof
  | .panic p => .panic p
  | .ok (b, q, st) => .ok (b, q, up st)

/-- `f'` is `f` with flags. -/
def FlagSim (f' : PFn R (U × Cells)) (f : PFn R U) : Prop := ∀ k p st, f' k p (up st) = upRes (f k p st)

theorem upRes_bind {x : Out α} {f : α → Out (Bool × Nat × St R U)} {f' : α → Out (Bool × Nat × StB R U)}
    (h : ∀ a, f' a = upRes (f a)) : (x >>= f') = upRes (x >>= f) := by
  cases x with
  | oof => rfl
  | panic p => rfl
  | ok a => exact h a

theorem sim_bind {f' : PFn R (U × Cells)} {f : PFn R U} (hf : FlagSim f' f) {k p st}
    {g' : Bool × Nat × StB R U → Out (Bool × Nat × StB R U)} {g : Bool × Nat × St R U → Out (Bool × Nat × St R U)}
    (h : ∀ b q st, g' (b, q, up st) = upRes (g (b, q, st))) : (f' k p (up st) >>= g') = upRes (f k p st >>= g) := by
  rw [hf]
  cases f k p st with
  | oof => rfl
  | panic p => rfl
  | ok a => exact h a.1 a.2.1 a.2.2

/-! ## Combinators -/

theorem sim_and {f' : PFn R (U × Cells)} {f : PFn R U} (hf : FlagSim f' f) : FlagSim (andPredicateKernel f') (andPredicateKernel f) := by
  intro k p st
  refine sim_bind hf fun b q st => ?_
  cases b <;> rfl

theorem sim_not {f' : PFn R (U × Cells)} {f : PFn R U} (hf : FlagSim f' f) : FlagSim (notPredicateKernel f') (notPredicateKernel f) := by
  intro k p st
  refine sim_bind hf fun b q st => ?_
  cases b <;> rfl

theorem sim_opt {f' : PFn R (U × Cells)} {f : PFn R U} (hf : FlagSim f' f) : FlagSim (optionalKernel f') (optionalKernel f) := by
  intro k p st
  refine sim_bind hf fun b q st => ?_
  cases b <;> rfl

theorem sim_sub {f' : PFn R (U × Cells)} {f : PFn R U} (hf : FlagSim f' f) : FlagSim (subexpressionKernel f') (subexpressionKernel f) := by
  intro k p st
  refine sim_bind hf fun b q st => ?_
  cases b <;> rfl

theorem sim_loop {f' : PFn R (U × Cells)} {f : PFn R U} (hf : FlagSim f' f) (k : Nat) :
    ∀ n p st, repeatLoop f' k n p (up st) = upRes (repeatLoop f k n p st) := by
  intro n
  induction n with
  | zero => intro p st; rfl
  | succ n ih =>
    intro p st
    refine sim_bind hf fun b q st => ?_
    cases b
    · rfl
    · exact ih q st

theorem sim_star {f' : PFn R (U × Cells)} {f : PFn R U} (hf : FlagSim f' f) (n : Nat) : FlagSim (zeroOrMoreKernel n f') (zeroOrMoreKernel n f) :=
  fun k p st => sim_loop hf k n p st

theorem sim_plus {f' : PFn R (U × Cells)} {f : PFn R U} (hf : FlagSim f' f) (n : Nat) : FlagSim (oneOrMoreKernel n f') (oneOrMoreKernel n f) := by
  intro k p st
  refine sim_bind hf fun b q st => ?_
  cases b
  · rfl
  · exact sim_loop hf k n q st

theorem sim_choice {f' g' : PFn R (U × Cells)} {f g : PFn R U} (hf : FlagSim f' f) (hg : FlagSim g' g) :
    FlagSim (orderedChoiceKernel f' g') (orderedChoiceKernel f g) := by
  intro k p st
  refine sim_bind hf fun b q st => ?_
  cases b
  · refine sim_bind hg fun b q st => ?_
    cases b <;> rfl
  · rfl

theorem sim_seq {f' g' : PFn R (U × Cells)} {f g : PFn R U} (hf : FlagSim f' f) (hg : FlagSim g' g) :
    FlagSim (sequenceKernel f' g') (sequenceKernel f g) := by
  intro k p st
  refine sim_bind hf fun b q st => ?_
  cases b
  · rfl
  · refine sim_bind hg fun b q st => ?_
    cases b <;> rfl

theorem sim_pure (f : Nat → Bool × Nat) : FlagSim (liftPure f : PFn R (U × Cells)) (liftPure f) := fun _ _ _ => rfl

/-! ## Borrows -/

set_option linter.unusedSectionVars false

section
variable [DecidableEq R]

/-- The flag while the context is borrowed. -/
def held (f : Flag) (st : St R U) : StB R U := ⟨st.cache, st.pub, (st.user, ⟨f, .free⟩)⟩

theorem borrowMut_up {f' : StB R U → Out (α × StB R U)} {f : St R U → Out (α × St R U)} {st : St R U}
    {g' : α × StB R U → Out (Bool × Nat × StB R U)} {g : α × St R U → Out (Bool × Nat × St R U)}
    (h : f' (held .exclusive st) = (f st >>= fun x => .ok (x.1, held .exclusive x.2)))
    (hg : ∀ a st, g' (a, up st) = upRes (g (a, st))) : (borrowMut f' (up st) >>= g') = upRes (f st >>= g) := by
  have h1 : borrowMut f' (up st) = (f' (held .exclusive st) >>= fun x => Out.ok (x.1, setContextFlag .free x.2)) := rfl
  rw [h1, h]
  cases f st with
  | oof => rfl
  | panic p => rfl
  | ok a => exact hg a.1 a.2

theorem borrowRef_up {f' : StB R U → Out α} {f : St R U → Out α} {st : St R U}
    {g' : α × StB R U → Out (Bool × Nat × StB R U)} {g : α → Out (Bool × Nat × St R U)}
    (h : f' (held (.shared 0) st) = f st)
    (hg : ∀ a, g' (a, up st) = upRes (g a)) : (borrowRef f' (up st) >>= g') = upRes (f st >>= g) := by
  have h1 : borrowRef f' (up st) = (f' (held (.shared 0) st) >>= fun x => Out.ok (x, up st)) := rfl
  rw [h1, h]
  cases f st with
  | oof => rfl
  | panic p => rfl
  | ok a => exact hg a

theorem held_reserve (rule : R) (st : St R U) :
    (held .exclusive st).reserve rule = (st.reserve rule >>= fun x => .ok (x.1, held .exclusive x.2)) := by
  unfold St.reserve
  show (st.pub.addNode rule 0 0 false >>= _) = ((st.pub.addNode rule 0 0 false >>= _) >>= _)
  cases st.pub.addNode rule 0 0 false <;> rfl

theorem held_updOk (f' : StB R U) (f : St R U) (h : f' = held .exclusive f) :
    (.ok ((), f') : Out (Unit × StB R U)) = ((.ok ((), f) : Out (Unit × St R U)) >>= fun x => .ok (x.1, held .exclusive x.2)) := by
  rw [h]; rfl

/-- A method of the context without result. -/
def upd0 (x : Out (St R U)) : Out (Unit × St R U) := do
  let st ← x
  .ok ((), st)

theorem held_upd {x' : Out (StB R U)} {x : Out (St R U)} (h : x' = (x >>= fun st => .ok (held .exclusive st))) :
    upd x' = (upd0 x >>= fun y => .ok (y.1, held .exclusive y.2)) := by
  rw [h]
  cases x <;> rfl

theorem upd0_bind {x : Out (St R U)} {g : Unit × St R U → Out (Bool × Nat × St R U)} : (upd0 x >>= g) = (x >>= fun st => g ((), st)) := by
  cases x <;> rfl

theorem held_connect (st : St R U) (a b : Nat) :
    (held .exclusive st).connect a b = (st.connect a b >>= fun st => .ok (held .exclusive st)) := by
  unfold St.connect
  show (st.pub.connect a b >>= _) = ((st.pub.connect a b >>= _) >>= _)
  cases st.pub.connect a b <;> rfl

theorem held_connectIf (st : St R U) (a b : Nat) :
    (held .exclusive st).connectIfNotConnected a b = (st.connectIfNotConnected a b >>= fun st => .ok (held .exclusive st)) := by
  unfold St.connectIfNotConnected
  show (st.pub.connectIfNotConnected a b >>= _) = ((st.pub.connectIfNotConnected a b >>= _) >>= _)
  cases st.pub.connectIfNotConnected a b <;> rfl

theorem held_update (st : St R U) (k : Nat) (b : Bool) (p q : Nat) :
    (held .exclusive st).updateEntry k b p q = (st.updateEntry k b p q >>= fun st => .ok (held .exclusive st)) := by
  unfold St.updateEntry
  show (st.pub.setNodeResult k b >>= _) = ((st.pub.setNodeResult k b >>= _) >>= _)
  cases st.pub.setNodeResult k b with
  | oof => rfl
  | panic => rfl
  | ok x =>
    simp only [Out.bind_ok]
    cases x.setNodeStart k p with
    | oof => rfl
    | panic => rfl
    | ok x =>
      simp only [Out.bind_ok]
      cases x.setNodeStop k q <;> rfl

theorem held_reinit (st : St R U) (r : R) (p : Nat) :
    (held .exclusive st).reinitializeEvalSet r p = (st.reinitializeEvalSet r p >>= fun st => .ok (held .exclusive st)) := by
  unfold St.reinitializeEvalSet
  show (st.cache.reinitializeEvalSet r p >>= _) = ((st.cache.reinitializeEvalSet r p >>= _) >>= _)
  cases st.cache.reinitializeEvalSet r p <;> rfl

theorem held_remove (st : St R U) (h : R × Nat) (r : R) :
    (held .exclusive st).removeFromEvalSet h r = (st.removeFromEvalSet h r >>= fun st => .ok (held .exclusive st)) := by
  unfold St.removeFromEvalSet
  show (st.cache.removeFromEvalSet h r >>= _) = ((st.cache.removeFromEvalSet h r >>= _) >>= _)
  cases st.cache.removeFromEvalSet h r <;> rfl

/-- A statement `context.borrow_mut().method(..);` -/
theorem stmt_up {m' : StB R U → Out (StB R U)} {m : St R U → Out (St R U)} {st : St R U}
    {g' : Unit × StB R U → Out (Bool × Nat × StB R U)} {g : St R U → Out (Bool × Nat × St R U)}
    (h : m' (held .exclusive st) = (m st >>= fun st => .ok (held .exclusive st))) (hg : ∀ st, g' ((), up st) = upRes (g st)) :
    (borrowMut (fun st => upd (m' st)) (up st) >>= g') = upRes (m st >>= g) := by
  have := borrowMut_up (f' := fun st => upd (m' st)) (f := fun st => upd0 (m st)) (g' := g') (g := fun x => g x.2) (st := st)
    (held_upd h) fun _ st => hg st
  rw [this, upd0_bind]

theorem reserve_up {rule : R} {st : St R U} {g' : Nat × StB R U → Out (Bool × Nat × StB R U)} {g : Nat × St R U → Out (Bool × Nat × St R U)}
    (hg : ∀ a st, g' (a, up st) = upRes (g (a, st))) : (borrowMut (fun st => st.reserve rule) (up st) >>= g') = upRes (st.reserve rule >>= g) :=
  borrowMut_up (f' := fun st => st.reserve rule) (f := fun st => st.reserve rule) (held_reserve rule st) hg

theorem sim_memoized (parent : Nat) (b : Bool) (q key : Nat) (st : St R U) :
    memoizedBehaviourB parent b q key (up st) = upRes (memoizedBehaviour parent b q key st) :=
  stmt_up (m := fun st => st.connect parent key) (held_connect st parent key) fun _ => rfl

theorem sim_default {f' : PFn R (U × Cells)} {f : PFn R U} (hf : FlagSim f' f) (rule : R) :
    FlagSim (defaultBehaviourB f' rule) (defaultBehaviour f rule) := by
  intro k p st
  refine reserve_up fun key st => ?_
  refine sim_bind hf fun b q st => ?_
  have := borrowMut_up (st := st) (f' := fun st => do
      let st := st.createCacheEntry rule b p q key
      let st ← st.updateEntry key b p q
      upd (st.connect k key))
    (f := fun st => do
      let st := st.createCacheEntry rule b p q key
      let st ← st.updateEntry key b p q
      upd0 (st.connect k key))
    (g' := fun x => Out.ok (b, q, x.2)) (g := fun x => Out.ok (b, q, x.2)) ?_ fun _ _ => rfl
  · refine this.trans ?_
    congr 1
    show (_ >>= _ >>= _) = _
    simp only
    show _ = ((st.createCacheEntry rule b p q key).updateEntry key b p q >>= _)
    cases (st.createCacheEntry rule b p q key).updateEntry key b p q with
    | oof => rfl
    | panic => rfl
    | ok st => exact upd0_bind
  · have h1 : (held .exclusive st).createCacheEntry rule b p q key = held .exclusive (st.createCacheEntry rule b p q key) := rfl
    simp only [h1, held_update]
    cases (st.createCacheEntry rule b p q key).updateEntry key b p q with
    | oof => rfl
    | panic => rfl
    | ok st => exact held_upd (held_connect st k key)

theorem sim_varName {f' : PFn R (U × Cells)} {f : PFn R U} (hf : FlagSim f' f) (rule : R) :
    FlagSim (varNameKernelB rule f') (varNameKernel rule f) := by
  intro k p st
  refine (borrowRef_up (f := fun st => .ok (st.cache.check rule p)) rfl (g := fun memo => match memo with
    | some (mb, stop, memoKey) => memoizedBehaviour k mb stop memoKey st
    | none => defaultBehaviour f rule k p st) fun memo => ?_).trans rfl
  cases memo with
  | none => exact sim_default hf rule k p st
  | some m => exact sim_memoized k m.1 m.2.1 m.2.2 st

/-- The loop after the closure has returned: `cont` is the next round. -/
def growthTail (rule : R) (parent position : Nat) (previous : Option (R × Nat)) (last : Bool × Nat) (lastKey : Nat)
    (cont : Bool × Nat → Nat → Nat → St R U → Out (Bool × Nat × St R U)) (x : Nat × Bool × Nat) (st : St R U) : Out (Bool × Nat × St R U) := do
  let st ← st.updateEntry x.1 x.2.1 position x.2.2
  if !x.2.1 || x.2.2 ≤ last.2 then do
    let st ← st.connect parent lastKey
    let st := st.setActive previous
    let st := st.createCacheEntry rule last.1 position last.2 lastKey
    .ok (last.1, last.2, st)
  else do
    let (newKey, st) ← st.reserve rule
    cont (x.2.1, x.2.2) x.1 newKey st

def growthTailB (rule : R) (parent position : Nat) (previous : Option (R × Nat)) (last : Bool × Nat) (lastKey : Nat)
    (cont : Bool × Nat → Nat → Nat → StB R U → Out (Bool × Nat × StB R U)) (x : Nat × Bool × Nat) (st : StB R U) : Out (Bool × Nat × StB R U) := do
  let (_, st) ← borrowMut (fun st => upd (st.updateEntry x.1 x.2.1 position x.2.2)) st
  if !x.2.1 || x.2.2 ≤ last.2 then do
    let (_, st) ← borrowMut (fun st => upd (st.connect parent lastKey)) st
    let (_, st) ← borrowMut (fun st => .ok ((), st.setActive previous)) st
    let (_, st) ← borrowMut (fun st => .ok ((), st.createCacheEntry rule last.1 position last.2 lastKey)) st
    .ok (last.1, last.2, st)
  else do
    let (newKey, st) ← borrowMut (fun st => st.reserve rule) st
    cont (x.2.1, x.2.2) x.1 newKey st

theorem sim_tail {rule : R} {parent position : Nat} {previous : Option (R × Nat)} {last : Bool × Nat} {lastKey : Nat}
    {cont' : Bool × Nat → Nat → Nat → StB R U → Out (Bool × Nat × StB R U)} {cont : Bool × Nat → Nat → Nat → St R U → Out (Bool × Nat × St R U)}
    (h : ∀ a b c st, cont' a b c (up st) = upRes (cont a b c st)) (x : Nat × Bool × Nat) (st : St R U) :
    growthTailB rule parent position previous last lastKey cont' x (up st) =
      upRes (growthTail rule parent position previous last lastKey cont x st) := by
  refine stmt_up (m' := fun st => st.updateEntry x.1 x.2.1 position x.2.2) (m := fun st => st.updateEntry x.1 x.2.1 position x.2.2)
    (held_update st _ _ _ _) fun st => ?_
  by_cases hc : (!x.2.1 || decide (x.2.2 ≤ last.2)) = true
  · simp only [hc, if_true]
    exact stmt_up (m' := fun st => st.connect parent lastKey) (m := fun st => st.connect parent lastKey)
      (held_connect st parent lastKey) fun st => rfl
  · simp only [hc, Bool.false_eq_true, if_false]
    exact reserve_up fun key st => h _ _ key st

theorem sim_growthLoop {f' : PFn R (U × Cells)} {f : PFn R U} (hf : FlagSim f' f) (rule : R) (k p : Nat) (prev : Option (R × Nat)) :
    ∀ n last lk ck st, growthLoopB rule f' k p prev n last lk ck (up st) = upRes (growthLoop rule f k p prev n last lk ck st) := by
  intro n
  induction n with
  | zero => intros; rfl
  | succ n ih =>
    intro last lk ck st
    refine stmt_up (m' := fun st => st.reinitializeEvalSet rule p) (m := fun st => st.reinitializeEvalSet rule p)
      (held_reinit st rule p) fun st => ?_
    refine sim_bind hf fun b q st => ?_
    exact sim_tail (cont := fun a b c st => growthLoop rule f k p prev n a b c st) (fun a b c st => ih a b c st)
      (growthPick st rule p ck b q) st

theorem sim_growth {f' : PFn R (U × Cells)} {f : PFn R U} (hf : FlagSim f' f) (n : Nat) (inv : List R) (rule : R) (l : Option (R × Nat)) :
    FlagSim (growthFunctionB n inv rule f' l) (growthFunction n inv rule f l) := by
  intro k p st
  refine reserve_up fun key st => ?_
  refine stmt_up (m := fun st => st.updateEntry key false 0 0) (held_update st key false 0 0) fun st => ?_
  refine reserve_up fun key' st => ?_
  exact sim_growthLoop hf rule k p l n (false, p) key key' (st.setHead p rule (toBTreeSet inv))

theorem held_should (rule : R) (p : Nat) (st : St R U) :
    shouldGrow rule p (held .exclusive st) = (shouldGrow rule p st >>= fun x => .ok (x.1, x.2.1, held .exclusive x.2.2)) := by
  unfold shouldGrow
  show (match st.cache.active with | none => _ | some lr => _) = _
  cases st.cache.active with
  | none => rfl
  | some lr =>
    show (match st.cache.checkHead rule p with | some _ => _ | none => _) = _
    simp only
    cases st.cache.checkHead rule p with
    | some _ => rfl
    | none =>
      show (st.cache.ruleInInvolvedSet lr rule >>= _) = ((st.cache.ruleInInvolvedSet lr rule >>= _) >>= _)
      cases st.cache.ruleInInvolvedSet lr rule with
      | oof => rfl
      | panic => rfl
      | ok x => cases x <;> rfl

theorem sim_inner {f' : PFn R (U × Cells)} {f : PFn R U} (hf : FlagSim f' f) (rule : R) : FlagSim (lrInnerB rule f') (lrInner rule f) := by
  intro k p st
  refine (borrowRef_up (f := fun st => Out.ofOption .expectFailed st.cache.active) rfl (g := fun active => ?g) fun active => ?_).trans ?eq
  case g => exact (do
    let isInEvalSet ← st.cache.ruleInEvalSet active rule
    if isInEvalSet then do
      let (currentKey, st) ← st.reserve rule
      let st ← st.removeFromEvalSet active rule
      let (b, q, st) ← f currentKey p st
      let st ← st.updateEntry currentKey b p q
      let st := st.createCacheEntry rule b p q currentKey
      let st ← st.connect k currentKey
      .ok (b, q, st)
    else
      match st.cache.check rule p with
      | some (mb, mq, mk) => do
        let st ← st.connectIfNotConnected k mk
        .ok (mb, mq, st)
      | none => .ok (false, p, st))
  case eq =>
    unfold lrInner
    cases st.cache.active <;> rfl
  · refine borrowRef_up (f := fun st => st.cache.ruleInEvalSet active rule) rfl fun b => ?_
    cases b with
    | true =>
      simp only [if_true]
      refine reserve_up fun key st => ?_
      refine stmt_up (m := fun st => st.removeFromEvalSet active rule) (held_remove st active rule) fun st => ?_
      refine sim_bind hf fun b q st => ?_
      refine stmt_up (m := fun st => st.updateEntry key b p q) (held_update st key b p q) fun st => ?_
      refine stmt_up (m := fun st => st.connect k key) (st := st.createCacheEntry rule b p q key) (held_connect _ k key) fun st => ?_
      rfl
    | false =>
      simp only [Bool.false_eq_true, if_false]
      refine (borrowRef_up (f := fun st => .ok (st.cache.check rule p)) rfl (g := fun memo => match memo with
        | some (mb, mq, mk) => do
          let st ← st.connectIfNotConnected k mk
          .ok (mb, mq, st)
        | none => .ok (false, p, st)) fun memo => ?_).trans rfl
      cases memo with
      | none => rfl
      | some m => exact stmt_up (m := fun st => st.connectIfNotConnected k m.2.2) (held_connectIf st k m.2.2) fun st => rfl

theorem sim_lr {f' : PFn R (U × Cells)} {f : PFn R U} (hf : FlagSim f' f) (n : Nat) (inv : List R) (rule : R) :
    FlagSim (varNameLRKernelB n inv rule f') (varNameLRKernel n inv rule f) := by
  intro k p st
  refine (borrowMut_up (f := fun st => do
      let (b, l, st) ← shouldGrow rule p st
      .ok ((b, l), st)) (g := fun x => if x.1.1 then growthFunction n inv rule f x.1.2 k p x.2 else lrInner rule f k p x.2) ?_
    fun a st => ?_).trans ?_
  · simp only [held_should]
    cases shouldGrow rule p st <;> rfl
  · obtain ⟨b, l⟩ := a
    cases b
    · exact sim_inner hf rule k p st
    · exact sim_growth hf n inv rule l k p st
  · congr 1
    unfold varNameLRKernel
    cases shouldGrow rule p st <;> rfl

end

/-! ## Hooks -/

theorem sim_hook {f' : PFn R (U × Cells)} {f : PFn R U} (hf : FlagSim f' f) (k : Nat) :
    ∀ (h : HookProg (U × Cells)), h.Polite → ∀ st, runHook f' k h (up st) = upRes (runHook f k h.strip st)
  | .ret u b q, hp, st => by
    obtain ⟨u, c⟩ := u
    have hp : c = .new := hp
    subst hp
    rfl
  | .panic, _, _ => rfl
  | .call u p kk, hp, st => by
    obtain ⟨u, c⟩ := u
    obtain ⟨hc, hk⟩ := hp
    have hc : c = .new := hc
    subst hc
    exact sim_bind hf (st := { st with user := u })
      (g := fun r => runHook f k (HookProg.strip (kk (r.2.2.user, .new) r.1 r.2.1)) r.2.2)
      fun b q st => sim_hook hf k (kk (st.user, .new) b q) (hk _ _ _) st

theorem sim_eval [DecidableEq R] {P : Parser R (U × Cells)} {src : Source} (hP : P.Polite src) :
    ∀ n e, FlagSim (evalB P src n e) (eval P.strip src n e) := by
  intro n
  induction n with
  | zero => intro e k p st; rfl
  | succ n ih =>
    intro e
    cases e with
    | andPredicate e => exact sim_and (ih e)
    | notPredicate e => exact sim_not (ih e)
    | oneOrMore e => exact sim_plus (ih e) n
    | zeroOrMore e => exact sim_star (ih e) n
    | optional e => exact sim_opt (ih e)
    | subexpression e => exact sim_sub (ih e)
    | orderedChoice a b => exact sim_choice (ih a) (ih b)
    | sequence a b => exact sim_seq (ih a) (ih b)
    | terminal c => exact sim_pure _
    | stringTerminal d => exact sim_pure _
    | matchRange a b => exact sim_pure _
    | varName r => exact sim_varName (ih _) r
    | varNameLR inv r => exact sim_lr (ih _) n inv r
    | inlined r => exact fun k p st => ih _ k p st
    | hooked name e => exact fun k p st => sim_hook (ih e) k _ (hP.hook name p st.user) st

end PP
