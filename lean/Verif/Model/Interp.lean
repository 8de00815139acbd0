import Verif.Model.VarName

/-! # Generated parsers as data, and their execution -/
namespace PP

/-- The closures a generated rule function builds (generator/src/binary_wo.rs:5-28 emits one `let closure_i = ..` per
constructor; see e.g. parser/src/parser.rs).  `Exec`/`Null` are not closures; `StringTerminal` would call a function
`_string_terminal` that does not exist in parser_core.rs (such generated code does not compile) and has no counterpart. -/
inductive Expr (R : Type) where
  | andPredicate (e : Expr R)
  | notPredicate (e : Expr R)
  | oneOrMore (e : Expr R)
  | zeroOrMore (e : Expr R)
  | optional (e : Expr R)
  | subexpression (e : Expr R)
  | orderedChoice (a b : Expr R)
  | sequence (a b : Expr R)
  | terminal (c : UInt8)
  | stringTerminal (data : List UInt8)
  | matchRange (lo hi : Nat)
  /-- `_var_name(user_state, Rules::R, context, r)` -/
  | varName (r : R)
  /-- `_var_name_indirect_left_recursion(user_state, &involved_set, Rules::R, context, r)` -/
  | varNameLR (involved : List R) (r : R)
  /-- `move |parent, source, position| r(user_state, parent, context, source, position)` -/
  | inlined (r : R)
  /-- `name(user_state, parent, context, source, position, &closure)` -/
  | hooked (name : String) (e : Expr R)
  deriving DecidableEq, Repr

/-- A user-written hooked call (parser/src/hooked_calls.rs, e.g. examples/example_11_external_rule_call_parser/src/
hooked_calls.rs:9-40) as an interaction program: it may run the wrapped closure at any position, any number of times, and
read and write the user state.  Hooks that write directly to the context are not modelled. -/
inductive HookProg (U : Type) where
  | ret (u : U) (b : Bool) (q : Nat)
  | panic
  | call (u : U) (p : Nat) (k : U → Bool → Nat → HookProg U)

/-- Execution of a hook around the closure `func`. -/
def runHook {R U : Type} (func : PFn R U) (parent : Nat) : HookProg U → St R U → Out (Bool × Nat × St R U)
  | .ret u b q, st => .ok (b, q, { st with user := u })
  | .panic, _ => .panic .user
  | .call u p k, st =>
    (func parent p { st with user := u }).bind fun r => runHook func parent (k r.2.2.user r.1 r.2.1) r.2.2

/-- A generated parser crate: the rule bodies (parser.rs), the distinguished `Rules::Grammar`, the hooks and the initial
user state.  Keying the bodies by rule models that `Rules::X` is always paired with the function `x`
(generator/src/binary_wo.rs:361-366). -/
structure Parser (R U : Type) where
  body : R → Expr R
  grammar : R
  hook : String → Source → Nat → U → HookProg U
  userInit : U

/-- Execution of a closure.  `fuel` bounds the call depth and the number of iterations of each loop. -/
def eval {R U : Type} [DecidableEq R] (P : Parser R U) (src : Source) : Nat → Expr R → PFn R U
  | 0, _ => fun _ _ _ => .oof
  | n + 1, .andPredicate e => andPredicateKernel (eval P src n e)
  | n + 1, .notPredicate e => notPredicateKernel (eval P src n e)
  | n + 1, .oneOrMore e => oneOrMoreKernel n (eval P src n e)
  | n + 1, .zeroOrMore e => zeroOrMoreKernel n (eval P src n e)
  | n + 1, .optional e => optionalKernel (eval P src n e)
  | n + 1, .subexpression e => subexpressionKernel (eval P src n e)
  | n + 1, .orderedChoice a b => orderedChoiceKernel (eval P src n a) (eval P src n b)
  | n + 1, .sequence a b => sequenceKernel (eval P src n a) (eval P src n b)
  | _ + 1, .terminal c => liftPure fun p => terminalKernel src p c
  | _ + 1, .stringTerminal d => liftPure fun p => stringTerminalKernel src p d
  | _ + 1, .matchRange lo hi => liftPure fun p => matchRangeKernel src p lo hi
  | n + 1, .varName r => varNameKernel r (eval P src n (P.body r))
  | n + 1, .varNameLR inv r => varNameLRKernel n inv r (eval P src n (P.body r))
  | n + 1, .inlined r => fun parent position st => eval P src n (P.body r) parent position st
  | n + 1, .hooked name e => fun parent position st =>
      runHook (eval P src n e) parent (P.hook name src position st.user) st

/-- parser/src/parse.rs:10-23 `parse`: run the start rule through `_var_name` from a fresh context at position 0 with
parent `Key(0)`, then `clear_false`. -/
def parse {R U : Type} [DecidableEq R] (P : Parser R U) (src : Source) (fuel : Nat) :
    Out (Bool × Nat × Publisher R) := do
  let (b, q, st) ← eval P src fuel (.varName P.grammar) 0 0 (St.new P.grammar P.userInit)
  let t ← st.pub.clearFalse P.grammar fuel
  .ok (b, q, t)

end PP
