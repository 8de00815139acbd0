import Verif.Model.Interp

/-! # Execution with the depth of calls and the number of iterations limited separately

`eval` has one fuel for both.  Here `depth` limits only how deeply the calls of closures, rule functions and `clear_false_kernel` are
nested (the native stack), while every loop may run `loops` times; with too little of either the result is `oof`. -/
namespace PP

/-- `eval` (the closures built by a generated rule function, see Model/Interp.lean and parser/src/parser_core.rs:1-272,
parser/src/var_name.rs:1-268) with at most `depth` nested calls and `loops` iterations of each loop. -/
def evalD {R U : Type} [DecidableEq R] (P : Parser R U) (src : Source) (loops : Nat) : Nat → Expr R → PFn R U
  | 0, _ => fun _ _ _ => .oof
  | d + 1, .andPredicate e => andPredicateKernel (evalD P src loops d e)
  | d + 1, .notPredicate e => notPredicateKernel (evalD P src loops d e)
  | d + 1, .oneOrMore e => oneOrMoreKernel loops (evalD P src loops d e)
  | d + 1, .zeroOrMore e => zeroOrMoreKernel loops (evalD P src loops d e)
  | d + 1, .optional e => optionalKernel (evalD P src loops d e)
  | d + 1, .subexpression e => subexpressionKernel (evalD P src loops d e)
  | d + 1, .orderedChoice a b => orderedChoiceKernel (evalD P src loops d a) (evalD P src loops d b)
  | d + 1, .sequence a b => sequenceKernel (evalD P src loops d a) (evalD P src loops d b)
  | _ + 1, .terminal c => liftPure fun p => terminalKernel src p c
  | _ + 1, .stringTerminal s => liftPure fun p => stringTerminalKernel src p s
  | _ + 1, .matchRange lo hi => liftPure fun p => matchRangeKernel src p lo hi
  | d + 1, .varName r => varNameKernel r (evalD P src loops d (P.body r))
  | d + 1, .varNameLR inv r => varNameLRKernel loops inv r (evalD P src loops d (P.body r))
  | d + 1, .inlined r => fun parent position st => evalD P src loops d (P.body r) parent position st
  | d + 1, .hooked name e => fun parent position st =>
      runHook (evalD P src loops d e) parent (P.hook name src position st.user) st

/-- parser/src/parse.rs:10-23 `parse`, with at most `depth` nested calls and `loops` iterations of each loop. -/
def parseD {R U : Type} [DecidableEq R] (P : Parser R U) (src : Source) (loops depth : Nat) :
    Out (Bool × Nat × Publisher R) := do
  let (b, q, st) ← evalD P src loops depth (.varName P.grammar) 0 0 (St.new P.grammar P.userInit)
  let t ← st.pub.clearFalse P.grammar depth
  .ok (b, q, t)

end PP
