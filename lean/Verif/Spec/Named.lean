import Verif.Model.Interp
import Verif.Spec.Tree

/-! # Specification: the rules an expression refers to by name

A reference to an inlined rule leaves no invocation of its own: the references of its body count instead. -/
namespace PP
variable {R : Type}

/-- `e` can invoke the rule `s` in its own right, directly or through inlined rules. -/
inductive Expr.Invokes (body : R → Expr R) (s : R) : Expr R → Prop where
  | ref : Invokes body s (.varName s)
  | refLR {inv} : Invokes body s (.varNameLR inv s)
  | inlined {r} : Invokes body s (body r) → Invokes body s (.inlined r)
  | seqL {a b} : Invokes body s a → Invokes body s (.sequence a b)
  | seqR {a b} : Invokes body s b → Invokes body s (.sequence a b)
  | choiceL {a b} : Invokes body s a → Invokes body s (.orderedChoice a b)
  | choiceR {a b} : Invokes body s b → Invokes body s (.orderedChoice a b)
  | and {e} : Invokes body s e → Invokes body s (.andPredicate e)
  | not {e} : Invokes body s e → Invokes body s (.notPredicate e)
  | opt {e} : Invokes body s e → Invokes body s (.optional e)
  | star {e} : Invokes body s e → Invokes body s (.zeroOrMore e)
  | plus {e} : Invokes body s e → Invokes body s (.oneOrMore e)
  | sub {e} : Invokes body s e → Invokes body s (.subexpression e)
  | hook {n e} : Invokes body s e → Invokes body s (.hooked n e)

/-- Every rule written in the expression as a reference by name (not as an inlined one) is in `S`. -/
def Expr.NamesIn (S : R → Prop) : Expr R → Prop
  | .andPredicate e | .notPredicate e | .oneOrMore e | .zeroOrMore e | .optional e | .subexpression e | .hooked _ e => e.NamesIn S
  | .orderedChoice a b | .sequence a b => a.NamesIn S ∧ b.NamesIn S
  | .terminal _ | .stringTerminal _ | .matchRange _ _ | .inlined _ => True
  | .varName r | .varNameLR _ r => S r

def Expr.decNamesIn (S : R → Prop) [DecidablePred S] : (e : Expr R) → Decidable (e.NamesIn S)
  | .andPredicate e | .notPredicate e | .oneOrMore e | .zeroOrMore e | .optional e | .subexpression e | .hooked _ e => decNamesIn S e
  | .orderedChoice a b | .sequence a b => @instDecidableAnd _ _ (decNamesIn S a) (decNamesIn S b)
  | .terminal _ | .stringTerminal _ | .matchRange _ _ | .inlined _ => .isTrue trivial
  | .varName r | .varNameLR _ r => inferInstanceAs (Decidable (S r))

instance {S : R → Prop} [DecidablePred S] (e : Expr R) : Decidable (e.NamesIn S) := Expr.decNamesIn S e

/-- Every invocation in the forest other than its roots is invoked by the body of the rule above it. -/
def Tree.Follows (body : R → Expr R) (t : Tree R) : Prop :=
  ∀ u, t.Has u → ∀ c ∈ u.kids, (body u.rule).Invokes body c.rule

end PP
