import Verif.Spec.Iterate

/-! # Specification: a left-recursive rule over rules without left recursion

`A = (A, b) / a` where `a` and `b` only use rules of a set `S` that use each other by ordinary references.  Unlike in
Spec/Iterate.lean, `a` and `b` may match empty. -/
namespace PP
variable {R : Type}

/-- All references in `e` are ordinary ones to rules of `S`; no hooked calls. -/
def Expr.Over (S : R → Prop) : Expr R → Prop
  | .andPredicate e | .notPredicate e | .oneOrMore e | .zeroOrMore e | .optional e | .subexpression e => e.Over S
  | .orderedChoice a b | .sequence a b => a.Over S ∧ b.Over S
  | .terminal _ | .stringTerminal _ | .matchRange _ _ => True
  | .varName r | .inlined r => S r
  | .varNameLR _ _ => False
  | .hooked _ _ => False

/-- `Advance body src b s q`: repeating `b` from `s` for as long as it advances ends at `q`. -/
inductive Advance (body : R → Expr R) (src : Source) (b : Expr R) : Nat → Nat → Prop where
  | fail {s} : Peg body src b s false s → Advance body src b s s
  | still {s} : Peg body src b s true s → Advance body src b s s
  | step {s s' q} : Peg body src b s true s' → s < s' → Advance body src b s' q → Advance body src b s q

/-- The answer of `A = (A, b) / a` at `p`. -/
def GrowsTo (body : R → Expr R) (src : Source) (a b : Expr R) (p : Nat) : Bool → Nat → Prop
  | true, q => ∃ s, Peg body src a p true s ∧ p < s ∧ Advance body src b s q
  | false, q => q = p ∧ (Peg body src a p false p ∨ Peg body src a p true p)

/-- The rules of `S` use only each other, and `A = e / a` where `e` is `(A, b)` up to grouping. -/
structure PlainLR (body : R → Expr R) (S : R → Prop) (involved : List R) (A : R) (a b : Expr R) : Prop where
  closed : ∀ r, S r → (body r).Over S
  notS : ¬ S A
  inv : A ∈ involved
  first : a.Over S
  tail : b.Over S
  shape : ∃ e, body A = .orderedChoice e a ∧ HeadTail involved A e b

end PP
