import Verif.Spec.Peg

/-! # Specification: which evaluations a PEG evaluation cannot avoid -/
namespace PP
variable {R : Type}

/-- `Needs body src (e, p) (e', p')`: evaluating `e` at `p` makes it necessary to evaluate `e'` at `p'` next. -/
inductive Needs (body : R → Expr R) (src : Source) : Expr R × Nat → Expr R × Nat → Prop where
  | andP {e p} : Needs body src (.andPredicate e, p) (e, p)
  | notP {e p} : Needs body src (.notPredicate e, p) (e, p)
  | opt {e p} : Needs body src (.optional e, p) (e, p)
  | sub {e p} : Needs body src (.subexpression e, p) (e, p)
  | star {e p} : Needs body src (.zeroOrMore e, p) (e, p)
  | plus {e p} : Needs body src (.oneOrMore e, p) (e, p)
  | starNext {e p q} : Peg body src e p true q → Needs body src (.zeroOrMore e, p) (.zeroOrMore e, q)
  | plusNext {e p q} : Peg body src e p true q → Needs body src (.oneOrMore e, p) (.zeroOrMore e, q)
  | fst {a b p} : Needs body src (.sequence a b, p) (a, p)
  | snd {a b p q} : Peg body src a p true q → Needs body src (.sequence a b, p) (b, q)
  | left {a b p} : Needs body src (.orderedChoice a b, p) (a, p)
  | right {a b p q} : Peg body src a p false q → Needs body src (.orderedChoice a b, p) (b, p)
  | ref {r p} : Needs body src (.varName r, p) (body r, p)
  | inl {r p} : Needs body src (.inlined r, p) (body r, p)

/-- One or more such steps. -/
inductive NeedsPlus (body : R → Expr R) (src : Source) : Expr R × Nat → Expr R × Nat → Prop where
  | one {x y} : Needs body src x y → NeedsPlus body src x y
  | step {x y z} : Needs body src x y → NeedsPlus body src y z → NeedsPlus body src x z

end PP
