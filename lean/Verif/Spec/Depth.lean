import Verif.Spec.Tree
import Verif.Model.Interp

/-! # Specification: sizes that bound the depth of calls -/
namespace PP
variable {R : Type}

/-- How deeply the combinators of an expression are nested. -/
def Expr.height : Expr R → Nat
  | .andPredicate e | .notPredicate e | .oneOrMore e | .zeroOrMore e | .optional e | .subexpression e | .hooked _ e => e.height + 1
  | .orderedChoice a b | .sequence a b => max a.height b.height + 1
  | .terminal _ | .stringTerminal _ | .matchRange _ _ | .varName _ | .varNameLR _ _ | .inlined _ => 1

/-- Height of a forest. -/
def Tree.htL : List (Tree R) → Nat
  | [] => 0
  | .node _ _ kids :: ts => max (htL kids + 1) (htL ts)

end PP
