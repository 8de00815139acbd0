import Verif.Model.Interp

/-! # Specification: the same grammar up to the choice, at each reference, between a memoised call and an inlined call -/
namespace PP
variable {R : Type}

/-- `e ≈ e'`: equal except that any reference `r` may be an ordinary call on one side and an inlined call on the other. -/
inductive InlineEq : Expr R → Expr R → Prop where
  | andPredicate {e e'} : InlineEq e e' → InlineEq (.andPredicate e) (.andPredicate e')
  | notPredicate {e e'} : InlineEq e e' → InlineEq (.notPredicate e) (.notPredicate e')
  | oneOrMore {e e'} : InlineEq e e' → InlineEq (.oneOrMore e) (.oneOrMore e')
  | zeroOrMore {e e'} : InlineEq e e' → InlineEq (.zeroOrMore e) (.zeroOrMore e')
  | optional {e e'} : InlineEq e e' → InlineEq (.optional e) (.optional e')
  | subexpression {e e'} : InlineEq e e' → InlineEq (.subexpression e) (.subexpression e')
  | orderedChoice {a a' b b'} : InlineEq a a' → InlineEq b b' → InlineEq (.orderedChoice a b) (.orderedChoice a' b')
  | sequence {a a' b b'} : InlineEq a a' → InlineEq b b' → InlineEq (.sequence a b) (.sequence a' b')
  | terminal {c} : InlineEq (.terminal c) (.terminal c)
  | stringTerminal {d} : InlineEq (.stringTerminal d) (.stringTerminal d)
  | matchRange {lo hi} : InlineEq (.matchRange lo hi) (.matchRange lo hi)
  | varName {r} : InlineEq (.varName r) (.varName r)
  | inlined {r} : InlineEq (.inlined r) (.inlined r)
  | mark {r} : InlineEq (.varName r) (.inlined r)
  | unmark {r} : InlineEq (.inlined r) (.varName r)

end PP
