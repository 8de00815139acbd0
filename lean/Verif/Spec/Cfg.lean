import Verif.Model.Interp

/-! # Specification: the context-free grammar underlying a parser

Predicates derive the empty word, choices are unordered, repetitions are arbitrary, hooks derive what they wrap. -/
namespace PP
variable {R : Type}

/-- `Derives body e w`: the word `w` is derivable from `e`. -/
inductive Derives (body : R → Expr R) : Expr R → List UInt8 → Prop where
  | terminal {c} : Derives body (.terminal c) [c]
  | range {lo hi} {c : UInt8} : lo ≤ c.toNat → c.toNat ≤ hi → Derives body (.matchRange lo hi) [c]
  | string {d} : Derives body (.stringTerminal d) d
  | seq {a b v w} : Derives body a v → Derives body b w → Derives body (.sequence a b) (v ++ w)
  | left {a b w} : Derives body a w → Derives body (.orderedChoice a b) w
  | right {a b w} : Derives body b w → Derives body (.orderedChoice a b) w
  | andP {e} : Derives body (.andPredicate e) []
  | notP {e} : Derives body (.notPredicate e) []
  | none {e} : Derives body (.optional e) []
  | some {e w} : Derives body e w → Derives body (.optional e) w
  | starNil {e} : Derives body (.zeroOrMore e) []
  | starCons {e v w} : Derives body e v → Derives body (.zeroOrMore e) w → Derives body (.zeroOrMore e) (v ++ w)
  | plus {e v w} : Derives body e v → Derives body (.zeroOrMore e) w → Derives body (.oneOrMore e) (v ++ w)
  | sub {e w} : Derives body e w → Derives body (.subexpression e) w
  | ref {r w} : Derives body (body r) w → Derives body (.varName r) w
  | lr {inv r w} : Derives body (body r) w → Derives body (.varNameLR inv r) w
  | inl {r w} : Derives body (body r) w → Derives body (.inlined r) w
  | hook {n e w} : Derives body e w → Derives body (.hooked n e) w

end PP
