import Verif.Model.Interp

/-! # Specification: the same parser, with its rules called by other names -/
namespace PP
variable {R R' U : Type}

/-- `ρ` pairs the rules of one parser with those of another: no rule has two partners. -/
structure Pairing (ρ : R → R' → Prop) : Prop where
  right : ∀ {r r' s'}, ρ r r' → ρ r s' → r' = s'
  left : ∀ {r s r'}, ρ r r' → ρ s r' → r = s

/-- Two lists hold the same rules, in whatever order and however often. -/
def SameSet (ρ : R → R' → Prop) (xs : List R) (ys : List R') : Prop :=
  (∀ x ∈ xs, ∃ y ∈ ys, ρ x y) ∧ ∀ y ∈ ys, ∃ x ∈ xs, ρ x y

/-- The same closure: other names for the rules, and the involved sets listed in another order. -/
def Expr.Same (ρ : R → R' → Prop) : Expr R → Expr R' → Prop
  | .andPredicate a, .andPredicate e => a.Same ρ e
  | .notPredicate a, .notPredicate e => a.Same ρ e
  | .oneOrMore a, .oneOrMore e => a.Same ρ e
  | .zeroOrMore a, .zeroOrMore e => a.Same ρ e
  | .optional a, .optional e => a.Same ρ e
  | .subexpression a, .subexpression e => a.Same ρ e
  | .hooked h a, .hooked h' e => h = h' ∧ a.Same ρ e
  | .orderedChoice a b, .orderedChoice e f => a.Same ρ e ∧ b.Same ρ f
  | .sequence a b, .sequence e f => a.Same ρ e ∧ b.Same ρ f
  | .terminal c, .terminal c' => c = c'
  | .stringTerminal d, .stringTerminal d' => d = d'
  | .matchRange lo hi, .matchRange lo' hi' => lo = lo' ∧ hi = hi'
  | .varName r, .varName f => ρ r f
  | .inlined r, .inlined f => ρ r f
  | .varNameLR inv r, .varNameLR inv' f => ρ r f ∧ SameSet ρ inv inv'
  | _, _ => False

/-- The same parser: hooked calls and user state identical, start rules partners, and the bodies of partners the same. -/
structure Parser.Same (ρ : R → R' → Prop) (P : Parser R U) (P' : Parser R' U) : Prop where
  grammar : ρ P.grammar P'.grammar
  body : ∀ {r r'}, ρ r r' → (P.body r).Same ρ (P'.body r')
  hook : P.hook = P'.hook
  userInit : P.userInit = P'.userInit

/-- The same node: everything but the rule equal, and the rules partners. -/
structure Node.Same (ρ : R → R' → Prop) (a : Node R) (b : Node R') : Prop where
  rule : ρ a.rule b.rule
  index : a.index = b.index
  start : a.start = b.start
  stop : a.stop = b.stop
  result : a.result = b.result
  children : a.children = b.children

/-- The same tree: the same nodes under the same keys. -/
structure Publisher.Same (ρ : R → R' → Prop) (t : Publisher R) (t' : Publisher R') : Prop where
  length : t.nodes.length = t'.nodes.length
  node : ∀ (k : Nat) (a : Node R) (b : Node R'), t.nodes[k]? = some a → t'.nodes[k]? = some b → a.Same ρ b

/-- Both run out of fuel, both panic in the same way, or both return, with related results. -/
def Out.Rel {α β : Type} (S : α → β → Prop) : Out α → Out β → Prop
  | .oof, .oof => True
  | .panic p, .panic p' => p = p'
  | .ok a, .ok b => S a b
  | _, _ => False

/-- The same result of a parse. -/
def SameResult (ρ : R → R' → Prop) (x : Bool × Nat × Publisher R) (y : Bool × Nat × Publisher R') : Prop :=
  x.1 = y.1 ∧ x.2.1 = y.2.1 ∧ x.2.2.Same ρ y.2.2

end PP
