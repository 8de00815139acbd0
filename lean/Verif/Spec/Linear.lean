import Verif.Spec.Peg

/-! # Specification: a certificate that the returned tree is linear in the text

`Lin` describes an expression at a position `p`, given a fixed byte `s`; `S` is the number of nodes that survive
`clear_false` among those recorded while evaluating it, and `C` a fixed slope:
* `d`: if it succeeds ending at `q`, `S + d ≤ C * (q - p)`;
* `m`: if it succeeds, `S ≤ m` (if known);
* `f`: if it fails, `S ≤ f` (if known);
* `g`: if it fails and the byte at `p` is not `s`, `S ≤ g` (if known);
* `only`: it succeeds only if the byte at `p` is `s`;
* `avoid`: it succeeds only if the byte at `p` is not `s`;
* `total`: it never fails. -/
namespace PP
variable {R : Type}

structure Lin where
  d : Int
  m : Option Nat
  f : Option Nat
  g : Option Nat
  only : Bool
  avoid : Bool
  total : Bool
  deriving DecidableEq, Repr

/-- Nodes left over by the first alternative (`x`) when the second (`y`) succeeds. -/
def Lin.leftover (x y : Lin) : Option Nat := if y.avoid then x.g else x.f

def optMax : Option Nat → Option Nat → Option Nat
  | some a, some b => some (max a b)
  | _, _ => none
def optAdd : Option Nat → Option Nat → Option Nat
  | some a, some b => some (a + b)
  | _, _ => none
/-- `a ≤ b`, `none` being infinite -/
def optLe : Option Nat → Option Nat → Bool
  | _, none => true
  | some a, some b => a ≤ b
  | none, some _ => false

/-- The description of an expression, from descriptions `cert` of the rule bodies; `none` if none can be given. -/
def Expr.lin (C s : Nat) (cert : R → Lin) : Expr R → Option Lin
  | .terminal c => some ⟨C, some 0, some 0, some 0, c.toNat == s, c.toNat != s, false⟩
  | .matchRange lo hi => some ⟨C, some 0, some 0, some 0, lo == s && hi == s, decide (s < lo) || decide (hi < s), false⟩
  | .stringTerminal l => some ⟨C * l.length, some 0, some 0, some 0, false, false, false⟩
  | .inlined r => some (cert r)
  | .varName r => some ⟨(cert r).d - 1, (cert r).m.map (· + 1), some 0, some 0, (cert r).only, (cert r).avoid, (cert r).total⟩
  | .subexpression e => e.lin C s cert
  | .sequence a b => do
    let x ← a.lin C s cert
    let y ← b.lin C s cert
    some ⟨x.d + y.d, optAdd x.m y.m, if y.total then x.f else optMax x.f (optAdd x.m y.f),
      if x.only || y.total then x.g else optMax x.g (optAdd x.m y.f), x.only, x.avoid, x.total && y.total⟩
  | .orderedChoice a b => do
    let x ← a.lin C s cert
    let y ← b.lin C s cert
    let left ← x.leftover y
    some ⟨min x.d (y.d - left), optMax x.m (optAdd (some left) y.m), optAdd x.f y.f, optAdd x.g y.g,
      x.only && y.only, x.avoid && y.avoid, x.total || y.total⟩
  | .andPredicate e => do
    let x ← e.lin C s cert
    let m ← x.m
    some ⟨-m, some m, x.f, x.g, x.only, x.avoid, x.total⟩
  | .notPredicate e => do
    let x ← e.lin C s cert
    let f ← x.f
    some ⟨-f, some f, x.m, x.m, false, false, false⟩
  | .optional e => do
    let x ← e.lin C s cert
    let f ← x.f
    some ⟨min x.d (-f), optMax x.m (some f), some 0, some 0, false, false, true⟩
  | .zeroOrMore e => do
    let x ← e.lin C s cert
    let f ← x.f
    if 0 ≤ x.d then some ⟨-f, if x.m = some 0 then some f else none, some 0, some 0, false, false, true⟩ else none
  | .oneOrMore e => do
    let x ← e.lin C s cert
    let f ← x.f
    if 0 ≤ x.d then some ⟨x.d - f, if x.m = some 0 then some f else none, x.f, x.g, x.only, x.avoid, x.total⟩ else none
  | .varNameLR _ _ => none
  | .hooked _ _ => none

/-- `a` claims no more than `b`. -/
def Lin.le (a b : Lin) : Bool :=
  decide (a.d ≤ b.d) && optLe b.m a.m && optLe b.f a.f && optLe b.g a.g && (!a.only || b.only) && (!a.avoid || b.avoid) &&
    (!a.total || b.total)

/-- The certificate is valid: what it claims of each rule follows for the rule's body. -/
def linOK (C s : Nat) (cert : R → Lin) (body : R → Expr R) (rules : List R) : Bool :=
  rules.all fun r => match (body r).lin C s cert with
    | some x => (cert r).le x
    | none => false

end PP
