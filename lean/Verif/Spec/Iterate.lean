import Verif.Spec.Peg
import Verif.Spec.WellFormed

/-! # Specification: direct left recursion as iteration

A rule `A = (A, b1) / (A, b2) / a` (`a`, `bi` free of leftmost `A`) is read as `A = a (b1 / b2)*`.  `iterBody` rewrites a grammar
that way; the result contains no left-recursive reference, so `Peg` gives it a meaning. -/
namespace PP
variable {R : Type}

/-- `HeadTail inv A e b`: the expression `e` is "a left-recursive reference to `A`, then `b`", up to grouping, and with
alternatives that all start with `A` factored: `(A,b1) / (A,b2)` is `A, (b1 / b2)`. -/
inductive HeadTail (inv : List R) (A : R) : Expr R → Expr R → Prop where
  | base {b} : HeadTail inv A (.sequence (.varNameLR inv A) b) b
  | seq {e b c} : HeadTail inv A e b → HeadTail inv A (.sequence e c) (.sequence b c)
  | sub {e b} : HeadTail inv A e b → HeadTail inv A (.subexpression e) b
  | choice {e b e' b'} : HeadTail inv A e b → HeadTail inv A e' b' →
      HeadTail inv A (.orderedChoice e e') (.orderedChoice b b')

/-- Turn left-recursive references into ordinary ones. -/
def Expr.deLR : Expr R → Expr R
  | .andPredicate e => .andPredicate e.deLR
  | .notPredicate e => .notPredicate e.deLR
  | .oneOrMore e => .oneOrMore e.deLR
  | .zeroOrMore e => .zeroOrMore e.deLR
  | .optional e => .optional e.deLR
  | .subexpression e => .subexpression e.deLR
  | .orderedChoice a b => .orderedChoice a.deLR b.deLR
  | .sequence a b => .sequence a.deLR b.deLR
  | .varNameLR _ r => .varName r
  | .hooked n e => .hooked n e.deLR
  | .terminal c => .terminal c
  | .stringTerminal d => .stringTerminal d
  | .matchRange lo hi => .matchRange lo hi
  | .varName r => .varName r
  | .inlined r => .inlined r

/-- What the grammar designer declares about a left-recursive rule: its involved set, its non-recursive alternatives `a` and
the tail `b` of its recursive ones. -/
structure LRDecl (R : Type) where
  involved : List R
  first : Expr R
  tail : Expr R

/-- The grammar with every declared left-recursive rule `A = (A, b) / a` replaced by `A = a b*`. -/
def iterBody (body : R → Expr R) (lr : R → Option (LRDecl R)) (r : R) : Expr R :=
  match lr r with
  | some d => .sequence d.first.deLR (.zeroOrMore d.tail.deLR)
  | none => (body r).deLR

/-- Every reference inside `e` is of the kind the generator emits for it: left-recursive (with its involved set) exactly for
the declared rules.  No hooked calls. -/
def Expr.RefsOK (lr : R → Option (LRDecl R)) : Expr R → Prop
  | .andPredicate e | .notPredicate e | .oneOrMore e | .zeroOrMore e | .optional e | .subexpression e => e.RefsOK lr
  | .orderedChoice a b | .sequence a b => a.RefsOK lr ∧ b.RefsOK lr
  | .terminal _ | .stringTerminal _ | .matchRange _ _ => True
  | .varName r | .inlined r => lr r = none
  | .varNameLR inv r => ∃ d, lr r = some d ∧ d.involved = inv
  | .hooked _ _ => False

/-- `CallsLR body e B`: `e` contains a left-recursive reference to `B`, possibly inside rules referenced by ordinary
references, but not inside other left-recursive rules. -/
inductive CallsLR (body : R → Expr R) : Expr R → R → Prop where
  | lr {inv r} : CallsLR body (.varNameLR inv r) r
  | ref {r B} : CallsLR body (body r) B → CallsLR body (.varName r) B
  | inl {r B} : CallsLR body (body r) B → CallsLR body (.inlined r) B
  | andP {e B} : CallsLR body e B → CallsLR body (.andPredicate e) B
  | notP {e B} : CallsLR body e B → CallsLR body (.notPredicate e) B
  | opt {e B} : CallsLR body e B → CallsLR body (.optional e) B
  | star {e B} : CallsLR body e B → CallsLR body (.zeroOrMore e) B
  | plus {e B} : CallsLR body e B → CallsLR body (.oneOrMore e) B
  | sub {e B} : CallsLR body e B → CallsLR body (.subexpression e) B
  | left {a b B} : CallsLR body a B → CallsLR body (.orderedChoice a b) B
  | right {a b B} : CallsLR body b B → CallsLR body (.orderedChoice a b) B
  | fst {a b B} : CallsLR body a B → CallsLR body (.sequence a b) B
  | snd {a b B} : CallsLR body b B → CallsLR body (.sequence a b) B

/-- The grammar uses direct left recursion only, in the form `A = (A, b) / a`; and while `A` is being grown, no rule of its
involved set is called again before some other left-recursive rule has taken over (see C23 for what happens otherwise). -/
structure DirectLR (body : R → Expr R) (lr : R → Option (LRDecl R)) : Prop where
  shape : ∀ r d, lr r = some d → r ∈ d.involved ∧ ∃ e, body r = .orderedChoice e d.first ∧ HeadTail d.involved r e d.tail
  refsFirst : ∀ r d, lr r = some d → d.first.RefsOK lr ∧ d.tail.RefsOK lr
  refs : ∀ r, lr r = none → (body r).RefsOK lr
  noReentry : ∀ r d, lr r = some d → ∀ B, CallsLR body d.first B ∨ CallsLR body d.tail B → B ∉ d.involved
  firstConsumes : ∀ r d, lr r = some d → ¬ MayBeEmpty (iterBody body lr) d.first.deLR
  wf : WellFormed (iterBody body lr)

/-! Decidable certificates -/

/-- Table-driven over-approximation of `CallsLR`: all `CallsLR` targets satisfy `ok`, where `tab r` says the same of the body
of rule `r`. -/
def Expr.callsIn (tab : R → Bool) (ok : R → Bool) : Expr R → Bool
  | .andPredicate e | .notPredicate e | .oneOrMore e | .zeroOrMore e | .optional e | .subexpression e => e.callsIn tab ok
  | .orderedChoice a b | .sequence a b => a.callsIn tab ok && b.callsIn tab ok
  | .terminal _ | .stringTerminal _ | .matchRange _ _ => true
  | .varName r | .inlined r => tab r
  | .varNameLR _ r => ok r
  | .hooked _ _ => true

theorem CallsLR.ok {body : R → Expr R} {tab ok : R → Bool} (h : ∀ r, tab r = true → (body r).callsIn tab ok = true)
    {e : Expr R} {B : R} (hc : CallsLR body e B) (he : e.callsIn tab ok = true) : ok B = true := by
  induction hc with
  | ref _ ih | inl _ ih => exact ih (h _ he)
  | _ => simp_all [Expr.callsIn]

end PP
