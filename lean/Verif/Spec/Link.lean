import Verif.Spec.GenSpec
import Verif.Spec.WellFormed
import Verif.Model.Gen.Generate
import Mathlib.Logic.Relation

/-! # Specification: parsers made of generated code, and recursion hidden from the generator -/
namespace PP.Gen
variable {R U : Type}

/-- The same closure, with rules called by the names of their functions; involved sets are compared as sets. -/
def Agrees (name : R → Bytes) : Expr R → Expr Bytes → Prop
  | .andPredicate a, .andPredicate e => Agrees name a e
  | .notPredicate a, .notPredicate e => Agrees name a e
  | .oneOrMore a, .oneOrMore e => Agrees name a e
  | .zeroOrMore a, .zeroOrMore e => Agrees name a e
  | .optional a, .optional e => Agrees name a e
  | .subexpression a, .subexpression e => Agrees name a e
  | .hooked h a, .hooked h' e => h = h' ∧ Agrees name a e
  | .orderedChoice a b, .orderedChoice e f => Agrees name a e ∧ Agrees name b f
  | .sequence a b, .sequence e f => Agrees name a e ∧ Agrees name b f
  | .terminal c, .terminal c' => c = c'
  | .stringTerminal d, .stringTerminal d' => d = d'
  | .matchRange lo hi, .matchRange lo' hi' => lo = lo' ∧ hi = hi'
  | .varName r, .varName f => name r = f
  | .inlined r, .inlined f => name r = f
  | .varNameLR inv r, .varNameLR inv' f => name r = f ∧ ∀ x, x ∈ inv' ↔ ∃ s ∈ inv, name s = x
  | _, _ => False

/-- The rules `R` with bodies `body` are the generated functions `c`: one rule per function, its body the closure the
statements of the function build.  (No two functions have the same name; every function that is called is defined.) -/
structure Links (c : GeneratedCode) (body : R → Expr R) (name : R → Bytes) : Prop where
  nodup : (c.rules.map fun k => k.name).Nodup
  inj : ∀ r s, name r = name s → r = s
  all : ∀ k ∈ c.rules, ∃ r, name r = k.name
  fn : ∀ r, ∃ k ∈ c.rules, k.name = name r ∧ ∃ e, execLines .empty k.lines = some e ∧ Agrees name (body r) e

/-- Every reference an ordinary one. -/
def plainRefs : Refs := ⟨fun _ => false, fun _ => none⟩

/-- `W` is the grammar as written: the closure of each rule, by function name, all references ordinary. -/
def DGrammar.Means (g : DGrammar) (W : Bytes → Expr Bytes) : Prop :=
  ∀ r ∈ g, r.rhs.meaning written plainRefs = some (W (lower r.name))

/-- `x` might evaluate `y` before anything is consumed, and it refers to `y` by a name the generator does not regard as left
recursive. -/
def DGrammar.Hidden (g : DGrammar) (W : Bytes → Expr Bytes) (x y : Bytes) : Prop :=
  FirstRef W (W x) y ∧ ∃ r ∈ g, lower r.name = x ∧ ∃ z ∈ r.rhs.refs, lower z = y ∧ ¬ g.LeftRecursive z

mutual
/-- The names of the hooked calls, in order of writing. -/
def DRhs.hooks : DRhs → List Bytes
  | .atom _ a => a.hooks
  | .chain _ _ a as => a.hooks ++ as.hooks
def DAtoms.hooks : DAtoms → List Bytes
  | .one _ a => a.hooks
  | .cons _ a as => a.hooks ++ as.hooks
def DAtom.hooks : DAtom → List Bytes
  | .plain n => n.hooks
  | .pre _ n => n.hooks
  | .post _ n _ => n.hooks
def DNuc.hooks : DNuc → List Bytes
  | .mk c _ => c.hooks
def DCore.hooks : DCore → List Bytes
  | .hook name r => name :: r.hooks
  | .sub r => r.hooks
  | _ => []
end

/-- No hooked calls, and no rule the generator regards as left recursive. -/
def DGrammar.Simple (g : DGrammar) : Prop := (∀ r ∈ g, r.rhs.hooks = []) ∧ ∀ x, ¬ g.LeftRecursive x

/-- Every name referred to is declared (in the same spelling), and no two declarations differ only in case. -/
def DGrammar.Closed (g : DGrammar) : Prop :=
  (∀ r ∈ g, ∀ z ∈ r.rhs.refs, ∃ r' ∈ g, r'.name = z) ∧ g.Pairwise fun r r' => lower r.name ≠ lower r'.name

/-- Function names of a grammar. -/
abbrev DGrammar.Fn (g : DGrammar) : Type := { f : Bytes // f ∈ g.map fun d => lower d.name }

end PP.Gen
