import Verif.Spec.GenSpec
import Verif.Spec.Link
import Verif.Spec.RustText

/-! # Specification: grammars whose generated files compile, as far as names go -/
namespace PP.Gen

/-- The parameters of every generated function (they hide functions and imports of the same name). -/
def parameters : List Bytes := ["user_state", "parent", "context", "source", "position"].map utf8Of

/-- What has to hold of the names in a grammar for the generated files to compile. -/
structure DGrammar.Usable (g : DGrammar) : Prop where
  /-- no two functions have the same name -/
  rules : g.Pairwise fun r r' => lowered r.name ≠ lowered r'.name
  /-- no function is named by a keyword -/
  ruleWords : ∀ r ∈ g, lowered r.name ∉ Text.keywords
  /-- no hook is imported twice -/
  hooks : (g.map fun r => r.rhs.hooks).flatten.Nodup
  /-- no hook has the name of a function of the file, of a keyword, or of a parameter -/
  hookRules : ∀ r ∈ g, ∀ h ∈ r.rhs.hooks, ∀ r' ∈ g, h ≠ lowered r'.name
  hookWords : ∀ r ∈ g, ∀ h ∈ r.rhs.hooks, h ∉ Text.keywords
  hookParams : ∀ r ∈ g, ∀ h ∈ r.rhs.hooks, h ∉ parameters
  /-- no function that is referred to has the name of a parameter -/
  refParams : ∀ r ∈ g, ∀ z ∈ r.rhs.refs, lowered z ∉ parameters
  /-- references are to inlined rules, or to rules with a variant in the enum (up to the case of the first letter) -/
  declared : ∀ r ∈ g, ∀ z ∈ r.rhs.refs, g.Inlined z ∨ ∃ r' ∈ g, ¬ g.Inlined r'.name ∧ capitalised r'.name = capitalised z
  /-- no left-recursive rule that a reference involves is inlined -/
  involved : ∀ r ∈ g, ∀ z ∈ r.rhs.refs, ∀ y, g.LeftRecursive y → g.Leads z y → ¬ g.Inlined y

/-- No rule or hook is called by the name of the local variable that holds involved sets. -/
def DGrammar.NoSetName (g : DGrammar) : Prop :=
  ∀ r ∈ g, utf8Of "involved_set" ∉ r.rhs.hooks ∧ ∀ z ∈ r.rhs.refs, lowered z ≠ utf8Of "involved_set"

end PP.Gen
