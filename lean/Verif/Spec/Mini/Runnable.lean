import Verif.Spec.Usable
import Verif.Spec.Mini.Files
import Verif.Model.Runner

/-! # Specification: grammars whose generated crate can be run -/
namespace PP.Gen

/-- The functions of the core whose names a rule might have (the others start with an underscore). -/
def coreFunctions : List Bytes :=
  ["parse", "memoized_behaviour", "default_behaviour", "convert_vec_to_btree_set", "should_go_into_growth_function"].map utf8Of

/-- What has to hold of a grammar for its generated crate to be a program of the fragment of Rust that is executed here: the names are
usable, no hooked calls, there is a rule `Grammar` for `parse` to start at, and no rule is called like a function of the core. -/
structure DGrammar.Runnable (g : DGrammar) : Prop where
  usable : g.Usable
  noSet : g.NoSetName
  hooks : ∀ r ∈ g, r.rhs.hooks = []
  start : ∃ r ∈ g, ¬ g.Inlined r.name ∧ capitalised r.name = utf8Of "Grammar"
  free : ∀ r ∈ g, lowered r.name ∉ coreFunctions

/-- The same for a grammar with hooked calls, all of which are among `hs`. -/
structure DGrammar.RunnableWith (g : DGrammar) (hs : List Bytes) : Prop where
  usable : g.Usable
  noSet : g.NoSetName
  hooks : ∀ r ∈ g, ∀ x ∈ r.rhs.hooks, x ∈ hs
  start : ∃ r ∈ g, ¬ g.Inlined r.name ∧ capitalised r.name = utf8Of "Grammar"
  free : ∀ r ∈ g, lowered r.name ∉ coreFunctions ∧ lowered r.name ∉ hs

end PP.Gen

namespace PP.Mini
open PP.Gen

/-- The files of the crate the runner makes of generated code, as far as `parse` uses them. -/
def crateFiles (c : GeneratedCode) : List Bytes := coreFilesOfParser ++ userFiles ++ [Run.rulesFile c, Run.parserFile c]

/-- The same, where the user has replaced user_state.rs and hooked_calls.rs by those of example 11. -/
def crateFiles11 (c : GeneratedCode) : List Bytes := coreFilesOfParser ++ ex11UserFiles ++ [Run.rulesFile c, Run.parserFile c]

/-- The start rule, by function name. -/
abbrev startRule : Expr Bytes := .varName (utf8Of "grammar")

end PP.Mini
