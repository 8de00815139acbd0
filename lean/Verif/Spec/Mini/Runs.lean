import Verif.Spec.Mini.Crate

/-! # Specification: two crates that cannot be told apart by calling `parse` -/
namespace PP.Mini
open PP.Gen

/-- Called with the same input, both return the same value (truth, end position and tree), or both panic, or neither ends. -/
structure SameRuns (Q Q' : Prog) : Prop where
  returns : ∀ input v, (∃ n h, runParse Q n input = .ok v h) ↔ ∃ n h, runParse Q' n input = .ok v h
  panics : ∀ input, (∃ n, runParse Q n input = .panic) ↔ ∃ n, runParse Q' n input = .panic

end PP.Mini
