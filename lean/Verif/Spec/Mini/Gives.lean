import Verif.Spec.Mini.Evaluate

/-! # Specification: what a calculator gives for a text -/
namespace PP.Mini
open PP.Gen

/-- The result of a run: either the text returns it for all large enough bounds, or it panics. -/
def Gives (Q : Prog) (text : Bytes) (r : Option Val) : Prop :=
  match r with
  | some v => ∃ N, ∀ n, N ≤ n → ∃ h, runCalc Q n text = .ok v h
  | none => ∃ n, runCalc Q n text = .panic

end PP.Mini
