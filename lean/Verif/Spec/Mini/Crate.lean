import Verif.Spec.Mini.Reader
import Verif.Spec.Mini.Encode
import Verif.Model.Interp

/-! # Specification: a parser crate, executed, computes what the model computes -/
namespace PP.Mini
open PP.Gen

/-- The items of the files of a crate. -/
def readCrate : List Bytes → Option Prog
  | [] => some []
  | f :: fs => do
    let is ← readFile f
    let js ← readCrate fs
    some (is ++ js)

/-- `parse(input)`, executed; `n` bounds the depth of calls and the number of rounds of each loop. -/
def runParse (Q : Prog) (n : Nat) (input : Bytes) : Res Val := run Q n (.fn none n!"parse") [.str input] []

/-- The variant of the enum `Rules` that belongs to a function; if there is none, because the rule is inlined, some other name. -/
def variantOf (enum : List Bytes) (f : Bytes) : Bytes := (enum.find? fun v => decide (lower v = f)).getD (1 :: f)

section
variable {R U : Type} [DecidableEq R]

/-- The result `(bool, u32, BasicPublisher)`. -/
def encResult (vn : R → Name) (x : Bool × Nat × Publisher R) : Val := .tuple [.bool x.1, .int x.2.1, encPub vn x.2.2]

/-- The program computes what the model `P` computes: for every input, if one of the two returns a result, the other returns the same
one; one panics iff the other does; and the execution never leaves the fragment of Rust that is described here. -/
structure Computes (Q : Prog) (P : Parser R U) (vn : R → Name) : Prop where
  sound : ∀ input n v h, runParse Q n input = .ok v h → ∃ m x, parse P ⟨input⟩ m = .ok x ∧ v = encResult vn x
  complete : ∀ input m x, parse P ⟨input⟩ m = .ok x → ∃ N, ∀ n, N ≤ n → ∃ h, runParse Q n input = .ok (encResult vn x) h
  panics : ∀ input, (∃ n, runParse Q n input = .panic) ↔ ∃ m p, parse P ⟨input⟩ m = .panic p
  total : ∀ input n, runParse Q n input = .oof ∨ runParse Q n input = .panic ∨ ∃ v h, runParse Q n input = .ok v h
end

end PP.Mini
