import Verif.Model.Files
import Verif.Spec.Link

/-! # Specification: a checked-in parser is what the generator makes of its grammar file -/
namespace PP.Gen

/-- A file given rule by rule. -/
def fileOf (pieces : List String) : Bytes := (pieces.map utf8Of).flatten

/-- For every iteration order of the hash containers the generator turns `file` into one and the same code; its functions are, in this
order, those of `rules`, with the bodies `body`; its enum is `enum`. -/
def Regenerates {R : Type} (file : Bytes) (rules : List R) (body : R → Expr R) (name : R → Bytes) (enum : List Bytes) : Prop :=
  ∃ c : GeneratedCode, (∀ ord : HashOrd, ∃ N, ∀ n, N ≤ n → generateParser ord n file = .ok (.code c)) ∧ Links c body name ∧
    c.rules.map (fun k => k.name) = rules.map name ∧ c.variants = enum

end PP.Gen
