import Verif.Model.Runner
import Verif.Spec.Files
import Verif.Spec.RustText

/-! # Specification: checked-in `rules.rs` and `parser.rs`, read as Rust -/
namespace PP.Gen
open Text PP.Run

/-- The two files, read as Rust, define the rules `rules`, in this order, under these names, with these bodies; and the enum. -/
def IsTextOf {R : Type} (rulesRs parserRs : Bytes) (rules : List R) (body : R → Expr R) (name : R → Bytes) (enum : List Bytes) : Prop :=
  readRules rulesRs = some enum ∧ ∃ P, program rulesRs parserRs = some P ∧ P.map Prod.fst = rules.map name ∧
    ∀ x ∈ P.zip rules, Agrees name (body x.2) x.1.2

/-- Two pairs of files that define the same enum, and the same functions in the same order: of the same names, building the same
closures (involved sets compared as sets). -/
def SameParser (rulesRs parserRs rulesRs' parserRs' : Bytes) : Prop :=
  ∃ vs P P', readRules rulesRs = some vs ∧ readRules rulesRs' = some vs ∧ program rulesRs parserRs = some P ∧
    program rulesRs' parserRs' = some P' ∧ P.map Prod.fst = P'.map Prod.fst ∧ ∀ x ∈ P.zip P', Agrees id x.1.2 x.2.2

/-- The checked-in files are up to date: for every iteration order of the hash containers, what the generator writes for `file` defines
the same parser as the checked-in files. -/
def UpToDate (file rulesRs parserRs : Bytes) : Prop :=
  ∃ c : GeneratedCode, (∀ ord : HashOrd, ∃ N, ∀ n, N ≤ n → generateParser ord n file = .ok (.code c)) ∧
    SameParser (rulesFile c) (parserFile c) rulesRs parserRs

end PP.Gen
