import Verif.Spec.GenerateParser
import Verif.Spec.Mini.Runnable
import Verif.Spec.Rs.Files
import Verif.Model.Texts
import Verif.Model.Files

/-! # Specification: from the text of a grammar file to a program, by executing the text of the generator -/
namespace PP
open PP.Gen

/-- The program `Q` is made of the grammar file `src`: `generate_parser`, executed, makes rules.rs and parser.rs (the same at every sufficient
recursion depth), and the crate of the copied core files, the user's files `user` and these two reads as `Q`. -/
def GeneratorText.Compiles (T : GeneratorText) (user : List Bytes) (src : Bytes) (Q : Mini.Prog) : Prop :=
  ∃ rulesRs parserRs N, (∀ n, N ≤ n → T.Generates n src rulesRs parserRs) ∧ Mini.readCrate (Mini.coreFilesOfParser ++ user ++ [rulesRs, parserRs]) = some Q

/-- Generations of the generator.  Generation 0 is the one in the repository: parser/src and generator/src.  Generation `k + 1` is
generator/src with the parser crate that generation `k` makes of the grammar of grammar files (parser/Grammar.dsl).
The hash containers of each may be iterated in any order. -/
inductive Generation : Nat → GeneratorText → Prop
  | first {Q P ord} : Mini.readCrate (Mini.coreFilesOfParser ++ Mini.userFiles ++ [fileOf Texts.dslRules, fileOf Texts.dslParser]) = some Q →
      Rs.readFiles Rs.generatorFiles = some P → (∀ l, (ord l).Perm l) → Generation 0 ⟨Q, P, ord⟩
  | next {k T Q ord} : Generation k T → T.Compiles Mini.userFiles (fileOf Files.dslFile) Q → (∀ l, (ord l).Perm l) →
      Generation (k + 1) ⟨Q, T.generator, ord⟩

end PP
