import Verif.Spec.Rs.Encode
import Verif.Spec.Rs.Files

/-! # Specification: the calls that `generate_parser` makes, one after the other

generator/src/lib.rs:51-55, and runner/src/lib.rs for the two files that are made of the result. -/
namespace PP.Rs
open PP.Gen

/-- The text of the program makes the two files of the cleared syntax tree and the text of a grammar: the symbol table, the detector of left
recursion, the generated code of these, and the two files of the code. -/
def Writes (W : World) (m : Nat) (tree : Publisher Dsl) (src rulesRs parserRs : Bytes) : Prop :=
  ∃ S L G,
    (W.call m (some n!"SymbolTable") n!"new" [encTree tree, .str src]).Returns S ∧
    (W.call m (some n!"LeftRecursionDetector") n!"new" [encTree tree, .str src]).Returns L ∧
    (W.call m (some n!"GeneratedCode") n!"new" [L, S, encTree tree, .str src]).Returns G ∧
    (W.call m (some n!"GeneratedCode") n!"rules_enum_file_content" [G]).Returns (.str rulesRs) ∧
    (W.call m (some n!"GeneratedCode") n!"parser_file_content" [G]).Returns (.str parserRs)

/-- One of these calls panics (before either file is made). -/
def Stops (W : World) (m : Nat) (tree : Publisher Dsl) (src : Bytes) : Prop :=
  W.call m (some n!"SymbolTable") n!"new" [encTree tree, .str src] = .panic ∨
  ∃ S, (W.call m (some n!"SymbolTable") n!"new" [encTree tree, .str src]).Returns S ∧
    (W.call m (some n!"LeftRecursionDetector") n!"new" [encTree tree, .str src] = .panic ∨
     ∃ L, (W.call m (some n!"LeftRecursionDetector") n!"new" [encTree tree, .str src]).Returns L ∧
      W.call m (some n!"GeneratedCode") n!"new" [L, S, encTree tree, .str src] = .panic)

end PP.Rs
