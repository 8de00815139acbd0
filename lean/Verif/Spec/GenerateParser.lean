import Verif.Spec.Mini.Front
import Verif.Spec.Rs.Chain

/-! # Specification: `generate_parser`, executed

generator/src/lib.rs:25-57, on the contents of the file.  Two texts are executed: that of the parser of grammar files (parser/src, by
`Spec/Mini`) and that of the generator (generator/src, by `Spec/Rs`).  The tree of nodes goes from one to the other: `Mini.encPub` and
`Rs.encTree` are the value of a tree of nodes in the two. -/
namespace PP
open PP.Gen

/-- The program: the parser crate, the generator crate, and the order in which the hash containers of the latter are iterated. -/
structure GeneratorText where
  parser : Mini.Prog
  generator : List Rs.Item
  ord : List Rs.Val → List Rs.Val

/-- The world of the generator crate. -/
def GeneratorText.world (T : GeneratorText) : Rs.World := ⟨T.generator, T.ord⟩

/-- The name of the variant of `Rules` in parser/src/rules.rs. -/
def dslVariant (r : Dsl) : Mini.Name := Mini.nameOf (Mini.variantOf (Files.dslEnum.map utf8Of) (utf8Of (Files.dslName r)))

/-- The function `grammar` ends at the position `q` of the text. -/
def GeneratorText.ParsesTo (T : GeneratorText) (n : Nat) (src : Bytes) (q : Nat) : Prop :=
  ∃ b ctx h, Mini.runGrammar T.parser n src = .ok (.tuple [.tuple [.bool b, .int q], ctx]) h

/-- `clear_false` returns `tree`. -/
def GeneratorText.ClearsTo (T : GeneratorText) (n : Nat) (src : Bytes) (tree : Publisher Dsl) : Prop :=
  ∃ h, Mini.runClear T.parser n src = .ok (Mini.encPub dslVariant tree) h

/-- The text is rejected: `grammar` does not end at its end, and `count_lines` returns the line that is printed
(generator/src/lib.rs:39-44). -/
def GeneratorText.Rejects (T : GeneratorText) (n : Nat) (src : Bytes) (line : Nat) : Prop :=
  ∃ q, T.ParsesTo n src q ∧ q ≠ src.length ∧
    (T.world.call n none n!"count_lines" [.str src, .num true q]).Returns (.num true line)

/-- The text is accepted, and the two files are made. -/
def GeneratorText.Generates (T : GeneratorText) (n : Nat) (src rulesRs parserRs : Bytes) : Prop :=
  T.ParsesTo n src src.length ∧ ∃ tree, T.ClearsTo n src tree ∧ Rs.Writes T.world n tree src rulesRs parserRs

/-- The text is accepted, and then the generator panics. -/
def GeneratorText.Panics (T : GeneratorText) (n : Nat) (src : Bytes) : Prop :=
  T.ParsesTo n src src.length ∧ ∃ tree, T.ClearsTo n src tree ∧ Rs.Stops T.world n tree src

end PP
