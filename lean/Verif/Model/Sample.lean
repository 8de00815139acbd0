import Verif.Model.Interp

/-! # Model of parser/src/sample_main.txt, the `main.rs` of every generated crate -/
namespace PP

/-- What is found at the path given with `--source`. -/
inductive GivenFile where
  /-- `canonicalize` fails -/
  | missing
  /-- `fs::read` fails -/
  | unreadable
  | bytes (d : List UInt8)

/-- The lines written to standard output; the texts of IO and UTF-8 errors and the path are left out. -/
inductive SampleLine (R : Type) where
  /-- `println!("{e:?}")`, parser/src/sample_main.txt:23 and 31 -/
  | someError
  /-- parser/src/sample_main.txt:24 "Failed to read file at .." -/
  | cannotRead
  /-- parser/src/sample_main.txt:28 "Successfully read source file: .." -/
  | readOk
  /-- parser/src/sample_main.txt:32 "Failed to read file as utf8" -/
  | notUtf8
  /-- a line of `print` -/
  | tree (l : Publisher.Line R)
  /-- parser/src/sample_main.txt:38 "Result: (b, q)" -/
  | result (b : Bool) (q : Nat)
  /-- parser/src/sample_main.txt:41-44 "Failed to parse to end of file. Parsed q chars from len chars" -/
  | notToEnd (q len : Nat)
  deriving DecidableEq

/-- parser/src/sample_main.txt:13-50 `main`, from the canonicalised path on: the lines printed and the exit status.  `String::from_utf8`
is Lean's `validateUTF8`; `src_len as u32` is the remainder modulo 2^32. -/
def sampleMain {R U : Type} [DecidableEq R] (P : Parser R U) (file : GivenFile) (n : Nat) : Out (List (SampleLine R) × Nat) :=
  match file with
  | .missing => .panic .explicit
  | .unreadable => .ok ([.someError, .cannotRead], 1)
  | .bytes d =>
    if d.toByteArray.validateUTF8 then do
      let (b, q, t) ← parse P ⟨d⟩ n
      let ls ← t.print n 0 (some true)
      .ok (.readOk :: (ls.map .tree ++ (.result b q ::
        if d.length % 4294967296 ≠ q then [.notToEnd q d.length] else [])), 0)
    else .ok ([.readOk, .someError, .notUtf8], 2)

end PP
