import Verif.Model.Gen.Text
import Verif.Model.Parsers
import Verif.Model.Grammars.Dsl

/-! # Model of test-grammar-proc-macro/src/lib.rs -/
namespace PP.TestMacro
open PP.Gen

/-- `Path::file_stem` of a file name (used at test-grammar-proc-macro/src/lib.rs:28-32): what is before the last dot; the whole name if there is no
dot, or only one and in front. -/
def stem (name : Bytes) : Bytes :=
  match name.reverse.dropWhile (· != 46) with
  | [] => name
  | [_] => name
  | _ :: before => before.reverse

/-- test-grammar-proc-macro/src/lib.rs:33-35: `to_lowercase`, `replace('-', "_")`, and the prefix.  Only for ASCII names. -/
def identOf (name : Bytes) : Bytes :=
  utf8Of "test_grammar_file_" ++ (lower (stem name)).map fun c => if c = 45 then 95 else c

/-- `syn::Ident::new` (test-grammar-proc-macro/src/lib.rs:36) panics unless this holds; for ASCII strings that start with a letter. -/
def isIdent (s : Bytes) : Bool := s.all fun c => (97 ≤ c && c ≤ 122) || (65 ≤ c && c ≤ 90) || (48 ≤ c && c ≤ 57) || c == 95

/-- A test function: its name, and the name of the file (in the directory) it reads. -/
structure Test where
  ident : Bytes
  file : Bytes
  deriving DecidableEq

/-- test-grammar-proc-macro/src/lib.rs:19-61: the tests for the entries of the directory, in the order of `read_dir`; `none`: the macro panics.
The panics for directories that cannot be read and for names that are not UTF-8 are left out. -/
def expand : List Bytes → Option (List Test)
  | [] => some []
  | name :: names =>
    if isIdent (identOf name) then (expand names).map (⟨identOf name, name⟩ :: ·) else none

/-- test-grammar-proc-macro/src/lib.rs:45-58, the body of a test; `content` is what `read_to_string` gives (`none`: an error), and `shared`, which the
user of the macro supplies, runs the start rule as `parse` does.  `fuel` bounds the recursion depth; `true`: the test passes. -/
def passes (fuel : Nat) (content : Option Bytes) : Bool :=
  match content with
  | none => false
  | some src =>
    match parse dslParser ⟨src⟩ fuel with
    | .ok (b, q, _) => b == true && q == src.length % 4294967296
    | _ => false

end PP.TestMacro
