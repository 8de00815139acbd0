import Verif.Model.Gen.Constructor
import Verif.Model.Parsers

/-! # Model of generator/src/lib.rs -/
namespace PP.Gen

/-- generator/src/lib.rs:14-23 `count_lines` (`&bytes[0..p]` panics past the end) -/
def countLines (src : Bytes) (p : Nat) : Out Nat := do
  let s ← Source.byteSlice src 0 p
  .ok (s.foldl (fun n c => if c = 10 then n + 1 else n) 1)

/-- Outcome of `generate_parser`: the printed line number (and `None`), or the generated code. -/
inductive GenResult where
  | syntaxError (line : Nat)
  | code (c : GeneratedCode)
  deriving DecidableEq, Repr

/-- generator/src/lib.rs:25-57 `generate_parser`, given the contents of the file.  `grammar(..)` is called directly with
`Key(0)`, not through `_var_name`; `ord` is the iteration order of the hash containers. -/
def generateParser (ord : HashOrd) (fuel : Nat) (src : Bytes) : Out GenResult := do
  let (_, q, st) ← eval dslParser ⟨src⟩ fuel (Dsl.body .r_grammar) 0 0 (St.new .r_grammar ())
  if q ≠ src.length % 4294967296 then do
    let n ← countLines src q
    .ok (.syntaxError n)
  else do
    let tree ← st.pub.clearFalse .r_grammar fuel
    let sym ← SymbolTable.new tree src fuel
    let lr ← leftRecursionRules tree src ord fuel
    let code ← GeneratedCode.new { tree := tree, src := src, sym := sym, lr := lr, ord := ord } fuel
    .ok (.code code)

end PP.Gen
