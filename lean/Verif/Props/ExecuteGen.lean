import Verif.Lemmas.Rs.ToString
import Verif.Spec.Rs.Files
import Verif.Lemmas.Rs.Texts.Keys
import Verif.Lemmas.Rs.Texts.Publisher
import Verif.Lemmas.Rs.Texts.BinaryWo
import Verif.Lemmas.Rs.Texts.SymbolTable
import Verif.Lemmas.Rs.Texts.CycleDetector
import Verif.Lemmas.Rs.Texts.Constructor
import Verif.Lemmas.Rs.Texts.Lib

/-! # C84: the Rust source text of the generator, executed, computes what the model computes -/
namespace PP.Rs
open PP.Gen

theorem readFiles_cons {f fs is js} (h : readFile f = some is) (h' : readFiles fs = some js) : readFiles (f :: fs) = some (is ++ js) := by
  rw [readFiles, h, h']

theorem read_generatorFiles : readFiles generatorFiles = some Ast.generator := by
  have h := readFiles_cons read_keys (readFiles_cons read_publisher (readFiles_cons read_binaryWo (readFiles_cons read_symbolTable
    (readFiles_cons read_cycleDetector (readFiles_cons read_constructor (readFiles_cons read_lib (rfl : readFiles [] = some [])))))))
  rw [generatorFiles, h, Ast.generator]
  simp only [List.append_assoc, List.append_nil]

/-- C84: `BinaryTreeWO::to_string` of the text of the repository, called on the tree of an expression, returns the lines that the model
prints, or panics if the model does; for every tree, every entry and every order of the hash containers. -/
theorem C84_to_string_executed : ∃ P, readFiles generatorFiles = some P ∧
    ∀ (ord : List Val → List Val) (t : BTree) (i n m : Nat), TreeOk t → 2 * n + 5 ≤ m →
      ((⟨P, ord⟩ : World).call m (some n!"BinaryTreeWO") n!"to_string" [encBTree t, encKey i]).Agrees (t.toLines n i)
        fun ls => .vec (ls.map fun l => .str l.text) := by
  refine ⟨_, read_generatorFiles, fun ord t i n m ht hm => ?_⟩
  have h := call_to_string ord ht n i m hm
  have e : (⟨Ast.generator, ord⟩ : World).call m (some n!"BinaryTreeWO") n!"to_string" [encBTree t, encKey i] =
      callN (World.gen ord) m Ast.BinaryTreeWO.to_string [encBTree t, encKey i] := by
    have := fn_BinaryTreeWO_to_string ord
    rw [World.gen] at this
    rw [World.call, this]
    rfl
  rw [e]
  unfold ToString at h
  unfold CRes.Agrees
  split <;> simp_all [CRes.Returns]

/-! An instance: the tree of `'a' / <b>*`, with the lines that come out. -/
def exampleTree : BTree :=
  [⟨.terminal (utf8Of "a"), none, none⟩, ⟨.varName (utf8Of "b"), none, none⟩, ⟨.zeroOrMore, some 1, none⟩, ⟨.orderedChoice, some 0, some 2⟩,
    ⟨.exec, some 3, none⟩]

example : TreeOk exampleTree := by
  simp [TreeOk, exampleTree, NodeOk]
  decide +kernel

set_option maxRecDepth 100000 in
example : (match exampleTree.toLines 5 4 with
    | .ok ls => ls.length == 5 && ls[3]?.map (fun l => l.text) == some (utf8Of "let closure_3 = _ordered_choice(&closure_0, &closure_2);")
    | _ => false) = true := by decide +kernel

end PP.Rs
