import Verif.Props.Compile
import Verif.Lemmas.Rs.LowHex

/-! # C90: the grammar files of the repository, from text to executed parser -/
namespace PP
open PP.Gen

/-- Every generation of the generator, executed on the grammar file `file`, makes the same program, and that program cannot be told apart from the
program of the files `crate`. -/
def RemakesExecuted (file : Bytes) (crate : List Bytes) : Prop :=
  ∃ Q Q' : Mini.Prog, (∀ k T, Generation k T → T.Compiles Mini.userFiles file Q) ∧ Mini.readCrate crate = some Q' ∧ Mini.SameRuns Q Q'

theorem remakes_executed {g : DGrammar} {file : Bytes} {crate : List Bytes} (hf : g.text = file) (hw : g.WF) (hsm : g.text.length < 82000000)
    (hs : Rs.ascii g.text = true) (hl : g.low = true) (h : Mini.Remakes file crate) : RemakesExecuted file crate := by
  subst hf
  obtain ⟨c, Q, Q', hgen, hQ, hQ', hs'⟩ := h
  obtain ⟨N, hN⟩ := hgen .id
  exact ⟨Q, Q', fun k T hT => hT.compiles hw hsm hs (DGrammar.low_low hl) (hN N (Nat.le_refl _)) hQ, hQ', hs'⟩

set_option maxRecDepth 100000 in
/-- C90, the parser of grammar files: the program made of the grammar file by the executed generator cannot be told apart from the checked-in crate. -/
theorem C90_dsl_remade : RemakesExecuted (fileOf Files.dslFile) (Mini.coreFilesOfParser ++ Mini.userFiles ++ [fileOf Texts.dslRules, fileOf Texts.dslParser]) :=
  remakes_executed dslOk.file dslOk.wf dslOk.length (by rw [dslOk.file]; decide +kernel) (by decide +kernel) Mini.C82_dsl_remade

set_option maxRecDepth 100000 in
/-- C90, example 1: the program made of the grammar file by the executed generator cannot be told apart from the checked-in crate. -/
theorem C90_example1_remade : RemakesExecuted (fileOf Files.ex1File) (Mini.coreFiles ++ Mini.userFiles ++ [fileOf Texts.ex1Rules, fileOf Texts.ex1Parser]) :=
  remakes_executed ex1Ok.file ex1Ok.wf ex1Ok.length (by rw [ex1Ok.file]; decide +kernel) (by decide +kernel) Mini.C82_example1_remade

set_option maxRecDepth 100000 in
/-- C90, example 2: the program made of the grammar file by the executed generator cannot be told apart from the checked-in crate. -/
theorem C90_example2_remade : RemakesExecuted (fileOf Files.ex2File) (Mini.coreFiles ++ Mini.userFiles ++ [fileOf Texts.ex2Rules, fileOf Texts.ex2Parser]) :=
  remakes_executed ex2Ok.file ex2Ok.wf ex2Ok.length (by rw [ex2Ok.file]; decide +kernel) (by decide +kernel) Mini.C82_example2_remade

set_option maxRecDepth 100000 in
/-- C90, example 3: the program made of the grammar file by the executed generator cannot be told apart from the checked-in crate. -/
theorem C90_example3_remade : RemakesExecuted (fileOf Files.ex3File) (Mini.coreFiles ++ Mini.userFiles ++ [fileOf Texts.ex3Rules, fileOf Texts.ex3Parser]) :=
  remakes_executed ex3Ok.file ex3Ok.wf ex3Ok.length (by rw [ex3Ok.file]; decide +kernel) (by decide +kernel) Mini.C82_example3_remade

set_option maxRecDepth 100000 in
/-- C90, example 4: the program made of the grammar file by the executed generator cannot be told apart from the checked-in crate. -/
theorem C90_example4_remade : RemakesExecuted (fileOf Files.ex4File) (Mini.coreFiles ++ Mini.userFiles ++ [fileOf Texts.ex4Rules, fileOf Texts.ex4Parser]) :=
  remakes_executed ex4Ok.file ex4Ok.wf ex4Ok.length (by rw [ex4Ok.file]; decide +kernel) (by decide +kernel) Mini.C82_example4_remade

set_option maxRecDepth 100000 in
/-- C90, example 5: the program made of the grammar file by the executed generator cannot be told apart from the checked-in crate. -/
theorem C90_example5_remade : RemakesExecuted (fileOf Files.ex5File) (Mini.coreFiles ++ Mini.userFiles ++ [fileOf Texts.ex5Rules, fileOf Texts.ex5Parser]) :=
  remakes_executed ex5Ok.file ex5Ok.wf ex5Ok.length (by rw [ex5Ok.file]; decide +kernel) (by decide +kernel) Mini.C82_example5_remade

set_option maxRecDepth 100000 in
/-- C90, example 6: the program made of the grammar file by the executed generator cannot be told apart from the checked-in crate. -/
theorem C90_example6_remade : RemakesExecuted (fileOf Files.ex6File) (Mini.coreFiles ++ Mini.userFiles ++ [fileOf Texts.ex6Rules, fileOf Texts.ex6Parser]) :=
  remakes_executed ex6Ok.file ex6Ok.wf ex6Ok.length (by rw [ex6Ok.file]; decide +kernel) (by decide +kernel) Mini.C82_example6_remade

set_option maxRecDepth 100000 in
/-- C90, example 7: the program made of the grammar file by the executed generator cannot be told apart from the checked-in crate. -/
theorem C90_example7_remade : RemakesExecuted (fileOf Files.ex7File) (Mini.coreFiles ++ Mini.userFiles ++ [fileOf Texts.ex7Rules, fileOf Texts.ex7Parser]) :=
  remakes_executed ex7Ok.file ex7Ok.wf ex7Ok.length (by rw [ex7Ok.file]; decide +kernel) (by decide +kernel) Mini.C82_example7_remade

set_option maxRecDepth 100000 in
/-- C90, example 8: the program made of the grammar file by the executed generator cannot be told apart from the checked-in crate. -/
theorem C90_example8_remade : RemakesExecuted (fileOf Files.ex8File) (Mini.coreFiles ++ Mini.userFiles ++ [fileOf Texts.ex8Rules, fileOf Texts.ex8Parser]) :=
  remakes_executed ex8Ok.file ex8Ok.wf ex8Ok.length (by rw [ex8Ok.file]; decide +kernel) (by decide +kernel) Mini.C82_example8_remade

set_option maxRecDepth 100000 in
/-- C90, example 9: the program made of the grammar file by the executed generator cannot be told apart from the checked-in crate. -/
theorem C90_example9_remade : RemakesExecuted (fileOf Files.ex9File) (Mini.coreFiles ++ Mini.userFiles ++ [fileOf Texts.ex9Rules, fileOf Texts.ex9Parser]) :=
  remakes_executed ex9Ok.file ex9Ok.wf ex9Ok.length (by rw [ex9Ok.file]; decide +kernel) (by decide +kernel) Mini.C82_example9_remade

set_option maxRecDepth 100000 in
/-- C90, example 10: the program made of the grammar file by the executed generator cannot be told apart from the checked-in crate. -/
theorem C90_example10_remade : RemakesExecuted (fileOf Files.ex10File) (Mini.coreFiles ++ Mini.userFiles ++ [fileOf Texts.ex10Rules, fileOf Texts.ex10Parser]) :=
  remakes_executed ex10Ok.file ex10Ok.wf ex10Ok.length (by rw [ex10Ok.file]; decide +kernel) (by decide +kernel) Mini.C82_example10_remade

set_option maxRecDepth 100000 in
/-- C90, example 11, with its user's files. -/
theorem C90_example11_remade : ∃ Q Q' : Mini.Prog, (∀ k T, Generation k T → T.Compiles Mini.ex11UserFiles (fileOf Files.ex11File) Q) ∧
    Mini.readCrate (Mini.coreFiles ++ Mini.ex11UserFiles ++ [fileOf Texts.ex11Rules, fileOf Texts.ex11Parser]) = some Q' ∧ Mini.SameRuns Q Q' := by
  obtain ⟨c, Q, Q', hgen, hQ, hQ', hs'⟩ := Mini.C82_example11_remade
  obtain ⟨N, hN⟩ := hgen .id
  refine ⟨Q, Q', fun k T hT => ?_, hQ', hs'⟩
  rw [← ex11Ok.file] at hN ⊢
  exact hT.compiles ex11Ok.wf ex11Ok.length (by rw [ex11Ok.file]; decide +kernel) (DGrammar.low_low (by decide +kernel)) (hN N (Nat.le_refl _)) hQ

set_option maxRecDepth 100000 in
/-- C90, example 5 (left recursive), by executing texts only: the program made of the grammar file by the executed generator ends on every input;
unless it panics for lack of node keys, it returns `(b, q, …)` where `b` says whether there is a digit to start with, and `q` is the end of the
longest `digit (- digit)*`. -/
theorem C90_example5_from_its_grammar_file : ∃ Q, (∀ k T, Generation k T → T.Compiles Mini.userFiles (fileOf Files.ex5File) Q) ∧ ∀ input : Bytes,
      (∃ b q t N, (∀ n, N ≤ n → ∃ h, Mini.runParse Q n input = .ok (.tuple [.bool b, .int q, t]) h) ∧
        (b = true ↔ DigitAt ⟨input⟩ 0) ∧ (b = false → q = 0) ∧
        (b = true → ∃ k, q = 1 + 2 * k ∧ (∀ i, i < k → MinusDigitAt ⟨input⟩ (1 + 2 * i)) ∧ ¬ MinusDigitAt ⟨input⟩ (1 + 2 * k))) ∨
      ∃ N, ∀ n, N ≤ n → Mini.runParse Q n input = .panic := by
  obtain ⟨c, N, Q, hN, hQ, H⟩ := Mini.C82_example5_from_its_grammar_file .id
  refine ⟨Q, fun k T hT => ?_, H⟩
  rw [← ex5Ok.file] at hN ⊢
  exact hT.compiles ex5Ok.wf ex5Ok.length (by rw [ex5Ok.file]; decide +kernel) (DGrammar.low_low (by decide +kernel)) (hN N (Nat.le_refl _)) hQ

set_option maxRecDepth 100000 in
/-- C90, example 11 (hooked call), by executing texts only: the program made of the grammar file by the executed generator and the user's two files,
executed on every text (below 4 GiB minus 4 bytes), ends and returns `(b, q, …)`, where the first `q` bytes are the longest prefix made of pairwise
different lines, and `b` says whether there is a line at all. -/
theorem C90_example11_from_its_grammar_file : ∃ Q, (∀ k T, Generation k T → T.Compiles Mini.ex11UserFiles (fileOf Files.ex11File) Q) ∧
    ∀ input : Bytes, input.length + 4 ≤ 2 ^ 32 → (⟨input⟩ : Source).IsText → ∃ (ls : List (List UInt8)) (t : Mini.Val) (N : Nat),
      (∀ n, N ≤ n → ∃ h, Mini.runParse Q n input = .ok (.tuple [.bool (!ls.isEmpty), .int ls.flatten.length, t]) h) ∧
      DistinctLines ls ∧ ls.flatten <+: input ∧
      ∀ ls', DistinctLines ls' → ls'.flatten <+: input → ls'.flatten.length ≤ ls.flatten.length := by
  obtain ⟨c, N, Q, hN, hQ, H⟩ := Mini.C79_example11_from_its_grammar_file .id
  refine ⟨Q, fun k T hT => ?_, H⟩
  rw [← ex11Ok.file] at hN ⊢
  exact hT.compiles ex11Ok.wf ex11Ok.length (by rw [ex11Ok.file]; decide +kernel) (DGrammar.low_low (by decide +kernel)) (hN N (Nat.le_refl _)) hQ

end PP
