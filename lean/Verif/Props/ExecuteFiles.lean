import Verif.Props.ExecuteWhole
import Verif.Props.Checked
import Verif.Lemmas.Rs.LowHex

/-! # C88: the text of the generator, executed on the grammar files of the repository -/
namespace PP.Rs
open PP.Gen PP.Run

/-- The text of the generator, executed on the cleared syntax tree of the grammar file `file`, makes two files, the same for every order of
iteration of the hash containers and every sufficient recursion depth, that, read as Rust, define the same parser as the files `rulesRs` and
`parserRs`. -/
def Makes (file rulesRs parserRs : Bytes) : Prop :=
  ∃ P tree newRules newParser, readFiles generatorFiles = some P ∧ ClearedTree file tree ∧
    (∀ ord : List Val → List Val, (∀ l, (ord l).Perm l) → ∃ M, ∀ m, M ≤ m → Writes ⟨P, ord⟩ m tree file newRules newParser) ∧
    SameParser newRules newParser rulesRs parserRs

theorem makes {g : DGrammar} {file rulesRs parserRs : Bytes} (hf : g.text = file) (hw : g.WF) (hsm : g.text.length < 82000000) (hs : ascii g.text = true)
    (hl : g.low = true) (h : UpToDate file rulesRs parserRs) : Makes file rulesRs parserRs := by
  subst hf
  obtain ⟨P, hP, H⟩ := C88_generator_executed
  obtain ⟨tree, ht, H⟩ := H g hw hsm hs (DGrammar.low_low hl)
  obtain ⟨c, hc, hsame⟩ := h
  refine ⟨P, tree, _, _, hP, ht, fun ord hord => ?_, hsame⟩
  obtain ⟨M, hM⟩ := H ord hord
  obtain ⟨N, hN⟩ := hc .id
  exact ⟨M, fun m hm => (hM m hm).1 _ _ _ (hN N (Nat.le_refl _))⟩

set_option maxRecDepth 100000 in
/-- C88, the parser of grammar files: the generator, executed on the grammar file, makes the parser that is checked in (the generator, executed, makes of its own grammar the parser that it uses). -/
theorem C88_dsl_made : Makes (fileOf Files.dslFile) (fileOf Texts.dslRules) (fileOf Texts.dslParser) :=
  makes (g := dslTree) dslOk.file dslOk.wf dslOk.length (by rw [dslOk.file]; decide +kernel) (by decide +kernel) C75_dsl_up_to_date

set_option maxRecDepth 100000 in
/-- C88, example 1: the generator, executed on the grammar file, makes the parser that is checked in. -/
theorem C88_example1_made : Makes (fileOf Files.ex1File) (fileOf Texts.ex1Rules) (fileOf Texts.ex1Parser) :=
  makes (g := ex1Tree) ex1Ok.file ex1Ok.wf ex1Ok.length (by rw [ex1Ok.file]; decide +kernel) (by decide +kernel) C75_example1_up_to_date

set_option maxRecDepth 100000 in
/-- C88, example 2: the generator, executed on the grammar file, makes the parser that is checked in. -/
theorem C88_example2_made : Makes (fileOf Files.ex2File) (fileOf Texts.ex2Rules) (fileOf Texts.ex2Parser) :=
  makes (g := ex2Tree) ex2Ok.file ex2Ok.wf ex2Ok.length (by rw [ex2Ok.file]; decide +kernel) (by decide +kernel) C75_example2_up_to_date

set_option maxRecDepth 100000 in
/-- C88, example 3: the generator, executed on the grammar file, makes the parser that is checked in. -/
theorem C88_example3_made : Makes (fileOf Files.ex3File) (fileOf Texts.ex3Rules) (fileOf Texts.ex3Parser) :=
  makes (g := ex3Tree) ex3Ok.file ex3Ok.wf ex3Ok.length (by rw [ex3Ok.file]; decide +kernel) (by decide +kernel) C75_example3_up_to_date

set_option maxRecDepth 100000 in
/-- C88, example 4: the generator, executed on the grammar file, makes the parser that is checked in. -/
theorem C88_example4_made : Makes (fileOf Files.ex4File) (fileOf Texts.ex4Rules) (fileOf Texts.ex4Parser) :=
  makes (g := ex4Tree) ex4Ok.file ex4Ok.wf ex4Ok.length (by rw [ex4Ok.file]; decide +kernel) (by decide +kernel) C75_example4_up_to_date

set_option maxRecDepth 100000 in
/-- C88, example 5: the generator, executed on the grammar file, makes the parser that is checked in. -/
theorem C88_example5_made : Makes (fileOf Files.ex5File) (fileOf Texts.ex5Rules) (fileOf Texts.ex5Parser) :=
  makes (g := ex5Tree) ex5Ok.file ex5Ok.wf ex5Ok.length (by rw [ex5Ok.file]; decide +kernel) (by decide +kernel) C75_example5_up_to_date

set_option maxRecDepth 100000 in
/-- C88, example 6: the generator, executed on the grammar file, makes the parser that is checked in. -/
theorem C88_example6_made : Makes (fileOf Files.ex6File) (fileOf Texts.ex6Rules) (fileOf Texts.ex6Parser) :=
  makes (g := ex6Tree) ex6Ok.file ex6Ok.wf ex6Ok.length (by rw [ex6Ok.file]; decide +kernel) (by decide +kernel) C75_example6_up_to_date

set_option maxRecDepth 100000 in
/-- C88, example 7: the generator, executed on the grammar file, makes the parser that is checked in. -/
theorem C88_example7_made : Makes (fileOf Files.ex7File) (fileOf Texts.ex7Rules) (fileOf Texts.ex7Parser) :=
  makes (g := ex7Tree) ex7Ok.file ex7Ok.wf ex7Ok.length (by rw [ex7Ok.file]; decide +kernel) (by decide +kernel) C75_example7_up_to_date

set_option maxRecDepth 100000 in
/-- C88, example 8: the generator, executed on the grammar file, makes the parser that is checked in. -/
theorem C88_example8_made : Makes (fileOf Files.ex8File) (fileOf Texts.ex8Rules) (fileOf Texts.ex8Parser) :=
  makes (g := ex8Tree) ex8Ok.file ex8Ok.wf ex8Ok.length (by rw [ex8Ok.file]; decide +kernel) (by decide +kernel) C75_example8_up_to_date

set_option maxRecDepth 100000 in
/-- C88, example 9: the generator, executed on the grammar file, makes the parser that is checked in. -/
theorem C88_example9_made : Makes (fileOf Files.ex9File) (fileOf Texts.ex9Rules) (fileOf Texts.ex9Parser) :=
  makes (g := ex9Tree) ex9Ok.file ex9Ok.wf ex9Ok.length (by rw [ex9Ok.file]; decide +kernel) (by decide +kernel) C75_example9_up_to_date

set_option maxRecDepth 100000 in
/-- C88, example 10: the generator, executed on the grammar file, makes the parser that is checked in. -/
theorem C88_example10_made : Makes (fileOf Files.ex10File) (fileOf Texts.ex10Rules) (fileOf Texts.ex10Parser) :=
  makes (g := ex10Tree) ex10Ok.file ex10Ok.wf ex10Ok.length (by rw [ex10Ok.file]; decide +kernel) (by decide +kernel) C75_example10_up_to_date

set_option maxRecDepth 100000 in
/-- C88, example 11: the generator, executed on the grammar file, makes the parser that is checked in. -/
theorem C88_example11_made : Makes (fileOf Files.ex11File) (fileOf Texts.ex11Rules) (fileOf Texts.ex11Parser) :=
  makes (g := ex11Tree) ex11Ok.file ex11Ok.wf ex11Ok.length (by rw [ex11Ok.file]; decide +kernel) (by decide +kernel) C75_example11_up_to_date

end PP.Rs
