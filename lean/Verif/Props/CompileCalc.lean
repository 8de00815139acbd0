import Verif.Props.CompileFiles
import Verif.Lemmas.Mini.CalcResults
import Verif.Lemmas.Mini.GeneratedWorld

/-! # C92: the calculators, from the text of their grammar files and of their evaluators -/
namespace PP
open PP.Gen PP.Calc Mini

/-- The world of the crate made of a grammar file, with more files of the user's. -/
theorem compiled_world {R : Type} [DecidableEq R] {g : DGrammar} {pieces n names enum} {rules : List R} {body : R → Expr R} {start : R} {name : R → Bytes}
    (hk : FileOk g pieces n names enum rules body name) (hu : usableCheck g n = true) (hn : g.NoSetName) (hr : runnableCheck g = true)
    (hs : name start = utf8Of "grammar") (ha : Rs.ascii g.text = true) (hlow : g.low = true) {user : List Bytes} {items : Prog}
    (huser : readCrate user = some items) (hu1 : userOK items [] = true)
    (hu2 : items.fn? (some n!"UserState") n!"new" = some Ast.UserState.new) (hu3 : items.isUnit n!"UserState" = true)
    (hi : g.all (fun r => (Prog.fns items none (nameOf (lower r.name))).isEmpty) = true) :
    ∃ W : World R Unit, (∀ k T, Generation k T → T.Compiles user (fileOf pieces) W.Q) ∧ Computes W.Q (.plain body start) W.vn ∧ HasUser items W.Q ∧
      (∀ r, W.vn r = nameOf (variantOf (enum.map utf8Of) (name r))) ∧ (∀ v ∈ enum.map utf8Of, W.Q.isVariant n!"Rules" (nameOf v) = true) ∧
      ∀ x, Prog.isTuple Ast.core x = false → x ≠ n!"UserState" → W.Q.isTuple x = false := by
  obtain ⟨c, hgen, hl, -, hv⟩ := hk.links
  obtain ⟨N, hN⟩ := hgen .id
  have hN := hN N (Nat.le_refl _)
  rw [← hk.file] at hN ⊢
  simp only [runnableCheck, Bool.and_eq_true, decide_eq_true_eq] at hr
  obtain ⟨W, h1, h2, h3, h4, h5, h6⟩ := generated_world huser hu1 hu2 hu3 (fun r hr => List.isEmpty_iff.mp (List.all_eq_true.mp hi r hr)) hk.wf hk.length hN
    hk.faithful (runnable_of (usable_of hk.reach hu) hn hr.1.1 hr.1.2 hr.2) hl hs
  rw [hv] at h4 h5
  exact ⟨W, fun k T hT => hT.compiles hk.wf hk.length ha (DGrammar.low_low hlow) hN h1, h2, h3, h4, h5, h6⟩

set_option maxRecDepth 100000 in
/-- C92, example 1: every generation of the generator, executed on the example's grammar file, makes the same program of that file, the core and the
example's lib.rs; and executed, it evaluates texts as the model of the evaluator does. -/
theorem C92_example1_remade : ∃ Q, (∀ k T, Generation k T → T.Compiles (userFiles ++ [fileOf CoreTexts.calc1Lib]) (fileOf Files.ex1File) Q) ∧
    Evaluates Q (fun text m => do let x ← parse ex1Parser ⟨text⟩ m; calc1Tree true x.2.2 text m) .i64 := by
  obtain ⟨W, h1, h2, h3, h4, h5, h6⟩ := compiled_world (start := Ex1.r_grammar) ex1Ok (by decide +kernel) (by unfold DGrammar.NoSetName; decide +kernel)
    (by decide +kernel) (by decide +kernel) (by rw [ex1Ok.file]; decide +kernel) (by decide +kernel) (read_calcFiles read_calc1Lib) (by decide +kernel)
    (by decide +kernel) (by decide +kernel) (by decide +kernel)
  exact ⟨W.Q, h1, evaluates1 h2 h3 h4 h5 h6⟩

set_option maxRecDepth 100000 in
/-- C92, example 2: every generation of the generator, executed on the example's grammar file, makes the same program of that file, the core and the
example's lib.rs; and executed, it evaluates texts as the model of the evaluator does. -/
theorem C92_example2_remade : ∃ Q, (∀ k T, Generation k T → T.Compiles (userFiles ++ [fileOf CoreTexts.calc2Lib]) (fileOf Files.ex2File) Q) ∧
    Evaluates Q (fun text m => do let x ← parse ex2Parser ⟨text⟩ m; abTree x.2.2 m) .str := by
  obtain ⟨W, h1, h2, h3, h4, h5, h6⟩ := compiled_world (start := Ex2.r_grammar) ex2Ok (by decide +kernel) (by unfold DGrammar.NoSetName; decide +kernel)
    (by decide +kernel) (by decide +kernel) (by rw [ex2Ok.file]; decide +kernel) (by decide +kernel) (read_calcFiles read_calc2Lib) (by decide +kernel)
    (by decide +kernel) (by decide +kernel) (by decide +kernel)
  exact ⟨W.Q, h1, evaluates2 h2 h3 h4 h5 h6⟩

set_option maxRecDepth 100000 in
/-- C92, example 3: every generation of the generator, executed on the example's grammar file, makes the same program of that file, the core and the
example's lib.rs; and executed, it evaluates texts as the model of the evaluator does. -/
theorem C92_example3_remade : ∃ Q, (∀ k T, Generation k T → T.Compiles (userFiles ++ [fileOf CoreTexts.calc3Lib]) (fileOf Files.ex3File) Q) ∧
    Evaluates Q (fun text m => do let x ← parse ex3Parser ⟨text⟩ m; mathsTree ex3Maths true x.2.2 text m) .i64 := by
  obtain ⟨W, h1, h2, h3, h4, h5, h6⟩ := compiled_world (start := Ex3.r_grammar) ex3Ok (by decide +kernel) (by unfold DGrammar.NoSetName; decide +kernel)
    (by decide +kernel) (by decide +kernel) (by rw [ex3Ok.file]; decide +kernel) (by decide +kernel) (read_calcFiles read_calc3Lib) (by decide +kernel)
    (by decide +kernel) (by decide +kernel) (by decide +kernel)
  exact ⟨W.Q, h1, evaluates3 h2 h3 h4 h5 h6⟩

set_option maxRecDepth 100000 in
/-- C92, example 4: every generation of the generator, executed on the example's grammar file, makes the same program of that file, the core and the
example's lib.rs; and executed, it evaluates texts as the model of the evaluator does. -/
theorem C92_example4_remade : ∃ Q, (∀ k T, Generation k T → T.Compiles (userFiles ++ [fileOf CoreTexts.calc4Lib]) (fileOf Files.ex4File) Q) ∧
    Evaluates Q (fun text m => do let x ← parse ex4Parser ⟨text⟩ m; mathsTree ex4Maths true x.2.2 text m) .i64 := by
  obtain ⟨W, h1, h2, h3, h4, h5, h6⟩ := compiled_world (start := Ex4.r_grammar) ex4Ok (by decide +kernel) (by unfold DGrammar.NoSetName; decide +kernel)
    (by decide +kernel) (by decide +kernel) (by rw [ex4Ok.file]; decide +kernel) (by decide +kernel) (read_calcFiles read_calc4Lib) (by decide +kernel)
    (by decide +kernel) (by decide +kernel) (by decide +kernel)
  exact ⟨W.Q, h1, evaluates4 h2 h3 h4 h5 h6⟩

/-- C92, example 1, by executing texts only: the program made of the grammar file by the executed generator, and of lib.rs, returns for the text of a sum
its value in checked 64-bit arithmetic, or panics if that arithmetic does (unless the parse needs more than 2^32 nodes); and on any UTF-8 text, if it
returns a number, then it is exactly the longest sum at the front of the text, or 0 if no sum is there. -/
theorem C92_example1_from_its_grammar_file : ∃ Q, (∀ k T, Generation k T → T.Compiles (userFiles ++ [fileOf CoreTexts.calc1Lib]) (fileOf Files.ex1File) Q) ∧
    (∀ s : Sum1, s.text.length < 2 ^ 32 → (∃ m, parse ex1Parser ⟨s.text⟩ m = .panic .keyOverflow) ∨ Gives Q s.text ((s.eval true).map .i64)) ∧
    ∀ text n v h, Source.IsText ⟨text⟩ → text.length < 2 ^ 32 → runCalc Q n text = .ok v h →
      (∃ s : Sum1, s.text <+: text ∧ (∀ u : Sum1, u.text <+: text → u.text.length ≤ s.text.length) ∧ v = .i64 s.val) ∨
      (∀ u : Sum1, ¬ u.text <+: text) ∧ v = .i64 0 := by
  obtain ⟨Q, h, he⟩ := C92_example1_remade
  exact ⟨Q, h, calculates1 he, exact1 he⟩

/-- C92, example 2, by executing texts only: the program made of the grammar file by the executed generator, and of lib.rs, returns what it matched: the
longest of `a`, `aba`, `ababa`, … at the front of the text, or the empty string; it always ends. -/
theorem C92_example2_from_its_grammar_file : ∃ Q, (∀ k T, Generation k T → T.Compiles (userFiles ++ [fileOf CoreTexts.calc2Lib]) (fileOf Files.ex2File) Q) ∧
    ∀ text : Bytes, text.length < 2 ^ 31 → ((∀ m, ¬ abWord m <+: text) ∧ Gives Q text (some (.str []))) ∨
      ∃ m, abWord m <+: text ∧ (∀ m', abWord m' <+: text → m' ≤ m) ∧ Gives Q text (some (.str (abWord m))) := by
  obtain ⟨Q, h, he⟩ := C92_example2_remade
  exact ⟨Q, h, echoes2 he⟩

/-- C92, example 3, by executing texts only: the program made of the grammar file by the executed generator, and of lib.rs, returns for the text of an
expression its value in checked 64-bit arithmetic, or panics if that arithmetic does (unless the parse needs more than 2^32 nodes); and on any UTF-8
text, if it returns a number, then it is exactly the value of the longest expression at the front of the text. -/
theorem C92_example3_from_its_grammar_file : ∃ Q, (∀ k T, Generation k T → T.Compiles (userFiles ++ [fileOf CoreTexts.calc3Lib]) (fileOf Files.ex3File) Q) ∧
    (∀ e : MExpr false, e.text.length < 2 ^ 32 → (∃ m, parse ex3Parser ⟨e.text⟩ m = .panic .keyOverflow) ∨ Gives Q e.text ((e.eval true).map .i64)) ∧
    ∀ text n v h, Source.IsText ⟨text⟩ → text.length < 2 ^ 32 → runCalc Q n text = .ok v h →
      ∃ (e : MExpr false) (x : Int), e.text <+: text ∧ (∀ u : MExpr false, u.text <+: text → u.text.length ≤ e.text.length) ∧
        e.val = some x ∧ v = .i64 x := by
  obtain ⟨Q, h, he⟩ := C92_example3_remade
  exact ⟨Q, h, calculates3 he, exact3 he⟩

/-- C92, example 4, by executing texts only: as example 3, with powers; the arithmetic is that of the machine (with the exponent cut to 32 bits). -/
theorem C92_example4_from_its_grammar_file : ∃ Q, (∀ k T, Generation k T → T.Compiles (userFiles ++ [fileOf CoreTexts.calc4Lib]) (fileOf Files.ex4File) Q) ∧
    (∀ e : MExpr true, e.text.length < 2 ^ 32 → (∃ m, parse ex4Parser ⟨e.text⟩ m = .panic .keyOverflow) ∨ Gives Q e.text ((e.eval true).map .i64)) ∧
    ∀ text n v h, Source.IsText ⟨text⟩ → text.length < 2 ^ 32 → runCalc Q n text = .ok v h →
      ∃ (e : MExpr true) (x : Int), e.text <+: text ∧ (∀ u : MExpr true, u.text <+: text → u.text.length ≤ e.text.length) ∧
        e.eval true = some x ∧ v = .i64 x := by
  obtain ⟨Q, h, he⟩ := C92_example4_remade
  exact ⟨Q, h, calculates4 he, exact4 he⟩

/-- A case: there are generators of generation 3; the calculator they make of example 1's files returns -1 for `1+2-4`. -/
example : ∃ T Q N, Generation 3 T ∧ T.Compiles (userFiles ++ [fileOf CoreTexts.calc1Lib]) (fileOf Files.ex1File) Q ∧
    ∀ n, N ≤ n → ∃ h, runCalc Q n (utf8Of "1+2-4") = .ok (.i64 (-1)) h := by
  obtain ⟨T, hT⟩ := C90_bootstrap.1 3
  obtain ⟨Q, h, he⟩ := C92_example1_remade
  obtain ⟨N, hN⟩ := he.complete (utf8Of "1+2-4") 60 (-1) (by decide +kernel)
  exact ⟨T, Q, N, hT, h 3 T hT, hN⟩

end PP
