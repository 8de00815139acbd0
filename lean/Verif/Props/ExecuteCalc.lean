import Verif.Lemmas.Mini.CalcResults

/-! # C81: the Rust source text of the calculators (examples 1, 2, 3 and 4), executed with the text of their parser crates

`lib.rs` of each example, the parser crate it uses, and the core are read and executed (Spec/Mini); the tests at the end of lib.rs
(`#[cfg(test)] mod tests`) are skipped by the reader. -/
namespace PP.Mini
open PP.Gen PP.Calc

/-! ### The text of the evaluators does what the model of the evaluators says -/

/-- The files of example 1: core, user's part, evaluator, rules.rs and parser.rs. -/
def calc1Files : List Bytes := coreFiles ++ (userFiles ++ [fileOf CoreTexts.calc1Lib]) ++ [fileOf Texts.ex1Rules, fileOf Texts.ex1Parser]

/-- C81, example 1: examples/example_1/src/lib.rs. -/
theorem C81_example1_executed : ∃ Q, readCrate calc1Files = some Q ∧
    Evaluates Q (fun text m => do let x ← parse ex1Parser ⟨text⟩ m; calc1Tree true x.2.2 text m) .i64 := by
  obtain ⟨W, hr, hc, H, hv, hvar, htup⟩ := crateCheck_world (us := plainUser _ _) read_coreFiles (read_calcFiles read_calc1Lib)
    (noHooksUserSim ex1Parser (by decide +kernel) (by decide +kernel) (by decide +kernel)) (by intro r; cases r <;> decide) calc1Crate
  exact ⟨W.Q, hr, evaluates1 hc H hv hvar htup⟩

/-- The files of example 2: core, user's part, evaluator, rules.rs and parser.rs. -/
def calc2Files : List Bytes := coreFiles ++ (userFiles ++ [fileOf CoreTexts.calc2Lib]) ++ [fileOf Texts.ex2Rules, fileOf Texts.ex2Parser]

/-- C81, example 2: examples/example_2/src/lib.rs. -/
theorem C81_example2_executed : ∃ Q, readCrate calc2Files = some Q ∧
    Evaluates Q (fun text m => do let x ← parse ex2Parser ⟨text⟩ m; abTree x.2.2 m) .str := by
  obtain ⟨W, hr, hc, H, hv, hvar, htup⟩ := crateCheck_world (us := plainUser _ _) read_coreFiles (read_calcFiles read_calc2Lib)
    (noHooksUserSim ex2Parser (by decide +kernel) (by decide +kernel) (by decide +kernel)) (by intro r; cases r <;> decide) calc2Crate
  exact ⟨W.Q, hr, evaluates2 hc H hv hvar htup⟩

/-- The files of example 3: core, user's part, evaluator, rules.rs and parser.rs. -/
def calc3Files : List Bytes := coreFiles ++ (userFiles ++ [fileOf CoreTexts.calc3Lib]) ++ [fileOf Texts.ex3Rules, fileOf Texts.ex3Parser]

/-- C81, example 3: examples/example_3_basic_maths/src/lib.rs. -/
theorem C81_example3_executed : ∃ Q, readCrate calc3Files = some Q ∧
    Evaluates Q (fun text m => do let x ← parse ex3Parser ⟨text⟩ m; mathsTree ex3Maths true x.2.2 text m) .i64 := by
  obtain ⟨W, hr, hc, H, hv, hvar, htup⟩ := crateCheck_world (us := plainUser _ _) read_coreFiles (read_calcFiles read_calc3Lib)
    (noHooksUserSim ex3Parser (by decide +kernel) (by decide +kernel) (by decide +kernel)) (by intro r; cases r <;> decide) calc3Crate
  exact ⟨W.Q, hr, evaluates3 hc H hv hvar htup⟩

/-- The files of example 4: core, user's part, evaluator, rules.rs and parser.rs. -/
def calc4Files : List Bytes := coreFiles ++ (userFiles ++ [fileOf CoreTexts.calc4Lib]) ++ [fileOf Texts.ex4Rules, fileOf Texts.ex4Parser]

/-- C81, example 4: examples/example_4_full_maths/src/lib.rs. -/
theorem C81_example4_executed : ∃ Q, readCrate calc4Files = some Q ∧
    Evaluates Q (fun text m => do let x ← parse ex4Parser ⟨text⟩ m; mathsTree ex4Maths true x.2.2 text m) .i64 := by
  obtain ⟨W, hr, hc, H, hv, hvar, htup⟩ := crateCheck_world (us := plainUser _ _) read_coreFiles (read_calcFiles read_calc4Lib)
    (noHooksUserSim ex4Parser (by decide +kernel) (by decide +kernel) (by decide +kernel)) (by intro r; cases r <;> decide) calc4Crate
  exact ⟨W.Q, hr, evaluates4 hc H hv hvar htup⟩

/-! ### So executing the text calculates -/

/-- C81, example 1: executed on the text of a sum, the program returns its value in checked 64-bit arithmetic, or panics if that
arithmetic does.  (Unless the parse needs more than 2^32 nodes.) -/
theorem C81_example1_calculates : ∃ Q, readCrate calc1Files = some Q ∧ ∀ s : Sum1, s.text.length < 2 ^ 32 →
    (∃ m, parse ex1Parser ⟨s.text⟩ m = .panic .keyOverflow) ∨ Gives Q s.text ((s.eval true).map .i64) := by
  obtain ⟨Q, hr, he⟩ := C81_example1_executed
  exact ⟨Q, hr, calculates1 he⟩

/-- C81, example 3: executed on the text of an expression, the program returns its value in checked 64-bit arithmetic, or panics if that
arithmetic does.  (Unless the parse needs more than 2^32 nodes.) -/
theorem C81_example3_calculates : ∃ Q, readCrate calc3Files = some Q ∧ ∀ e : MExpr false, e.text.length < 2 ^ 32 →
    (∃ m, parse ex3Parser ⟨e.text⟩ m = .panic .keyOverflow) ∨ Gives Q e.text ((e.eval true).map .i64) := by
  obtain ⟨Q, hr, he⟩ := C81_example3_executed
  exact ⟨Q, hr, calculates3 he⟩

/-- C81, example 4: executed on the text of an expression, the program returns its value in checked 64-bit arithmetic, or panics if that
arithmetic does.  (Unless the parse needs more than 2^32 nodes.) -/
theorem C81_example4_calculates : ∃ Q, readCrate calc4Files = some Q ∧ ∀ e : MExpr true, e.text.length < 2 ^ 32 →
    (∃ m, parse ex4Parser ⟨e.text⟩ m = .panic .keyOverflow) ∨ Gives Q e.text ((e.eval true).map .i64) := by
  obtain ⟨Q, hr, he⟩ := C81_example4_executed
  exact ⟨Q, hr, calculates4 he⟩

/-! ### And it calculates nothing else -/

/-- C81, example 1: on a UTF-8 text, if the program returns a number, then it is the sum written at the front of the text (the longest
one), exactly; or 0 if no sum is there. -/
theorem C81_example1_exact : ∃ Q, readCrate calc1Files = some Q ∧ ∀ text n v h, Source.IsText ⟨text⟩ → text.length < 2 ^ 32 →
    runCalc Q n text = .ok v h →
    (∃ s : Sum1, s.text <+: text ∧ (∀ u : Sum1, u.text <+: text → u.text.length ≤ s.text.length) ∧ v = .i64 s.val) ∨
    (∀ u : Sum1, ¬ u.text <+: text) ∧ v = .i64 0 := by
  obtain ⟨Q, hr, he⟩ := C81_example1_executed
  exact ⟨Q, hr, exact1 he⟩

/-- C81, example 3: on a UTF-8 text, if the program returns a number, then it is exactly the value of the longest expression at the front
of the text. -/
theorem C81_example3_exact : ∃ Q, readCrate calc3Files = some Q ∧ ∀ text n v h, Source.IsText ⟨text⟩ → text.length < 2 ^ 32 →
    runCalc Q n text = .ok v h →
    ∃ (e : MExpr false) (x : Int), e.text <+: text ∧ (∀ u : MExpr false, u.text <+: text → u.text.length ≤ e.text.length) ∧
      e.val = some x ∧ v = .i64 x := by
  obtain ⟨Q, hr, he⟩ := C81_example3_executed
  exact ⟨Q, hr, exact3 he⟩

/-- C81, example 4: on a UTF-8 text, if the program returns a number, then it is what checked 64-bit arithmetic (with the exponent cut to 32
bits) gives for the longest expression at the front of the text. -/
theorem C81_example4_exact : ∃ Q, readCrate calc4Files = some Q ∧ ∀ text n v h, Source.IsText ⟨text⟩ → text.length < 2 ^ 32 →
    runCalc Q n text = .ok v h →
    ∃ (e : MExpr true) (x : Int), e.text <+: text ∧ (∀ u : MExpr true, u.text <+: text → u.text.length ≤ e.text.length) ∧
      e.eval true = some x ∧ v = .i64 x := by
  obtain ⟨Q, hr, he⟩ := C81_example4_executed
  exact ⟨Q, hr, exact4 he⟩

/-- C81, example 2: executed, the evaluator returns what the parser matched: the longest of `a`, `aba`, `ababa`, … at the front of the text,
or the empty string if the text does not begin with `a`; it never panics and always ends. -/
theorem C81_example2_echoes : ∃ Q, readCrate calc2Files = some Q ∧ ∀ text : Bytes, text.length < 2 ^ 31 →
    ((∀ m, ¬ abWord m <+: text) ∧ Gives Q text (some (.str []))) ∨
    ∃ m, abWord m <+: text ∧ (∀ m', abWord m' <+: text → m' ≤ m) ∧ Gives Q text (some (.str (abWord m))) := by
  obtain ⟨Q, hr, he⟩ := C81_example2_executed
  exact ⟨Q, hr, echoes2 he⟩

/-! Executions by the kernel: `1+2-4` is -1 in example 1; `abab` gives `aba` in example 2; `1/0` panics in example 3; `2^3` is 8 in
example 4. -/
set_option maxRecDepth 100000 in
example : (match readCrate [fileOf Texts.ex1Rules, fileOf Texts.ex1Parser] with
    | some g => match runCalc (Ast.core ++ (plainItems ++ Ast.calc1LibItems ++ g)) 60 (utf8Of "1+2-4") with
      | .ok (.i64 x) _ => x == -1
      | _ => false
    | none => false) = true := by decide +kernel

set_option maxRecDepth 100000 in
example : (match readCrate [fileOf Texts.ex2Rules, fileOf Texts.ex2Parser] with
    | some g => match runCalc (Ast.core ++ (plainItems ++ Ast.calc2LibItems ++ g)) 60 (utf8Of "abab") with
      | .ok (.str x) _ => x == utf8Of "aba"
      | _ => false
    | none => false) = true := by decide +kernel

set_option maxRecDepth 100000 in
example : (match readCrate [fileOf Texts.ex3Rules, fileOf Texts.ex3Parser] with
    | some g => match runCalc (Ast.core ++ (plainItems ++ Ast.calc3LibItems ++ g)) 300 (utf8Of "1/0") with
      | .panic => true
      | _ => false
    | none => false) = true := by decide +kernel

set_option maxRecDepth 100000 in
example : (match readCrate [fileOf Texts.ex4Rules, fileOf Texts.ex4Parser] with
    | some g => match runCalc (Ast.core ++ (plainItems ++ Ast.calc4LibItems ++ g)) 300 (utf8Of "2^3") with
      | .ok (.i64 x) _ => x == 8
      | _ => false
    | none => false) = true := by decide +kernel

end PP.Mini
