import Verif.Lemmas.Mini.Same
import Verif.Spec.Mini.Runs
import Verif.Props.Generated
import Verif.Props.GeneratedHooked
import Verif.Props.Execute
import Verif.Props.Files
import Verif.Props.Execute11
import Verif.Props.LeftRec

/-! # C82: regenerating a parser changes nothing it does -/
namespace PP.Mini
open PP.Gen

section
variable {R S U : Type} [DecidableEq R] [DecidableEq S]

/-- C82: names of rules, and the order and repetition of the rules listed in involved sets, are invisible: two parsers that are the same but for
these return the same truth value, the same position and the same tree (but for the names), or panic in the same way. -/
theorem C82_names_and_set_order_are_invisible {ρ : R → S → Prop} (hρ : Pairing ρ) {P : Parser R U} {P' : Parser S U} (hP : P.Same ρ P')
    (src : Source) (n : Nat) : (parse P src n).Rel (SameResult ρ) (parse P' src n) := same_parse hρ hP src n

/-- C82: whatever rules link with the generated code, left recursive or not, the parser is the same. -/
theorem C82_linked_parsers_agree {c : GeneratedCode} {P : Parser R U} {P' : Parser S U} {name : R → Bytes} {name' : S → Bytes}
    (h : Links c P.body name) (h' : Links c P'.body name') (hs : name P.grammar = name' P'.grammar) (hh : P.hook = P'.hook)
    (hu : P.userInit = P'.userInit) (src : Source) (n : Nat) :
    (parse P src n).Rel (SameResult fun r s => name r = name' s) (parse P' src n) := by
  obtain ⟨h1, h2⟩ := links_same h h' hs hh hu
  exact same_parse h1 h2 src n

/-- Two crates that compute the same parser cannot be told apart. -/
theorem same_runs {Q Q' : Prog} {P : Parser R U} {vn : R → Name} (h : Computes Q P vn) (h' : Computes Q' P vn) : SameRuns Q Q' := by
  have key : ∀ {Q Q'}, Computes Q P vn → Computes Q' P vn → ∀ input v, (∃ n h, runParse Q n input = .ok v h) → ∃ n h, runParse Q' n input = .ok v h := by
    rintro Q Q' h h' input v ⟨n, hp, e⟩
    obtain ⟨m, x, hx, rfl⟩ := h.sound input n v hp e
    obtain ⟨N, hN⟩ := h'.complete input m x hx
    exact ⟨N, hN N (Nat.le_refl _)⟩
  exact ⟨fun input v => ⟨key h h' input v, key h' h input v⟩, fun input => (h.panics input).trans (h'.panics input).symm⟩

variable {g : DGrammar} {ord : HashOrd} {n₀ : Nat} {c : GeneratedCode} {body : R → Expr R} {name : R → Bytes} {start : R}

/-- C82: the crate made of the generated code, executed, computes the parser of any rules, left recursive or not, that link with the code. -/
theorem C82_linked_rules_executed (hw : g.WF) (hsm : g.text.length < 82000000) (h : generateParser ord n₀ g.text = .ok (.code c))
    (hf : ∀ r ∈ g, r.rhs.Faithful) (hr : g.Runnable) (hl : Links c body name) (hs : name start = utf8Of "grammar") :
    ∃ Q, readCrate (crateFiles c) = some Q ∧ Computes Q (.plain body start) fun r => nameOf (variantOf c.variants (name r)) := by
  obtain ⟨Q, body', start', hQ, hl', hs', hC⟩ := C77_generated_crate_executed hw hsm h hf hr
  obtain ⟨h1, h2⟩ := links_same (P := .plain body' start') (P' := .plain body start) hl' hl (hs'.trans hs.symm) rfl rfl
  exact ⟨Q, hQ, computes_same h1 h2 (fun r s e => by rw [show r.1 = name s from e]) hC⟩

/-- The same with the hooked call of example 11. -/
theorem C82_linked_hooked_rules_executed (hw : g.WF) (hsm : g.text.length < 82000000) (h : generateParser ord n₀ g.text = .ok (.code c))
    (hf : ∀ r ∈ g, r.rhs.Faithful) (hr : g.RunnableWith [utf8Of "unique_line_cache"]) (hl : Links c body name)
    (hs : name start = utf8Of "grammar") :
    ∃ Q, readCrate (crateFiles11 c) = some Q ∧ Computes Q (uniqueParser body start) fun r => nameOf (variantOf c.variants (name r)) := by
  obtain ⟨Q, body', start', hQ, hl', hs', hC⟩ := C79_generated_crate_executed hw hsm h hf hr
  obtain ⟨h1, h2⟩ := links_same (P := uniqueParser body' start') (P' := uniqueParser body start) hl' hl (hs'.trans hs.symm) rfl rfl
  exact ⟨Q, hQ, computes_same h1 h2 (fun r s e => by rw [show r.1 = name s from e]) hC⟩
end

/-- The file `file` makes a crate that is a program and cannot be told apart from the program of the files `crate`. -/
def Remakes (file : Bytes) (crate : List Bytes) : Prop :=
  ∃ (c : GeneratedCode) (Q Q' : Prog), (∀ ord : HashOrd, ∃ N, ∀ n, N ≤ n → generateParser ord n file = .ok (.code c)) ∧
    readCrate (crateFiles c) = some Q ∧ readCrate crate = some Q' ∧ SameRuns Q Q'

/-- What is to be checked of a grammar file. -/
def runnableCheck (g : DGrammar) : Bool :=
  decide (∀ r ∈ g, r.rhs.hooks = []) &&
  (g.any fun r => ! g.any (fun d => d.sep.isInline && d.name == r.name) && capitalised r.name == utf8Of "Grammar") &&
  decide (∀ r ∈ g, lowered r.name ∉ coreFunctions)

theorem remakes {R : Type} [DecidableEq R] {g : DGrammar} {pieces n names enum} {rules : List R} {body : R → Expr R} {start : R} {name : R → Bytes}
    {crate : List Bytes} (hk : FileOk g pieces n names enum rules body name) (hu : usableCheck g n = true) (hn : g.NoSetName)
    (hr : runnableCheck g = true) (hs : name start = utf8Of "grammar")
    (hc : ∃ Q, readCrate crate = some Q ∧ Computes Q (.plain body start) fun r => nameOf (variantOf (enum.map utf8Of) (name r))) :
    Remakes (fileOf pieces) crate := by
  obtain ⟨c, hgen, hl, -, hv⟩ := hk.links
  obtain ⟨N, hN⟩ := hgen .id
  rw [← hk.file] at hN
  simp only [runnableCheck, Bool.and_eq_true, decide_eq_true_eq] at hr
  obtain ⟨Q, hQ, hC⟩ := C82_linked_rules_executed hk.wf hk.length (hN N (Nat.le_refl _)) hk.faithful
    (runnable_of (usable_of hk.reach hu) hn hr.1.1 hr.1.2 hr.2) hl hs
  obtain ⟨Q', hQ', hC'⟩ := hc
  rw [hv] at hC
  exact ⟨c, Q, Q', hgen, hQ, hQ', same_runs hC hC'⟩

/-- C82, the parser of grammar files bootstraps, as a program: the generator applied to the grammar of grammar files makes a crate whose `parse`,
executed, cannot be told apart from that of the crate the generator itself uses (parser/src). -/
theorem C82_dsl_remade : Remakes (fileOf Files.dslFile) (coreFilesOfParser ++ userFiles ++ [fileOf Texts.dslRules, fileOf Texts.dslParser]) :=
  remakes (start := Dsl.r_grammar) dslOk (by decide +kernel) (by unfold DGrammar.NoSetName; decide +kernel) (by decide +kernel) (by decide +kernel) C76_dsl_executed

/-- C82, example 1: the crate generated from the grammar file, executed, cannot be told apart from the checked-in crate, executed. -/
theorem C82_example1_remade : Remakes (fileOf Files.ex1File) (coreFiles ++ userFiles ++ [fileOf Texts.ex1Rules, fileOf Texts.ex1Parser]) :=
  remakes (start := Ex1.r_grammar) ex1Ok (by decide +kernel) (by unfold DGrammar.NoSetName; decide +kernel) (by decide +kernel) (by decide +kernel) C76_example1_executed

/-- C82, example 2: the crate generated from the grammar file, executed, cannot be told apart from the checked-in crate, executed. -/
theorem C82_example2_remade : Remakes (fileOf Files.ex2File) (coreFiles ++ userFiles ++ [fileOf Texts.ex2Rules, fileOf Texts.ex2Parser]) :=
  remakes (start := Ex2.r_grammar) ex2Ok (by decide +kernel) (by unfold DGrammar.NoSetName; decide +kernel) (by decide +kernel) (by decide +kernel) C76_example2_executed

/-- C82, example 3: the crate generated from the grammar file, executed, cannot be told apart from the checked-in crate, executed. -/
theorem C82_example3_remade : Remakes (fileOf Files.ex3File) (coreFiles ++ userFiles ++ [fileOf Texts.ex3Rules, fileOf Texts.ex3Parser]) :=
  remakes (start := Ex3.r_grammar) ex3Ok (by decide +kernel) (by unfold DGrammar.NoSetName; decide +kernel) (by decide +kernel) (by decide +kernel) C76_example3_executed

/-- C82, example 4: the crate generated from the grammar file, executed, cannot be told apart from the checked-in crate, executed. -/
theorem C82_example4_remade : Remakes (fileOf Files.ex4File) (coreFiles ++ userFiles ++ [fileOf Texts.ex4Rules, fileOf Texts.ex4Parser]) :=
  remakes (start := Ex4.r_grammar) ex4Ok (by decide +kernel) (by unfold DGrammar.NoSetName; decide +kernel) (by decide +kernel) (by decide +kernel) C76_example4_executed

/-- C82, example 5: the crate generated from the grammar file, executed, cannot be told apart from the checked-in crate, executed. -/
theorem C82_example5_remade : Remakes (fileOf Files.ex5File) (coreFiles ++ userFiles ++ [fileOf Texts.ex5Rules, fileOf Texts.ex5Parser]) :=
  remakes (start := Ex5.r_grammar) ex5Ok (by decide +kernel) (by unfold DGrammar.NoSetName; decide +kernel) (by decide +kernel) (by decide +kernel) C76_example5_executed

/-- C82, example 6: the crate generated from the grammar file, executed, cannot be told apart from the checked-in crate, executed. -/
theorem C82_example6_remade : Remakes (fileOf Files.ex6File) (coreFiles ++ userFiles ++ [fileOf Texts.ex6Rules, fileOf Texts.ex6Parser]) :=
  remakes (start := Ex6.r_grammar) ex6Ok (by decide +kernel) (by unfold DGrammar.NoSetName; decide +kernel) (by decide +kernel) (by decide +kernel) C76_example6_executed

/-- C82, example 7: the crate generated from the grammar file, executed, cannot be told apart from the checked-in crate, executed. -/
theorem C82_example7_remade : Remakes (fileOf Files.ex7File) (coreFiles ++ userFiles ++ [fileOf Texts.ex7Rules, fileOf Texts.ex7Parser]) :=
  remakes (start := Ex7.r_grammar) ex7Ok (by decide +kernel) (by unfold DGrammar.NoSetName; decide +kernel) (by decide +kernel) (by decide +kernel) C76_example7_executed

/-- C82, example 8: the crate generated from the grammar file, executed, cannot be told apart from the checked-in crate, executed. -/
theorem C82_example8_remade : Remakes (fileOf Files.ex8File) (coreFiles ++ userFiles ++ [fileOf Texts.ex8Rules, fileOf Texts.ex8Parser]) :=
  remakes (start := Ex8.r_grammar) ex8Ok (by decide +kernel) (by unfold DGrammar.NoSetName; decide +kernel) (by decide +kernel) (by decide +kernel) C76_example8_executed

/-- C82, example 9: the crate generated from the grammar file, executed, cannot be told apart from the checked-in crate, executed. -/
theorem C82_example9_remade : Remakes (fileOf Files.ex9File) (coreFiles ++ userFiles ++ [fileOf Texts.ex9Rules, fileOf Texts.ex9Parser]) :=
  remakes (start := Ex9.r_grammar) ex9Ok (by decide +kernel) (by unfold DGrammar.NoSetName; decide +kernel) (by decide +kernel) (by decide +kernel) C76_example9_executed

/-- C82, example 10: the crate generated from the grammar file, executed, cannot be told apart from the checked-in crate, executed. -/
theorem C82_example10_remade : Remakes (fileOf Files.ex10File) (coreFiles ++ userFiles ++ [fileOf Texts.ex10Rules, fileOf Texts.ex10Parser]) :=
  remakes (start := Ex10.r_grammar) ex10Ok (by decide +kernel) (by unfold DGrammar.NoSetName; decide +kernel) (by decide +kernel) (by decide +kernel) C76_example10_executed

/-- C82, example 11, with its user's files. -/
theorem C82_example11_remade : ∃ (c : GeneratedCode) (Q Q' : Prog),
    (∀ ord : HashOrd, ∃ N, ∀ n, N ≤ n → generateParser ord n (fileOf Files.ex11File) = .ok (.code c)) ∧ readCrate (crateFiles11 c) = some Q ∧
    readCrate (coreFiles ++ ex11UserFiles ++ [fileOf Texts.ex11Rules, fileOf Texts.ex11Parser]) = some Q' ∧ SameRuns Q Q' := by
  obtain ⟨c, hgen, hl, -, hv⟩ := C68_example11
  obtain ⟨N, hN⟩ := hgen .id
  have ht : fileOf Files.ex11File = ex11Tree.text := by rw [text_flatten, ex11Ok.text]; rfl
  obtain ⟨Q, hQ, hC⟩ := C82_linked_hooked_rules_executed (start := Ex11.r_grammar) ex11Ok.wf (by decide +kernel) (ht ▸ hN N (Nat.le_refl _))
    ex11Ok.faithful ex11_runnable hl (by decide +kernel)
  obtain ⟨Q', hQ', hC'⟩ := C78_example11_executed
  rw [hv] at hC
  exact ⟨c, Q, Q', hgen, hQ, hQ', same_runs hC hC'⟩

/-- C82: from the text of a left-recursive grammar file to what the crate made of it does: example 5.  The execution ends on every input; unless it
panics for lack of node keys, it returns `(b, q, …)` where `b` says whether there is a digit to start with, and `q` is the end of the longest
`digit (- digit)*`. -/
theorem C82_example5_from_its_grammar_file (ord : HashOrd) : ∃ c N Q, (∀ n, N ≤ n → generateParser ord n (fileOf Files.ex5File) = .ok (.code c)) ∧
    readCrate (crateFiles c) = some Q ∧ ∀ input : Bytes,
      (∃ b q t N, (∀ n, N ≤ n → ∃ h, runParse Q n input = .ok (.tuple [.bool b, .int q, t]) h) ∧
        (b = true ↔ DigitAt ⟨input⟩ 0) ∧ (b = false → q = 0) ∧
        (b = true → ∃ k, q = 1 + 2 * k ∧ (∀ i, i < k → MinusDigitAt ⟨input⟩ (1 + 2 * i)) ∧ ¬ MinusDigitAt ⟨input⟩ (1 + 2 * k))) ∨
      ∃ N, ∀ n, N ≤ n → runParse Q n input = .panic := by
  obtain ⟨c, hgen, hl, -, hv⟩ := C68_example5
  obtain ⟨N, hN⟩ := hgen ord
  have hN' := ex5Ok.file.symm ▸ hN N (Nat.le_refl _)
  obtain ⟨Q, hQ, hC⟩ := C82_linked_rules_executed (start := Ex5.r_grammar) ex5Ok.wf ex5Ok.length hN' ex5Ok.faithful
    (runnable_of (usable_of (n := 3) ex5Ok.reach (by decide +kernel)) (by unfold DGrammar.NoSetName; decide +kernel) (by decide +kernel) (by decide +kernel)
      (by decide +kernel)) hl (by decide +kernel)
  refine ⟨c, N, Q, hN, hQ, fun input => ?_⟩
  obtain ⟨M, hM⟩ := C47_example5_terminates ⟨input⟩
  rcases hM M (Nat.le_refl _) with ⟨b, q, t, hp⟩ | hp
  · obtain ⟨h1, h2, h3⟩ := C47_example5_consumes ⟨input⟩ hp
    obtain ⟨L, hL⟩ := hC.complete input M _ hp
    exact .inl ⟨b, q, _, L, hL, h1, h2, h3⟩
  · obtain ⟨L, hL⟩ := (hC.panics input).mpr ⟨M, _, hp⟩
    exact .inr ⟨L, fun n hn => runParse_panic hL hn⟩

/-! ### Non-trivial cases: other names, other order -/

/-- Example 7 with its rules called by numbers, and with its involved sets in another order and with repetitions. -/
def numbered7 : Parser Nat Unit := .plain (fun
  | 0 => .matchRange 48 57
  | 1 => .varNameLR [1, 2, 1] 2
  | 2 => .orderedChoice (.subexpression (.sequence (.sequence (.varNameLR [1, 2] 1) (.terminal 45)) (.varName 0))) (.varName 0)
  | _ => .varNameLR [1, 2] 2) 3

/-- The rules of example 7 by number. -/
def number7 : Ex7 → Nat
  | .r_num => 0
  | .r_intermediate => 1
  | .r_expr => 2
  | .r_grammar => 3

example : Pairing (fun r n => number7 r = n) ∧ ex7Parser.Same (fun r n => number7 r = n) numbered7 := by
  refine ⟨⟨fun h1 h2 => h1.symm.trans h2, fun {r s n} h1 h2 => ?_⟩, rfl, fun {r n} h => ?_, rfl, rfl⟩
  · have := h1.trans h2.symm
    revert this; cases r <;> cases s <;> decide
  · subst h
    cases r <;> simp [ex7Parser, numbered7, Parser.plain, Ex7.body, number7, Expr.Same, SameSet]

example : (match parse ex7Parser ⟨bytesOf "7-1-2x"⟩ 60, parse numbered7 ⟨bytesOf "7-1-2x"⟩ 60 with
    | .ok (b, q, t), .ok (b', q', t') => decide (b = b' ∧ q = q' ∧ q = 5 ∧ t.nodes.map (fun nd => (number7 nd.rule, nd.start, nd.stop, nd.children)) =
        t'.nodes.map fun nd => (nd.rule, nd.start, nd.stop, nd.children)) | _, _ => false) = true := by decide +kernel

end PP.Mini
