import Verif.Props.ExecuteAll
import Verif.Props.Regenerate
import Verif.Spec.Compile

/-! # C90: from the text of a grammar file to what the parser made of it does, by executing texts only -/
namespace PP
open PP.Gen

section
variable {k : Nat} {T : GeneratorText} {g : DGrammar} {user : List Bytes} {src : Bytes} {Q Q' : Mini.Prog} {c : GeneratedCode} {W : Bytes → Expr Bytes}

/-- One grammar file makes at most one program. -/
theorem compiles_det (h : T.Compiles user src Q) (h' : T.Compiles user src Q') : Q = Q' := by
  obtain ⟨a, b, N, h1, h2⟩ := h
  obtain ⟨a', b', N', h1', h2'⟩ := h'
  obtain ⟨rfl, rfl⟩ := generates_det (h1 (max N N') (by omega)) (h1' (max N N') (by omega))
  exact Option.some.inj (h2.symm.trans h2')

theorem compiles_of_front (F : FrontOK T.parser) (hP : Rs.readFiles Rs.generatorFiles = some T.generator) (hord : ∀ l, (T.ord l).Perm l) (hw : g.WF)
    (hsm : g.text.length < 82000000) (hs : Rs.ascii g.text = true) (hl : g.Low) {o : HashOrd} {n : Nat} (h : generateParser o n g.text = .ok (.code c))
    (hQ : Mini.readCrate (Mini.coreFilesOfParser ++ user ++ [Run.rulesFile c, Run.parserFile c]) = some Q) : T.Compiles user g.text Q := by
  obtain ⟨N, H⟩ := executed_of_grammar T F hP hord hw hsm hs hl
  exact ⟨_, _, N, fun n hn => (H n hn).2.1 _ _ _ h, hQ⟩
end

set_option maxRecDepth 100000 in
theorem dsl_ascii : Rs.ascii (fileOf Files.dslFile) = true := by decide +kernel

/-- The parser crate made of the grammar of grammar files is as good as the one in the repository. -/
theorem front_remade : ∃ c Q, (∀ ord : HashOrd, ∃ N, ∀ n, N ≤ n → generateParser ord n (fileOf Files.dslFile) = .ok (.code c)) ∧
    Mini.readCrate (Mini.crateFiles c) = some Q ∧ FrontOK Q := by
  obtain ⟨c, hgen, hl, -, hv⟩ := C68_dsl_bootstraps
  obtain ⟨N, hN⟩ := hgen .id
  have h := dslOk.file.symm ▸ hN N (Nat.le_refl _)
  have hr : dslTree.Runnable := Mini.runnable_of (usable_of dslOk.reach (by decide +kernel)) (by unfold DGrammar.NoSetName; decide +kernel) (by decide +kernel)
    (by decide +kernel) (by decide +kernel)
  obtain ⟨body, funs, h1, h2, h3, h4, h5⟩ := Mini.generated_crate_with (hs := []) (items := Mini.plainItems) (by simp) dslOk.wf dslOk.length h dslOk.faithful
    (Mini.runnable_with hr) fun r _ => Mini.plain_free _
  refine ⟨c, Mini.progOf (Mini.plainUser Unit Mini.plainItems) false c.variants funs, hgen, ?_, ?_⟩
  · rw [Mini.crateFiles, List.append_assoc]
    exact Mini.readCrate_append Mini.read_coreFilesOfParser (Mini.readCrate_append Mini.read_userFiles (by simp [Mini.readCrate, h2, h3, Mini.genOf]))
  · intro input hi m n hn b q st hev
    have hR := h5 dslParser _ hl.inj (Mini.links_named hl h1 fun r => (dsl_plain r).lrFree) (by decide +kernel)
    have := Mini.front_computes (br := false) (us := Mini.plainUser Unit Mini.plainItems) (Mini.plainUserSim _) h4 hR hi hn hev
    rw [hv] at this ⊢
    exact this

/-- Every generation consists of the text of generator/src and a parser of grammar files that does what the model does. -/
theorem Generation.front {k : Nat} {T : GeneratorText} (h : Generation k T) :
    FrontOK T.parser ∧ Rs.readFiles Rs.generatorFiles = some T.generator ∧ ∀ l, (T.ord l).Perm l := by
  induction h with
  | first hQ hP ho => exact ⟨IsGenerator.front (T := ⟨_, _, _⟩) ⟨hQ, hP⟩, hP, ho⟩
  | next hT hc ho ih =>
    obtain ⟨c, Q, hgen, hQ, hF⟩ := front_remade
    obtain ⟨N, hN⟩ := hgen .id
    have := compiles_of_front (user := Mini.userFiles) ih.1 ih.2.1 ih.2.2 dslOk.wf dslOk.length (dslOk.file ▸ dsl_ascii) (DGrammar.low_low (by decide +kernel))
      (dslOk.file.symm ▸ hN N (Nat.le_refl _)) hQ
    rw [dslOk.file] at this
    obtain rfl := compiles_det hc this
    exact ⟨hF, ih.2.1, ho⟩

section
variable {k : Nat} {T : GeneratorText} {g : DGrammar} {user : List Bytes} {Q : Mini.Prog} {c : GeneratedCode} {W : Bytes → Expr Bytes}

theorem Generation.compiles (hT : Generation k T) (hw : g.WF) (hsm : g.text.length < 82000000) (hs : Rs.ascii g.text = true) (hl : g.Low) {o : HashOrd} {n : Nat}
    (h : generateParser o n g.text = .ok (.code c)) (hQ : Mini.readCrate (Mini.coreFilesOfParser ++ user ++ [Run.rulesFile c, Run.parserFile c]) = some Q) :
    T.Compiles user g.text Q := compiles_of_front hT.front.1 hT.front.2.1 hT.front.2.2 hw hsm hs hl h hQ

/-- C90: every generation of the generator does with every file what the model does, that is, all generations do the same. -/
theorem C90_every_generation (hT : Generation k T) (src : Bytes) (hsm : src.length < 82000000) (hs : Rs.ascii src = true)
    (hl : ∀ g : DGrammar, g.WF → g.text = src → g.Low) : ∃ N, ∀ n, N ≤ n →
      (∀ o k line, generateParser o k src = .ok (.syntaxError line) → T.Rejects n src line) ∧
      (∀ o k c, generateParser o k src = .ok (.code c) → T.Generates n src (Run.rulesFile c) (Run.parserFile c)) ∧
      (∀ o k p, generateParser o k src = .panic p → T.Panics n src) :=
  executed_of_front T hT.front.1 hT.front.2.1 hT.front.2.2 src hsm hs hl

/-- C90: there is a generator of every generation; and from generation 1 on they all have the same parser crate: the one made of the grammar of
grammar files by a parser made of the grammar of grammar files is itself. -/
theorem C90_bootstrap : (∀ k, ∃ T, Generation k T) ∧ ∀ j k T T', Generation (j + 1) T → Generation (k + 1) T' → T.parser = T'.parser := by
  obtain ⟨c, Q, hgen, hQ, hF⟩ := front_remade
  have key : ∀ {k T}, Generation k T → T.Compiles Mini.userFiles (fileOf Files.dslFile) Q := by
    intro k T h
    obtain ⟨N, hN⟩ := hgen .id
    exact dslOk.file ▸ h.compiles dslOk.wf dslOk.length (dslOk.file ▸ dsl_ascii) (DGrammar.low_low (by decide +kernel)) (dslOk.file.symm ▸ hN N (Nat.le_refl _)) hQ
  refine ⟨fun k => ?_, fun j k T T' h h' => ?_⟩
  · induction k with
    | zero =>
      obtain ⟨Q, hQ, -⟩ := front_dsl
      exact ⟨⟨Q, _, id⟩, .first hQ Rs.read_generatorFiles fun _ => .refl _⟩
    | succ k ih =>
      obtain ⟨T, hT⟩ := ih
      exact ⟨⟨Q, T.generator, id⟩, .next hT (key hT) fun _ => .refl _⟩
  · cases h with
    | next hT hc _ =>
      cases h' with
      | next hT' hc' _ => exact (compiles_det hc (key hT)).trans (compiles_det hc' (key hT')).symm

/-- What the compiler theorems suppose of a grammar: it is well formed, ASCII, below 82 million bytes, without hexadecimal literals of 0x80 and
above; its expressions are compiled faithfully (Spec/Faithful), no comment is empty, no leftmost reference undeclared. -/
structure Compilable (g : DGrammar) : Prop where
  wf : g.WF
  small : g.text.length < 82000000
  ascii : Rs.ascii g.text = true
  low : g.Low
  declared : ¬ g.Dangling
  faithful : ∀ r ∈ g, r.rhs.Faithful
  comments : ∀ r ∈ g, ∀ k ∈ r.comments, ¬ k.Panics

theorem Compilable.code (h : Compilable g) : ∃ c N, generateParser .id N g.text = .ok (.code c) := by
  obtain ⟨c, N, hN, -⟩ := round_trip h.wf h.small h.declared h.faithful h.comments .id
  exact ⟨c, N, hN N (Nat.le_refl _)⟩

/-- C90, for a grammar without left recursion: every generation of the generator, executed on the text of the grammar, makes the same program `Q`,
and the `parse` of `Q`, executed, returns on every input exactly what PEG semantics gives for the grammar as written; where PEG semantics gives a
result the execution ends, by returning it or (if 2^32 node keys do not suffice) by a panic. -/
theorem C90_compiled_computes_peg (hg : Compilable g) (hr : g.Runnable) (hs : g.Simple) (hW : g.Means W) :
    ∃ Q, (∀ k T, Generation k T → T.Compiles Mini.userFiles g.text Q) ∧ ∀ input : Bytes,
        (∀ n v h', Mini.runParse Q n input = .ok v h' → ∃ b q t, v = .tuple [.bool b, .int q, t] ∧ Peg W ⟨input⟩ Mini.startRule 0 b q) ∧
        (∀ b q, Peg W ⟨input⟩ Mini.startRule 0 b q → ∃ N, (∀ n, N ≤ n → ∃ t h', Mini.runParse Q n input = .ok (.tuple [.bool b, .int q, t]) h') ∨
          ∀ n, N ≤ n → Mini.runParse Q n input = .panic) := by
  obtain ⟨c, N, h⟩ := hg.code
  obtain ⟨Q, hQ, H⟩ := Mini.C77_generated_crate_computes_peg hg.wf hg.small h hg.faithful hr hs hW
  exact ⟨Q, fun k T hT => hT.compiles hg.wf hg.small hg.ascii hg.low h hQ, H⟩

/-- C90, with left recursion or without: the made program accepts only what is derivable from the grammar as written. -/
theorem C90_compiled_is_sound (hg : Compilable g) (hr : g.Runnable) (hW : g.Means W) :
    ∃ Q, (∀ k T, Generation k T → T.Compiles Mini.userFiles g.text Q) ∧
      ∀ (input : Bytes) n q t h', Mini.runParse Q n input = .ok (.tuple [.bool true, .int q, t]) h' → Derives W Mini.startRule (input.take q) := by
  obtain ⟨c, N, h⟩ := hg.code
  obtain ⟨Q, hQ, H⟩ := Mini.C77_accepted_text_is_derivable hg.wf hg.small h hg.faithful hr hW
  exact ⟨Q, fun k T hT => hT.compiles hg.wf hg.small hg.ascii hg.low h hQ, H⟩

/-- C90: if no cycle of references before anything is consumed escapes the generator, and no repeated expression may match the empty string, the
execution of the made program ends on every input. -/
theorem C90_compiled_ends (hg : Compilable g) (hr : g.Runnable) (hW : g.Means W) (hcyc : ∀ x, ¬ Relation.TransGen (g.Hidden W) x x)
    (hloop : ∀ r ∈ g, NoEmptyLoop W (W (lower r.name))) :
    ∃ Q, (∀ k T, Generation k T → T.Compiles Mini.userFiles g.text Q) ∧
      ∀ input : Bytes, ∃ N, (∃ b q t, ∀ n, N ≤ n → ∃ h', Mini.runParse Q n input = .ok (.tuple [.bool b, .int q, t]) h') ∨
        ∀ n, N ≤ n → Mini.runParse Q n input = .panic := by
  obtain ⟨c, N, h⟩ := hg.code
  obtain ⟨Q, hQ, H⟩ := Mini.C77_execution_ends hg.wf hg.small h hg.faithful hr hW hcyc hloop
  exact ⟨Q, fun k T hT => hT.compiles hg.wf hg.small hg.ascii hg.low h hQ, H⟩

/-- C90, with the hooked call and the user's files of example 11: what is accepted is derivable. -/
theorem C90_compiled_with_hooks_is_sound (hg : Compilable g) (hr : g.RunnableWith [utf8Of "unique_line_cache"]) (hW : g.Means W) :
    ∃ Q, (∀ k T, Generation k T → T.Compiles Mini.ex11UserFiles g.text Q) ∧
      ∀ (input : Bytes) n q t h', Mini.runParse Q n input = .ok (.tuple [.bool true, .int q, t]) h' → Derives W Mini.startRule (input.take q) := by
  obtain ⟨c, N, h⟩ := hg.code
  obtain ⟨Q, hQ, H⟩ := Mini.C79_accepted_text_is_derivable hg.wf hg.small h hg.faithful hr hW
  exact ⟨Q, fun k T hT => hT.compiles hg.wf hg.small hg.ascii hg.low h hQ, H⟩
end

/-! ### The hypotheses are met -/

theorem sample_compilable : Compilable sample :=
  ⟨sample_wf, sample_small, by decide +kernel, DGrammar.low_low (by decide +kernel), not_dangling_of (by decide +kernel), by decide +kernel, Mini.sample_comments⟩

theorem rightG_compilable : Compilable Mini.rightG :=
  ⟨Mini.rightG_wf, by decide +kernel, by decide +kernel, DGrammar.low_low (by decide +kernel), not_dangling_of (by decide +kernel), by decide +kernel, by
    intro r hr k hk; simp only [Mini.rightG, List.mem_singleton] at hr; subst hr; cases hk⟩

/-- The sample grammar (with left recursion): executed, every generation of the generator makes the same program of its text; the execution of that
program ends on every input; and what it accepts is derivable. -/
example : ∃ Q W, sample.Means W ∧ (∀ k T, Generation k T → T.Compiles Mini.userFiles sample.text Q) ∧
    (∀ input, ∃ N, (∃ b q t, ∀ n, N ≤ n → ∃ h', Mini.runParse Q n input = .ok (.tuple [.bool b, .int q, t]) h') ∨ ∀ n, N ≤ n → Mini.runParse Q n input = .panic) ∧
    ∀ input n q t h', Mini.runParse Q n input = .ok (.tuple [.bool true, .int q, t]) h' → Derives W Mini.startRule (input.take q) := by
  obtain ⟨W, hW, hcyc, hloop, -⟩ := sample_meets
  obtain ⟨Q, hQ, h1⟩ := C90_compiled_ends sample_compilable Mini.sample_runnable hW hcyc hloop
  obtain ⟨Q', hQ', h2⟩ := C90_compiled_is_sound sample_compilable Mini.sample_runnable hW
  obtain ⟨T, hT⟩ := C90_bootstrap.1 0
  obtain rfl := compiles_det (hQ 0 T hT) (hQ' 0 T hT)
  exact ⟨Q, W, hW, hQ, h1, h2⟩

/-- The third generation, executed on `<Grammar>=('x',<Grammar>)/'y';`, makes a program that, executed on `xy`, returns `(true, 2, …)` or panics. -/
example : ∃ T Q, Generation 3 T ∧ T.Compiles Mini.userFiles (bytesOf "<Grammar>=('x',<Grammar>)/'y';") Q ∧
    ∃ N, (∀ n, N ≤ n → ∃ t h', Mini.runParse Q n [120, 121] = .ok (.tuple [.bool true, .int 2, t]) h') ∨ ∀ n, N ≤ n → Mini.runParse Q n [120, 121] = .panic := by
  obtain ⟨T, hT⟩ := C90_bootstrap.1 3
  let W : Bytes → Expr Bytes := fun _ => .orderedChoice (.subexpression (.sequence (.terminal 120) (.varName (lower (nm "Grammar"))))) (.terminal 121)
  have hW : Mini.rightG.Means W := by
    intro r hr
    simp only [Mini.rightG, List.mem_singleton] at hr
    subst hr
    rfl
  obtain ⟨Q, hQ, h⟩ := C90_compiled_computes_peg rightG_compilable Mini.rightG_runnable ⟨by decide +kernel, not_leftRecursive_of (by decide +kernel)⟩ hW
  have ht : Mini.rightG.text = bytesOf "<Grammar>=('x',<Grammar>)/'y';" := by decide +kernel
  refine ⟨T, Q, hT, ht ▸ hQ 3 T hT, (h _).2 true 2 ?_⟩
  exact .ref (.choice_left (.sub_ok (.seq_ok (.terminal_ok (by decide) rfl) (.ref (.choice_right (.sub_fail (.seq_fail1 (.terminal_fail (by decide))))
    (.terminal_ok (by decide) rfl))))))

end PP
