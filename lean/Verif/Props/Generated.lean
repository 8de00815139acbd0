import Verif.Props.Execute
import Verif.Props.EndToEnd
import Verif.Props.Text
import Verif.Props.Termination
import Verif.Lemmas.Mini.Generated

/-! # C77: the Rust source text of every generated crate, executed, does what the grammar file says

`Runnable` (Spec/Mini/Runnable) lists what has to hold of the grammar's names.  The files are the core files of parser/src, which the runner
copies (C56), and the rules.rs and parser.rs it writes; they are read by a reader of Rust source text and executed (Spec/Mini). -/
namespace PP.Mini
open PP.Gen

section
variable {g : DGrammar} {ord : HashOrd} {n₀ : Nat} {c : GeneratedCode} {W : Bytes → Expr Bytes}

theorem runParse_panic {Q : Prog} {input : Bytes} {n m : Nat} (h : runParse Q n input = .panic) (hm : n ≤ m) : runParse Q m input = .panic := by
  rcases run_le (P := Q) hm (.fn none n!"parse") [.str input] [] with h' | h'
  · rw [runParse, h'] at h; cases h
  · rw [runParse, ← h']; exact h

theorem Runnable.exists_start (hr : g.Runnable) : ∃ r : g.Fn, r.1 = utf8Of "grammar" := by
  obtain ⟨r, hr, -, h⟩ := hr.start
  refine ⟨⟨lower r.name, List.mem_map_of_mem hr⟩, ?_⟩
  show lower r.name = _
  rw [← lower_cap, cap_spec, h]
  decide +kernel

/-- C77: the text of a generated crate is a program (of the fragment of Rust described in Spec/Mini); the rules of the code link; and the
program's `parse`, executed, computes what the model computes for these rules. -/
theorem C77_generated_crate_executed (hw : g.WF) (hsm : g.text.length < 82000000) (h : generateParser ord n₀ g.text = .ok (.code c))
    (hf : ∀ r ∈ g, r.rhs.Faithful) (hr : g.Runnable) : ∃ (Q : Prog) (body : g.Fn → Expr g.Fn) (start : g.Fn),
      readCrate (crateFiles c) = some Q ∧ Links c body Subtype.val ∧ start.1 = utf8Of "grammar" ∧
        Computes Q (.plain body start) fun r => nameOf (variantOf c.variants r.1) := by
  obtain ⟨body, funs, h1, h2, h3, h4, h5⟩ := generated_crate hw hsm h hf hr
  obtain ⟨start, hs⟩ := Runnable.exists_start hr
  exact ⟨progOf (plainUser Unit plainItems) false c.variants funs, body, start, by
    rw [crateFiles, List.append_assoc]
    exact readCrate_append read_coreFilesOfParser (readCrate_append read_userFiles (by simp [readCrate, h2, h3, genOf])),
    h1, hs, computes (plainUserSim _) h4 (h5 start hs)⟩

/-- C77: for a grammar without left recursion the crate's `parse`, executed, returns exactly what PEG semantics gives for the grammar as
written; where PEG semantics gives a result the execution ends, by returning it or (if 2^32 node keys do not suffice) by a panic. -/
theorem C77_generated_crate_computes_peg (hw : g.WF) (hsm : g.text.length < 82000000) (h : generateParser ord n₀ g.text = .ok (.code c))
    (hf : ∀ r ∈ g, r.rhs.Faithful) (hr : g.Runnable) (hs : g.Simple) (hW : g.Means W) : ∃ Q, readCrate (crateFiles c) = some Q ∧
      ∀ input : Bytes,
        (∀ n v h', runParse Q n input = .ok v h' → ∃ b q t, v = .tuple [.bool b, .int q, t] ∧ Peg W ⟨input⟩ startRule 0 b q) ∧
        (∀ b q, Peg W ⟨input⟩ startRule 0 b q → ∃ N, (∀ n, N ≤ n → ∃ t h', runParse Q n input = .ok (.tuple [.bool b, .int q, t]) h') ∨
          ∀ n, N ≤ n → runParse Q n input = .panic) := by
  obtain ⟨Q, body, start, hQ, hl, hst, hC⟩ := C77_generated_crate_executed hw hsm h hf hr
  have hb := links_bodies hw hsm h hf hl hW
  have hpl := links_plain hw hsm h hf hl hs
  refine ⟨Q, hQ, fun input => ⟨fun n v h' hv => ?_, fun b q hp => ?_⟩⟩
  · obtain ⟨m, ⟨b, q, t⟩, hx, rfl⟩ := hC.sound input n v h' hv
    refine ⟨b, q, _, rfl, ?_⟩
    unfold parse at hx
    obtain ⟨⟨b', q', st'⟩, h1, h2⟩ := Out.bind_eq_ok.mp hx
    obtain ⟨t', -, h3⟩ := Out.bind_eq_ok.mp h2
    cases h3
    have := C04_memoised_agrees_with_peg body start ⟨input⟩ hpl .init (e := .varName start) trivial h1
    exact Agrees.peg hb this (e := startRule) hst
  · have hp' : Peg body ⟨input⟩ (.varName start) 0 b q := Agrees.unpeg hb hpl hp (a := .varName start) (e := startRule) trivial hst rfl
    obtain ⟨ts, hts⟩ := hp'.pegT
    obtain ⟨M, hM⟩ := C06_parse_returns_the_peg_tree body start ⟨input⟩ hpl hts
    rcases hM M (Nat.le_refl _) with ⟨t, ht, -⟩ | hp
    · obtain ⟨N, hN⟩ := hC.complete input M _ ht
      exact ⟨N, .inl fun n hn => (hN n hn).elim fun h' e => ⟨_, h', e⟩⟩
    · obtain ⟨N, hN⟩ := (hC.panics input).mpr ⟨M, _, hp⟩
      exact ⟨N, .inr fun n hn => runParse_panic hN hn⟩

/-- C77: whatever the crate's `parse`, executed, accepts, left recursive rules or not, is derivable from the grammar as written. -/
theorem C77_accepted_text_is_derivable (hw : g.WF) (hsm : g.text.length < 82000000) (h : generateParser ord n₀ g.text = .ok (.code c))
    (hf : ∀ r ∈ g, r.rhs.Faithful) (hr : g.Runnable) (hW : g.Means W) : ∃ Q, readCrate (crateFiles c) = some Q ∧
      ∀ (input : Bytes) n q t h', runParse Q n input = .ok (.tuple [.bool true, .int q, t]) h' →
        Derives W startRule (input.take q) := by
  obtain ⟨Q, body, start, hQ, hl, hst, hC⟩ := C77_generated_crate_executed hw hsm h hf hr
  refine ⟨Q, hQ, fun input n q t h' hv => ?_⟩
  obtain ⟨m, ⟨b, q', t'⟩, hx, e⟩ := hC.sound input n _ h' hv
  simp only [encResult, Val.tuple.injEq, List.cons.injEq, Val.bool.injEq, Val.int.injEq] at e
  obtain ⟨rfl, rfl, -⟩ := e
  unfold parse at hx
  obtain ⟨⟨b', q', st'⟩, h1, h2⟩ := Out.bind_eq_ok.mp hx
  obtain ⟨t', -, h3⟩ := Out.bind_eq_ok.mp h2
  cases h3
  have := C54_accepted_text_is_derivable hw hsm h hf (.plain body start) hl hW ⟨input⟩ (plain_hooksOK _ _ _) .init h1
  change Derives W (.varName start.1) _ at this
  rw [hst] at this
  simpa [Source.slice] using this

/-- C77: if every cycle of references that may be evaluated before anything is consumed contains a reference the generator recognises as
left recursive, and no repeated expression may match the empty string, then the execution of the crate's `parse` ends on every input. -/
theorem C77_execution_ends (hw : g.WF) (hsm : g.text.length < 82000000) (h : generateParser ord n₀ g.text = .ok (.code c))
    (hf : ∀ r ∈ g, r.rhs.Faithful) (hr : g.Runnable) (hW : g.Means W) (hcyc : ∀ x, ¬ Relation.TransGen (g.Hidden W) x x)
    (hloop : ∀ r ∈ g, NoEmptyLoop W (W (lower r.name))) : ∃ Q, readCrate (crateFiles c) = some Q ∧
      ∀ input : Bytes, ∃ N, (∃ b q t, ∀ n, N ≤ n → ∃ h', runParse Q n input = .ok (.tuple [.bool b, .int q, t]) h') ∨
        ∀ n, N ≤ n → runParse Q n input = .panic := by
  obtain ⟨Q, body, start, hQ, hl, hst, hC⟩ := C77_generated_crate_executed hw hsm h hf hr
  refine ⟨Q, hQ, fun input => ?_⟩
  obtain ⟨M, hM⟩ := C27_detected_recursion_terminates hw hsm h hf (.plain body start) hl _ (fn_finite g) hW hcyc hloop ⟨input⟩ (plain_hooksOK _ _ _)
  have pan : ∀ p, parse (.plain body start) ⟨input⟩ M = .panic p → ∃ N, ∀ n, N ≤ n → runParse Q n input = .panic := fun p hp => by
    obtain ⟨N, hN⟩ := (hC.panics input).mpr ⟨M, _, hp⟩
    exact ⟨N, fun n hn => runParse_panic hN hn⟩
  rcases hM M (Nat.le_refl _) with ⟨b, q, t, ht⟩ | hp | hp
  · obtain ⟨N, hN⟩ := hC.complete input M _ ht
    exact ⟨N, .inl ⟨b, q, _, hN⟩⟩
  · exact (pan _ hp).imp fun _ => .inr
  · exact (pan _ hp).imp fun _ => .inr

/-- C77: where the generator sees no left recursion and the start rule, as written, comes to need itself at the same position, the execution
never returns. -/
theorem C77_hidden_recursion_never_returns (hw : g.WF) (hsm : g.text.length < 82000000) (h : generateParser ord n₀ g.text = .ok (.code c))
    (hf : ∀ r ∈ g, r.rhs.Faithful) (hr : g.Runnable) (hs : g.Simple) (hW : g.Means W) : ∃ Q, readCrate (crateFiles c) = some Q ∧
      ∀ input : Bytes, (∃ x p, ((startRule, 0) = (.varName x, p) ∨ NeedsPlus W ⟨input⟩ (startRule, 0) (.varName x, p)) ∧
        NeedsPlus W ⟨input⟩ (.varName x, p) (.varName x, p)) → ∀ n v h', runParse Q n input ≠ .ok v h' := by
  obtain ⟨Q, hQ, hP⟩ := C77_generated_crate_computes_peg hw hsm h hf hr hs hW
  refine ⟨Q, hQ, fun input hx n v h' hv => ?_⟩
  obtain ⟨b, q, t, -, hp⟩ := (hP input).1 n v h' hv
  obtain ⟨x, p, h1 | h1, h2⟩ := hx
  · cases h1; exact h2.no_result ⟨b, q, hp⟩
  · exact NeedsPlus.no_result' h1 h2 ⟨b, q, hp⟩
end

/-! ### The hypotheses are met -/

theorem runnable_of {g : DGrammar} (h1 : g.Usable) (h2 : g.NoSetName) (h3 : ∀ r ∈ g, r.rhs.hooks = [])
    (h4 : (g.any fun r => ! g.any (fun d => d.sep.isInline && d.name == r.name) && capitalised r.name == utf8Of "Grammar") = true)
    (h5 : ∀ r ∈ g, lowered r.name ∉ coreFunctions) : g.Runnable := by
  refine ⟨h1, h2, h3, ?_, h5⟩
  obtain ⟨r, hr, h⟩ := List.any_eq_true.mp h4
  simp only [Bool.and_eq_true, Bool.not_eq_true', beq_iff_eq] at h
  refine ⟨r, hr, ?_, h.2⟩
  rintro ⟨d, hd, he, hi⟩
  have := List.any_eq_false.mp h.1 d hd
  simp [he, hi] at this

theorem sample_comments : ∀ r ∈ sample, ∀ k ∈ r.comments, ¬ k.Panics := by
  intro r hr k hk
  simp only [sample, List.mem_cons, List.not_mem_nil, or_false] at hr
  rcases hr with rfl | rfl | rfl
  · simp at hk
  · simp at hk; subst hk
    rintro (h | ⟨b, s, h, h'⟩)
    · exact absurd h (by decide)
    · have : b = 32 := by
        have : bytesOf " digits " = 32 :: bytesOf "digits " := by decide
        simp only [this] at h
        injection h with h _; exact h.symm
      subst this
      exact absurd h' (by simp [IsCont])
  · simp at hk
theorem sample_runnable : sample.Runnable :=
  runnable_of sample_usable sample_noSet (by decide +kernel) (by decide +kernel) (by decide +kernel)

/-- The sample grammar, `<Grammar>=<Expr>; <Expr>= (<Expr>,'-',<Num>)/<Num>; <Num> Inline =['0'..'9'];` up to layout: from every order of the
hash containers the generator makes code; the crate's text is a program; its execution ends on every input; and what it accepts is derivable. -/
example (ord : HashOrd) : ∃ c Q W, (∃ n, generateParser ord n sample.text = .ok (.code c)) ∧ readCrate (crateFiles c) = some Q ∧ sample.Means W ∧
    (∀ input, ∃ N, (∃ b q t, ∀ n, N ≤ n → ∃ h', runParse Q n input = .ok (.tuple [.bool b, .int q, t]) h') ∨
      ∀ n, N ≤ n → runParse Q n input = .panic) ∧
    ∀ input n q t h', runParse Q n input = .ok (.tuple [.bool true, .int q, t]) h' → Derives W startRule (input.take q) := by
  obtain ⟨c, N, hN, -⟩ := round_trip sample_wf sample_small (not_dangling_of (by decide +kernel)) (by decide +kernel) sample_comments ord
  have hgen := hN N (Nat.le_refl _)
  obtain ⟨W, hW, hcyc, hloop, -⟩ := sample_meets
  obtain ⟨Q, hQ, h1⟩ := C77_execution_ends sample_wf sample_small hgen (by decide +kernel) sample_runnable hW hcyc hloop
  obtain ⟨Q', hQ', h2⟩ := C77_accepted_text_is_derivable sample_wf sample_small hgen (by decide +kernel) sample_runnable hW
  obtain rfl := Option.some.inj (hQ.symm.trans hQ')
  exact ⟨c, Q, W, ⟨N, hgen⟩, hQ, hW, h1, h2⟩

/-- `<Grammar>=('x',<Grammar>)/'y';` -/
def rightG : DGrammar := [⟨nm "Grammar", .plain [], .chain .choice [] (.plain (.mk (.sub (.chain .seq [] (chrA 120) (.one [] (refA "Grammar")))) []))
  (.one [] (chrA 121)), [], []⟩]
/-- `<Grammar>='y'/(<Grammar>,'x');` -/
def lastG : DGrammar := [⟨nm "Grammar", .plain [], .chain .choice [] (chrA 121) (.one [] (.plain (.mk (.sub (.chain .seq [] (refA "Grammar")
  (.one [] (chrA 120)))) []))), [], []⟩]

example : rightG.text = bytesOf "<Grammar>=('x',<Grammar>)/'y';" ∧ lastG.text = bytesOf "<Grammar>='y'/(<Grammar>,'x');" := by decide +kernel

theorem rightG_wf : rightG.WF := by
  intro x hx
  simp only [rightG, List.mem_singleton] at hx
  subst hx
  exact ⟨isName_grammar, isWs_of [] (by decide), ⟨isWs_of [] (by decide), ⟨⟨⟨isWs_of [] (by decide), ⟨⟨trivial, isWs_of [] (by decide)⟩, rfl⟩,
    isWs_of [] (by decide), ⟨isName_grammar, isWs_of [] (by decide)⟩, rfl⟩, isWs_of [] (by decide)⟩, rfl⟩,
    isWs_of [] (by decide), ⟨trivial, isWs_of [] (by decide)⟩, rfl⟩, isWs_of [] (by decide), by simp⟩
theorem lastG_wf : lastG.WF := by
  intro x hx
  simp only [lastG, List.mem_singleton] at hx
  subst hx
  exact ⟨isName_grammar, isWs_of [] (by decide), ⟨isWs_of [] (by decide), ⟨⟨trivial, isWs_of [] (by decide)⟩, rfl⟩, isWs_of [] (by decide),
    ⟨⟨⟨isWs_of [] (by decide), ⟨⟨isName_grammar, isWs_of [] (by decide)⟩, rfl⟩, isWs_of [] (by decide), ⟨trivial, isWs_of [] (by decide)⟩, rfl⟩,
    isWs_of [] (by decide)⟩, rfl⟩⟩, isWs_of [] (by decide), by simp⟩

theorem rightG_runnable : rightG.Runnable := runnable_of (usable_of (n := 3) (by decide +kernel) (by decide +kernel))
  (by unfold DGrammar.NoSetName; decide +kernel) (by decide +kernel) (by decide +kernel) (by decide +kernel)
theorem lastG_runnable : lastG.Runnable := runnable_of (usable_of (n := 3) (by decide +kernel) (by decide +kernel))
  (by unfold DGrammar.NoSetName; decide +kernel) (by decide +kernel) (by decide +kernel) (by decide +kernel)

/-- The crate made of `<Grammar>=('x',<Grammar>)/'y';`, executed on `xy`, returns `(true, 2, …)` or panics. -/
example (ord : HashOrd) : ∃ c Q, (∃ n, generateParser ord n rightG.text = .ok (.code c)) ∧ readCrate (crateFiles c) = some Q ∧
    ∃ N, (∀ n, N ≤ n → ∃ t h', runParse Q n [120, 121] = .ok (.tuple [.bool true, .int 2, t]) h') ∨ ∀ n, N ≤ n → runParse Q n [120, 121] = .panic := by
  have hf : ∀ r ∈ rightG, r.rhs.Faithful := by decide +kernel
  have hlr : ∀ x, ¬ rightG.LeftRecursive x := not_leftRecursive_of (by decide +kernel)
  obtain ⟨c, N, hN, -⟩ := round_trip rightG_wf (by decide +kernel) (not_dangling_of (by decide +kernel)) hf (by
    intro r hr k hk; simp only [rightG, List.mem_singleton] at hr; subst hr; cases hk) ord
  have hgen := hN N (Nat.le_refl _)
  let W : Bytes → Expr Bytes := fun _ => .orderedChoice (.subexpression (.sequence (.terminal 120) (.varName (lower (nm "Grammar"))))) (.terminal 121)
  have hW : rightG.Means W := by
    intro r hr
    simp only [rightG, List.mem_singleton] at hr
    subst hr
    rfl
  obtain ⟨Q, hQ, h⟩ := C77_generated_crate_computes_peg rightG_wf (by decide +kernel) hgen hf rightG_runnable ⟨by decide +kernel, hlr⟩ hW
  refine ⟨c, Q, ⟨N, hgen⟩, hQ, (h _).2 true 2 ?_⟩
  exact .ref (.choice_left (.sub_ok (.seq_ok (.terminal_ok (by decide) rfl) (.ref (.choice_right (.sub_fail (.seq_fail1 (.terminal_fail (by decide))))
    (.terminal_ok (by decide) rfl))))))

/-- The crate made of `<Grammar>='y'/(<Grammar>,'x');`, executed on any text that does not start with `y`, never returns. -/
theorem C77_last_alternative_hangs (ord : HashOrd) : ∃ c Q, (∃ n, generateParser ord n lastG.text = .ok (.code c)) ∧
    readCrate (crateFiles c) = some Q ∧ ∀ input : Bytes, input.head? ≠ some 121 → ∀ n v h', runParse Q n input ≠ .ok v h' := by
  have hf : ∀ r ∈ lastG, r.rhs.Faithful := by decide +kernel
  have hlr : ∀ x, ¬ lastG.LeftRecursive x := not_leftRecursive_of (by decide +kernel)
  obtain ⟨c, N, hN, -⟩ := round_trip lastG_wf (by decide +kernel) (not_dangling_of (by decide +kernel)) hf (by
    intro r hr k hk; simp only [lastG, List.mem_singleton] at hr; subst hr; cases hk) ord
  have hgen := hN N (Nat.le_refl _)
  let W : Bytes → Expr Bytes := fun _ => .orderedChoice (.terminal 121) (.subexpression (.sequence (.varName (lower (nm "Grammar"))) (.terminal 120)))
  have hW : lastG.Means W := by
    intro r hr
    simp only [lastG, List.mem_singleton] at hr
    subst hr
    rfl
  obtain ⟨Q, hQ, h⟩ := C77_hidden_recursion_never_returns lastG_wf (by decide +kernel) hgen hf lastG_runnable ⟨by decide +kernel, hlr⟩ hW
  refine ⟨c, Q, ⟨N, hgen⟩, hQ, fun input hi => h input ?_⟩
  have hsrc : ¬ (0 < (⟨input⟩ : Source).len ∧ (⟨input⟩ : Source).bytes[0]? = some 121) := by
    rintro ⟨-, e⟩
    exact hi (by cases input <;> simp_all)
  have hself : ∀ y, NeedsPlus W ⟨input⟩ (.varName y, 0) (.varName (lower (nm "Grammar")), 0) := fun y =>
    .step .ref (.step (.right (.terminal_fail hsrc)) (.step .sub (.one .fst)))
  exact ⟨_, _, .inr (hself _), hself _⟩

end PP.Mini
