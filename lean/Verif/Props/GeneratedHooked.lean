import Verif.Props.Generated
import Verif.Props.Execute11
import Verif.Props.Files

/-! # C79: the Rust source text of generated crates with hooked calls, executed

A user who writes hooked calls replaces user_state.rs and hooked_calls.rs.  The two files here are example 11's, the grammar is any grammar
whose hooked calls are `unique_line_cache`.  The hooked call of example 11 is honest in the sense of Spec/Calls (it fails in place, or
succeeds where the rule it wraps succeeded), so what is proved of parsers with honest hooks holds of them. -/
namespace PP.Mini
open PP.Gen

/-- The hooked call of example 11 is honest. -/
theorem unique_hooksOK {R : Type} (body : R → Expr R) (start : R) (src : Source) : (uniqueParser body start).HooksOK src := by
  intro name pos u
  refine .call (Nat.le_refl _) (.inl rfl) fun u' b q hq => ?_
  cases b with
  | false =>
    simp only [uniqueLineAfter, Bool.false_eq_true, if_false, hq rfl]
    exact .fail
  | true =>
    simp only [uniqueLineAfter, if_true, true_and]
    split
    · split
      · exact .fail
      · exact .succ (by simp)
    · exact .panic

theorem ex11_free_fn : ∀ i ∈ ex11Items, ∀ f, i = .fn f → f.ty = none → f.name = nameOf (utf8Of "unique_line_cache") := by
  have : ex11Items.all (fun i => match i with
    | .fn f => f.ty.isSome || f.name == nameOf (utf8Of "unique_line_cache")
    | _ => true) = true := by decide +kernel
  rintro i hi f rfl ht
  have h := List.all_eq_true.mp this _ hi
  simpa only [ht, Option.isSome_none, Bool.false_or, beq_iff_eq] using h

theorem unique_word : IsName (utf8Of "unique_line_cache") ∧ Word (utf8Of "unique_line_cache") := by
  refine ⟨⟨by decide +kernel, by decide +kernel⟩, by decide +kernel, by decide +kernel⟩

theorem ex11_free {f : Bytes} (h : IsName f) (hf : f ≠ utf8Of "unique_line_cache") : Prog.fns ex11Items none (nameOf f) = [] := by
  unfold Prog.fns
  rw [List.filterMap_eq_nil_iff]
  intro i hi
  split
  · rename_i F
    rw [if_neg]
    rintro ⟨h1, h2⟩
    exact hf (nameOf_inj (name_plain h) (name_plain unique_word.1) (h2.symm.trans (ex11_free_fn _ hi F rfl h1)))
  · rfl

section
variable {g : DGrammar} {ord : HashOrd} {n₀ : Nat} {c : GeneratedCode} {W : Bytes → Expr Bytes}

/-- C79: the text of a generated crate with example 11's user files is a program; the rules of the code link; and the program's `parse`,
executed, computes what the model computes for these rules, the hooked call and the set of lines included. -/
theorem C79_generated_crate_executed (hw : g.WF) (hsm : g.text.length < 82000000) (h : generateParser ord n₀ g.text = .ok (.code c))
    (hf : ∀ r ∈ g, r.rhs.Faithful) (hr : g.RunnableWith [utf8Of "unique_line_cache"]) : ∃ (Q : Prog) (body : g.Fn → Expr g.Fn) (start : g.Fn),
      readCrate (crateFiles11 c) = some Q ∧ Links c body Subtype.val ∧ start.1 = utf8Of "grammar" ∧
        Computes Q (uniqueParser body start) fun r => nameOf (variantOf c.variants r.1) := by
  obtain ⟨body, funs, h1, h2, h3, h4, h5⟩ := generated_crate_with (items := ex11Items) (fun x hx => List.mem_singleton.mp hx ▸ unique_word) hw hsm h hf hr
    fun r hr' => ex11_free (Text.name_lower (hw r hr').1) fun e => (hr.free r hr').2 (by simp [← lower_spec, e])
  obtain ⟨start, hs⟩ : ∃ r : g.Fn, r.1 = utf8Of "grammar" := by
    obtain ⟨r, hr, -, h⟩ := hr.start
    refine ⟨⟨lower r.name, List.mem_map_of_mem hr⟩, ?_⟩
    show lower r.name = _
    rw [← lower_cap, cap_spec, h]
    decide +kernel
  exact ⟨progOf ex11User false c.variants funs, body, start, by
    rw [crateFiles11, List.append_assoc]
    exact readCrate_append read_coreFilesOfParser (readCrate_append read_ex11UserFiles (by simp [readCrate, h2, h3, genOf])),
    h1, hs, computes (uniqueUserSim body start) h4 (h5 _ _ (fun r s h => Subtype.ext h) (fun r => ⟨r, rfl, rfl⟩) hs)⟩

/-- C79: whatever the crate's `parse`, executed, accepts is derivable from the grammar as written (where a hooked call derives what the
expression it wraps derives). -/
theorem C79_accepted_text_is_derivable (hw : g.WF) (hsm : g.text.length < 82000000) (h : generateParser ord n₀ g.text = .ok (.code c))
    (hf : ∀ r ∈ g, r.rhs.Faithful) (hr : g.RunnableWith [utf8Of "unique_line_cache"]) (hW : g.Means W) : ∃ Q, readCrate (crateFiles11 c) = some Q ∧
      ∀ (input : Bytes) n q t h', runParse Q n input = .ok (.tuple [.bool true, .int q, t]) h' →
        Derives W startRule (input.take q) := by
  obtain ⟨Q, body, start, hQ, hl, hst, hC⟩ := C79_generated_crate_executed hw hsm h hf hr
  refine ⟨Q, hQ, fun input n q t h' hv => ?_⟩
  obtain ⟨m, ⟨b, q', t'⟩, hx, e⟩ := hC.sound input n _ h' hv
  simp only [encResult, Val.tuple.injEq, List.cons.injEq, Val.bool.injEq, Val.int.injEq] at e
  obtain ⟨rfl, rfl, -⟩ := e
  unfold parse at hx
  obtain ⟨⟨b', q', st'⟩, h1, h2⟩ := Out.bind_eq_ok.mp hx
  obtain ⟨t', -, h3⟩ := Out.bind_eq_ok.mp h2
  cases h3
  have := C54_accepted_text_is_derivable hw hsm h hf (uniqueParser body start) hl hW ⟨input⟩ (unique_hooksOK _ _ _) .init h1
  change Derives W (.varName start.1) _ at this
  rw [hst] at this
  simpa [Source.slice] using this

/-- C79: where no cycle of references escapes the generator's detection and no repeated expression may match the empty string, the execution
of the crate's `parse` ends on every input. -/
theorem C79_execution_ends (hw : g.WF) (hsm : g.text.length < 82000000) (h : generateParser ord n₀ g.text = .ok (.code c))
    (hf : ∀ r ∈ g, r.rhs.Faithful) (hr : g.RunnableWith [utf8Of "unique_line_cache"]) (hW : g.Means W)
    (hcyc : ∀ x, ¬ Relation.TransGen (g.Hidden W) x x)
    (hloop : ∀ r ∈ g, NoEmptyLoop W (W (lower r.name))) : ∃ Q, readCrate (crateFiles11 c) = some Q ∧
      ∀ input : Bytes, ∃ N, (∃ b q t, ∀ n, N ≤ n → ∃ h', runParse Q n input = .ok (.tuple [.bool b, .int q, t]) h') ∨
        ∀ n, N ≤ n → runParse Q n input = .panic := by
  obtain ⟨Q, body, start, hQ, hl, hst, hC⟩ := C79_generated_crate_executed hw hsm h hf hr
  refine ⟨Q, hQ, fun input => ?_⟩
  obtain ⟨M, hM⟩ := C27_detected_recursion_terminates hw hsm h hf (uniqueParser body start) hl _ (fn_finite g) hW hcyc hloop ⟨input⟩
    (unique_hooksOK _ _ _)
  have pan : ∀ p, parse (uniqueParser body start) ⟨input⟩ M = .panic p → ∃ N, ∀ n, N ≤ n → runParse Q n input = .panic := fun p hp => by
    obtain ⟨N, hN⟩ := (hC.panics input).mpr ⟨M, _, hp⟩
    exact ⟨N, fun n hn => runParse_panic hN hn⟩
  rcases hM M (Nat.le_refl _) with ⟨b, q, t, ht⟩ | hp | hp
  · obtain ⟨N, hN⟩ := hC.complete input M _ ht
    exact ⟨N, .inl ⟨b, q, _, hN⟩⟩
  · exact (pan _ hp).imp fun _ => .inr
  · exact (pan _ hp).imp fun _ => .inr

/-- C79: the same for any rules that link with the generated code, if none is left recursive. -/
theorem C79_linked_rules_executed {R : Type} [DecidableEq R] {body : R → Expr R} {name : R → Bytes} {start : R} (hw : g.WF)
    (hsm : g.text.length < 82000000) (h : generateParser ord n₀ g.text = .ok (.code c)) (hf : ∀ r ∈ g, r.rhs.Faithful)
    (hr : g.RunnableWith [utf8Of "unique_line_cache"]) (hl : Links c body name) (hlr : ∀ r, (body r).LRFree)
    (hs : name start = utf8Of "grammar") : ∃ Q, readCrate (crateFiles11 c) = some Q ∧
      Computes Q (uniqueParser body start) fun r => nameOf (variantOf c.variants (name r)) := by
  obtain ⟨body', funs, h1, h2, h3, h4, h5⟩ := generated_crate_with (items := ex11Items) (fun x hx => List.mem_singleton.mp hx ▸ unique_word) hw hsm h hf hr
    fun r hr' => ex11_free (Text.name_lower (hw r hr').1) fun e => (hr.free r hr').2 (by simp [← lower_spec, e])
  exact ⟨progOf ex11User false c.variants funs, by
    rw [crateFiles11, List.append_assoc]
    exact readCrate_append read_coreFilesOfParser (readCrate_append read_ex11UserFiles (by simp [readCrate, h2, h3, genOf])),
    computes (uniqueUserSim body start) h4 (h5 _ _ hl.inj (links_named hl h1 hlr) hs)⟩
end

/-! ### The hypotheses are met: example 11's own grammar file -/

theorem runnableWith_of {g : DGrammar} {hs : List Bytes} (h1 : g.Usable) (h2 : g.NoSetName) (h3 : ∀ r ∈ g, ∀ x ∈ r.rhs.hooks, x ∈ hs)
    (h4 : (g.any fun r => ! g.any (fun d => d.sep.isInline && d.name == r.name) && capitalised r.name == utf8Of "Grammar") = true)
    (h5 : ∀ r ∈ g, lowered r.name ∉ coreFunctions ∧ lowered r.name ∉ hs) : g.RunnableWith hs := by
  refine ⟨h1, h2, h3, ?_, h5⟩
  obtain ⟨r, hr, h⟩ := List.any_eq_true.mp h4
  simp only [Bool.and_eq_true, Bool.not_eq_true', beq_iff_eq] at h
  refine ⟨r, hr, ?_, h.2⟩
  rintro ⟨d, hd, he, hi⟩
  have := List.any_eq_false.mp h.1 d hd
  simp [he, hi] at this

theorem ex11_runnable : ex11Tree.RunnableWith [utf8Of "unique_line_cache"] := runnableWith_of (usable_of (n := 3) (by decide +kernel) (by decide +kernel))
  (by unfold DGrammar.NoSetName; decide +kernel) (by decide +kernel) (by decide +kernel) (by decide +kernel)

/-- C79: from the text of example 11's grammar file to what the crate made of it does: whatever the order of the hash containers, the
generator makes code; the crate's text, with the user's two files, is a program; and its execution, on every text (below 4 GiB minus
4 bytes), ends and returns `(b, q, …)`, where the first `q` bytes are the longest prefix made of pairwise different lines, and `b` says
whether there is a line at all. -/
theorem C79_example11_from_its_grammar_file (ord : HashOrd) : ∃ c N Q, (∀ n, N ≤ n → generateParser ord n (fileOf Files.ex11File) = .ok (.code c)) ∧
    readCrate (crateFiles11 c) = some Q ∧
    ∀ input : Bytes, input.length + 4 ≤ 2 ^ 32 → (⟨input⟩ : Source).IsText → ∃ (ls : List (List UInt8)) (t : Val) (N : Nat),
      (∀ n, N ≤ n → ∃ h, runParse Q n input = .ok (.tuple [.bool (!ls.isEmpty), .int ls.flatten.length, t]) h) ∧
      DistinctLines ls ∧ ls.flatten <+: input ∧
      ∀ ls', DistinctLines ls' → ls'.flatten <+: input → ls'.flatten.length ≤ ls.flatten.length := by
  obtain ⟨c, hgen, hl, -, -⟩ := C68_example11
  obtain ⟨N, hN⟩ := hgen ord
  have ht : fileOf Files.ex11File = ex11Tree.text := by rw [text_flatten, ex11Ok.text]; rfl
  obtain ⟨Q, hQ, hC⟩ := C79_linked_rules_executed (start := .r_grammar) ex11Ok.wf (by decide +kernel) (ht ▸ hN N (Nat.le_refl _)) ex11Ok.faithful
    ex11_runnable hl (by intro r; cases r <;> simp [Ex11.body, Expr.LRFree]) (by decide +kernel)
  refine ⟨c, N, Q, hN, hQ, fun input hs ht => ?_⟩
  obtain ⟨ls, rest, t, N, e1, e2, e3, -⟩ := C41_unique_lines ⟨input⟩ hs ht
  have hp := e1 N (Nat.le_refl _)
  obtain ⟨M, hM⟩ := hC.complete input N _ hp
  refine ⟨ls, _, M, hM, e3, ⟨rest, e2.symm⟩, fun ls' h1 h2 => ?_⟩
  exact ((C41_longest_prefix ⟨input⟩ hs ht hp).2 ls' h1 h2).1

/-- The grammar of example 11 as written. -/
def ex11W (x : Bytes) : Expr Bytes :=
  if x = utf8Of "grammar" then .oneOrMore (.subexpression (.varName (utf8Of "unique_line_matcher")))
  else if x = utf8Of "unique_line_matcher" then .hooked "unique_line_cache" (.subexpression (.sequence (.oneOrMore (.subexpression (.orderedChoice
    (.varName (utf8Of "alphabet_lower")) (.terminal 32)))) (.terminal 10)))
  else .matchRange 97 122

theorem ex11_means : ex11Tree.Means ex11W := by unfold DGrammar.Means; decide +kernel

/-- It meets the hypotheses of `C79_execution_ends`. -/
theorem ex11_meets : (∀ x, ¬ Relation.TransGen (ex11Tree.Hidden ex11W) x x) ∧ ∀ r ∈ ex11Tree, NoEmptyLoop ex11W (ex11W (lower r.name)) := by
  let rank : Bytes → Nat := fun x => if x = utf8Of "grammar" then 2 else if x = utf8Of "unique_line_matcher" then 1 else 0
  have hr : ∀ r ∈ ex11Tree, ∀ z ∈ r.rhs.refs, rank (lower z) < rank (lower r.name) := by decide +kernel
  have step : ∀ {x y}, Relation.TransGen (ex11Tree.Hidden ex11W) x y → rank y < rank x := by
    intro x y h
    induction h with
    | single h => obtain ⟨-, r, h1, rfl, z, h2, rfl, -⟩ := h; exact hr r h1 z h2
    | tail _ h ih => obtain ⟨-, r, h1, rfl, z, h2, rfl, -⟩ := h; exact Nat.lt_trans (hr r h1 z h2) ih
  refine ⟨fun x h => Nat.lt_irrefl _ (step h), ?_⟩
  have w1 : ex11W (utf8Of "alphabet_lower") = .matchRange 97 122 := by decide +kernel
  have w2 : ex11W (utf8Of "unique_line_matcher") = .hooked "unique_line_cache" (.subexpression (.sequence (.oneOrMore (.subexpression (.orderedChoice
    (.varName (utf8Of "alphabet_lower")) (.terminal 32)))) (.terminal 10))) := by decide +kernel
  have w3 : ex11W (utf8Of "grammar") = .oneOrMore (.subexpression (.varName (utf8Of "unique_line_matcher"))) := by decide +kernel
  have nchoice : ¬ MayBeEmpty ex11W (.subexpression (.orderedChoice (.varName (utf8Of "alphabet_lower")) (.terminal 32))) := by
    rintro (_ | _ | _ | _ | _ | h)
    cases h with
    | left h => cases h with | ref h => rw [w1] at h; cases h
    | right h => cases h
  have nline : ¬ MayBeEmpty ex11W (.subexpression (.varName (utf8Of "unique_line_matcher"))) := by
    rintro (_ | _ | _ | _ | _ | h)
    cases h with
    | ref h =>
      rw [w2] at h
      cases h with
      | hook h => cases h with | sub h => cases h with | seq h1 h2 => cases h2
  have hm : ∀ r ∈ ex11Tree, lower r.name ∈ [utf8Of "alphabet_lower", utf8Of "unique_line_matcher", utf8Of "grammar"] := by decide +kernel
  intro r hr'
  have := hm r hr'
  simp only [List.mem_cons, List.not_mem_nil, or_false] at this
  rcases this with h | h | h <;> rw [h]
  all_goals first | rw [w1] | rw [w2] | rw [w3]
  · trivial
  · exact ⟨⟨nchoice, trivial, trivial⟩, trivial⟩
  · exact ⟨nline, trivial⟩

/-- The crate generated from example 11's grammar file, with example 11's user files: the execution ends on every input (text or not), and
what it accepts is derivable from the file. -/
example (ord : HashOrd) : ∃ c Q, (∃ n, generateParser ord n ex11Tree.text = .ok (.code c)) ∧ readCrate (crateFiles11 c) = some Q ∧
    (∀ input, ∃ N, (∃ b q t, ∀ n, N ≤ n → ∃ h', runParse Q n input = .ok (.tuple [.bool b, .int q, t]) h') ∨
      ∀ n, N ≤ n → runParse Q n input = .panic) ∧
    ∀ input n q t h', runParse Q n input = .ok (.tuple [.bool true, .int q, t]) h' → Derives ex11W startRule (input.take q) := by
  obtain ⟨c, hgen, -⟩ := C68_example11
  obtain ⟨N, hN⟩ := hgen ord
  have ht : fileOf Files.ex11File = ex11Tree.text := by rw [text_flatten, ex11Ok.text]; rfl
  have hg := ht ▸ hN N (Nat.le_refl _)
  have hs : ex11Tree.text.length < 82000000 := by decide +kernel
  obtain ⟨Q, hQ, h1⟩ := C79_execution_ends ex11Ok.wf hs hg ex11Ok.faithful ex11_runnable ex11_means ex11_meets.1 ex11_meets.2
  obtain ⟨Q', hQ', h2⟩ := C79_accepted_text_is_derivable ex11Ok.wf hs hg ex11Ok.faithful ex11_runnable ex11_means
  obtain rfl := Option.some.inj (hQ.symm.trans hQ')
  exact ⟨c, Q, ⟨N, hg⟩, hQ, h1, h2⟩

end PP.Mini
