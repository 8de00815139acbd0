import Verif.Lemmas.Smooth
import Verif.Lemmas.Gen.Hooks
import Verif.Props.GenFiles

/-! # The command line program -/
namespace PP.Run
open PP.Gen
variable {ord : HashOrd} {fuel : Nat} {c : Config} {fs fs' : FS} {src : Bytes} {code : GeneratedCode} {o : Outcome}

/-! ## C39: hand-written files -/

/-- C39: whatever the disk, whichever calls fail, and wherever the run is broken off: an existing `hooked_calls.rs` or
`user_state.rs` of the target crate keeps its contents. -/
theorem C39_handwritten_files_survive (h : OnDisk fs (main ord fuel c) fs') {x : String} (hx : x = "hooked_calls.rs" ∨ x = "user_state.rs")
    {d : Bytes} (hd : fs.file (c.target ++ [c.name, "src", x]) = some d) : fs'.file (c.target ++ [c.name, "src", x]) = some d := by
  have e : c.target ++ [c.name, "src", x] = c.src ++ [x] := by simp [Config.src, Config.crate]
  rw [e] at hd ⊢
  exact main_kept (handWritten_iff.mpr hx) _ _ h hd

/-- C39, for any number of such runs (with any grammars, options and core directories) for the same crate. -/
theorem C39_handwritten_files_survive_all_runs {target : Path} {name : String}
    (h : AfterRuns (fun P => ∃ ord fuel c, c.target = target ∧ c.name = name ∧ P = main ord fuel c) fs fs') {x : String}
    (hx : x = "hooked_calls.rs" ∨ x = "user_state.rs") {d : Bytes} (hd : fs.file (target ++ [name, "src", x]) = some d) :
    fs'.file (target ++ [name, "src", x]) = some d := by
  induction h with
  | none => exact hd
  | more hP h1 _ ih =>
    obtain ⟨ord, fuel, c, rfl, rfl, rfl⟩ := hP
    exact ih (C39_handwritten_files_survive h1 hx hd)

/-! ## C40: failing generation -/

/-- Reading does nothing to the disk. -/
theorem same_of_read {p : Path} (h : Changes (.readString p) fs fs') : fs' = fs := by
  obtain ⟨h1, h2⟩ := h
  cases fs; cases fs'
  congr
  · funext q; exact (h1 q).resolve_right fun h => h
  · funext q; exact (h2 q).resolve_right fun h => h
theorem same_of_canonicalize {p : Path} (h : Changes (.canonicalize p) fs fs') : fs' = fs := same_of_read (p := p) h

theorem generateData_nothing (hs : fs.file c.source = some src) (hn : ∀ code, generateParser ord fuel src ≠ .ok (.code code)) :
    (OnDisk fs (generateData ord fuel c) fs' → fs' = fs) ∧
    (Ends fs (generateData ord fuel c) fs' o → o = .panic ∨ (o = .hang ∧ generateParser ord fuel src = .oof)) := by
  have step : ∀ {fs₁ r}, Does fs (.readString c.source) fs₁ r → fs₁ = fs ∧ (r = .err false ∨ r = .bytes src) := by
    intro fs₁ r h
    refine ⟨same_of_read h.changes, ?_⟩
    cases h with
    | fails _ => exact .inl rfl
    | succeeds h =>
      cases h with
      | readString hd => exact .inr (by rw [hs] at hd; injection hd with hd; rw [hd])
  constructor
  · intro h
    unfold generateData Prog.try at h
    cases h with
    | now => rfl
    | within h => exact same_of_read h
    | later h1 h2 =>
      obtain ⟨rfl, hr⟩ := step h1
      rcases hr with rfl | rfl
      · cases h2; rfl
      · simp only at h2
        cases hg : generateParser ord fuel src with
        | ok r =>
          cases r with
          | code c => exact absurd hg (hn c)
          | syntaxError l => rw [hg] at h2; cases h2; rfl
        | panic e => rw [hg] at h2; cases h2; rfl
        | oof => rw [hg] at h2; cases h2; rfl
  · intro h
    unfold generateData Prog.try at h
    cases h with
    | call h1 h2 =>
      obtain ⟨rfl, hr⟩ := step h1
      rcases hr with rfl | rfl
      · cases h2; exact .inl rfl
      · simp only at h2
        cases hg : generateParser ord fuel src with
        | ok r =>
          cases r with
          | code c => exact absurd hg (hn c)
          | syntaxError l => rw [hg] at h2; cases h2; exact .inl rfl
        | panic e => rw [hg] at h2; cases h2; exact .inl rfl
        | oof => rw [hg] at h2; cases h2; exact .inr ⟨rfl, rfl⟩

theorem never_code (hsm : src.length < 82000000) (hn : ¬ ∃ g : DGrammar, g.WF ∧ g.text = src) (n : Nat) :
    (∀ code, generateParser ord n src ≠ .ok (.code code)) ∧ ∀ e, generateParser ord n src ≠ .panic e := by
  rcases generator_cases hsm with ⟨b, q, hp, _, hq⟩ | h
  · obtain ⟨_, h1, _⟩ := generator_rejects ord hsm hp hq
    have h1 := h1 n
    simp only at h1
    constructor
    · intro c hc
      rw [hc] at h1; simp at h1
    · intro e he
      rw [he] at h1; simp at h1
  · exact absurd h hn

/-- C40: if the grammar file is not a written grammar (or the generator panics on it), generating changes nothing on the disk,
at any moment, and does not end but by a panic. -/
theorem C40_failed_generation_touches_nothing (hs : fs.file c.source = some src) (hsm : src.length < 82000000)
    (hn : ¬ ∃ g : DGrammar, g.WF ∧ g.text = src) :
    (OnDisk fs (generateData ord fuel c) fs' → fs' = fs) ∧
    ∃ N, ∀ n, N ≤ n → Ends fs (generateData ord n c) fs' o → o = .panic := by
  refine ⟨(generateData_nothing (o := o) hs fun code => (never_code hsm hn _).1 code).1, ?_⟩
  obtain ⟨N, l, hN⟩ := (C35_rejects_iff_not_a_grammar hsm ord).mpr hn
  refine ⟨N, fun n hn' h => ?_⟩
  rcases (generateData_nothing hs fun code => (never_code hsm hn _).1 code).2 h with h | ⟨_, h⟩
  · exact h
  · rw [hN n hn'] at h; cases h

/-- C40, for the whole program: no file is touched, and the only directories that can appear are the target directory and those
above it. -/
theorem C40_main_touches_no_file (hs : fs.file c.source = some src) (hsm : src.length < 82000000)
    (hn : ¬ ∃ g : DGrammar, g.WF ∧ g.text = src) (h : OnDisk fs (main ord fuel c) fs') :
    fs'.file = fs.file ∧ ∀ p, fs'.dir p = fs.dir p ∨ p <+: c.target := by
  have data : ∀ {f f' : FS}, f.file = fs.file → OnDisk f (generateData ord fuel c) f' → f' = f := fun hf =>
    (generateData_nothing (o := .panic) (by rw [hf]; exact hs) fun code => (never_code hsm hn _).1 code).1
  have rest : ∀ {f f' : FS}, f.file = fs.file →
      OnDisk f (Prog.try (.canonicalize c.core) (.ret .panic) fun _ => generateData ord fuel c) f' → f' = f := by
    intro f f' hf h
    cases h with
    | now => rfl
    | within h => exact same_of_canonicalize h
    | @later _ _ _ _ r _ h1 h2 =>
      have := same_of_canonicalize h1.changes
      subst this
      cases r with
      | err _ => cases h2; rfl
      | _ => exact data hf h2
  unfold main at h
  cases h with
  | now => exact ⟨rfl, fun _ => .inl rfl⟩
  | within h => rw [same_of_canonicalize h]; exact ⟨rfl, fun _ => .inl rfl⟩
  | @later _ _ _ _ r _ h1 h2 =>
    have := (same_of_canonicalize h1.changes).symm
    subst this
    have second : OnDisk fs (.call (.canonicalize c.target) fun r =>
        let rest := Prog.try (.canonicalize c.core) (.ret .panic) fun _ => generateData ord fuel c
        match r with
        | .err _ => .try (.createDirAll c.target) (.ret .panic) fun _ => rest
        | _ => rest) fs' → fs'.file = fs.file ∧ ∀ p, fs'.dir p = fs.dir p ∨ p <+: c.target := by
      intro h2
      cases h2 with
      | now => exact ⟨rfl, fun _ => .inl rfl⟩
      | within h => rw [same_of_canonicalize h]; exact ⟨rfl, fun _ => .inl rfl⟩
      | @later _ _ _ _ r _ h3 h4 =>
        have := (same_of_canonicalize h3.changes).symm
        subst this
        have cr : ∀ {f}, Changes (.createDirAll c.target) fs f → f.file = fs.file ∧ ∀ p, f.dir p = fs.dir p ∨ p <+: c.target :=
          fun h => ⟨funext fun p => (h.1 p).resolve_right fun h => h, h.2⟩
        cases r with
        | err _ =>
          cases h4 with
          | now => exact ⟨rfl, fun _ => .inl rfl⟩
          | within h => exact cr h
          | @later _ _ _ _ r _ h5 h6 =>
            have h7 := cr h5.changes
            cases r with
            | err _ => cases h6; exact h7
            | _ => rw [rest h7.1 h6]; exact h7
        | _ => rw [rest rfl h4]; exact ⟨rfl, fun _ => .inl rfl⟩
    cases r with
    | err _ => cases h2; exact ⟨rfl, fun _ => .inl rfl⟩
    | _ => exact second h2

/-- C40: the same when the grammar is written but the generator panics on it (C53). -/
theorem C40_panicking_generation_touches_nothing {g : DGrammar} (hw : g.WF) (hs : fs.file c.source = some g.text)
    (hsm : g.text.length < 82000000) (hp : g.Dangling ∨ (∃ r ∈ g, r.rhs.Panics) ∨ ∃ r ∈ g, ∃ k ∈ r.comments, k.Panics) :
    (OnDisk fs (generateData ord fuel c) fs' → fs' = fs) ∧
    (Ends fs (generateData ord fuel c) fs' o → o = .panic ∨ (o = .hang ∧ generateParser ord fuel g.text = .oof)) :=
  generateData_nothing hs fun _ => never_code_of_panics hw hsm hp _ _

/-! ## C55: what a run leaves behind -/

/-- Crate and core are different directories, neither inside the other. -/
def Config.Apart (c : Config) : Prop := ¬ c.crate <+: c.core ∧ ¬ c.core <+: c.crate

theorem Config.Apart.away (h : c.Apart) (l : List String) : ¬ c.crate <+: c.core ++ l := by
  intro hp
  rcases List.prefix_or_prefix_of_prefix hp (List.prefix_append c.core l) with h1 | h1
  · exact h.1 h1
  · exact h.2 h1

/-- C55: a run in which no call fails ends with "Success" and leaves: the generated `rules.rs` and `parser.rs`; a `main.rs` made
of the import line and the sample; no `sample_main.txt`; the core's copy of every other file of the core, except that existing
hand-written files stay; and everything outside the crate as it was. -/
theorem C55_result_of_a_run (hs : fs.file c.source = some src) (hg : generateParser ord fuel src = .ok (.code code))
    (hap : c.Apart) (hcore : fs.dir c.coreSrc = true) (h : EndsSmoothly fs (generateData ord fuel c) fs' o) :
    o = .success ∧ fs'.file (c.src ++ ["rules.rs"]) = some (rulesFile code) ∧
      fs'.file (c.src ++ ["parser.rs"]) = some (parserFile code) ∧
      (∃ d, fs.file (c.coreSrc ++ ["sample_main.txt"]) = some d ∧ fs'.file (c.src ++ ["main.rs"]) = some (mainHeader c.name ++ d)) ∧
      fs'.file (c.src ++ ["sample_main.txt"]) = none ∧
      (∀ n, n ∉ ["rules.rs", "parser.rs", "main.rs", "sample_main.txt"] → fs.there (c.coreSrc ++ [n]) = true →
        fs'.file (c.src ++ [n]) = if handWritten n = true ∧ fs.there (c.src ++ [n]) = true then fs.file (c.src ++ [n])
          else fs.file (c.coreSrc ++ [n])) ∧
      ∀ q, ¬ c.crate <+: q → fs'.file q = fs.file q := by
  obtain ⟨f1, h, _, _, _, e1⟩ := emitCrate_smooth (generateData_smooth hs hg h)
  have core : ∀ l, f1.file (c.core ++ l) = fs.file (c.core ++ l) ∧ f1.dir (c.core ++ l) = fs.dir (c.core ++ l) :=
    fun l => e1 _ (.inl (hap.away l))
  have hne : c.src ≠ c.coreSrc := by
    intro e
    have : c.crate <+: c.src := List.prefix_append _ _
    rw [e] at this
    exact hap.away ["src"] this
  have cs : ∀ n, c.coreSrc ++ [n] = c.core ++ ["src", n] := fun n => by simp [Config.coreSrc]
  obtain ⟨f2, h, d2, e2, e2', e3⟩ := copyDir_smooth hne (by rw [show c.coreSrc = c.core ++ ["src"] from rfl, (core _).2]; exact hcore) h
  obtain ⟨h1, _, h2, h3, h4, ⟨d, h5, h6⟩, h7⟩ := writeFiles_smooth h
  have cross : ∀ m n, c.coreSrc ++ [m] ≠ c.src ++ [n] := fun m n e => hne ((List.append_inj' e rfl).1.symm)
  refine ⟨h1, h2, h3, ⟨d, ?_, h6⟩, h4, fun n hn ht => ?_, fun q hq => ?_⟩
  · rw [e2 _ fun n => cross _ n, cs, (core _).1, ← cs] at h5
    exact h5
  · rw [h7 _ fun m hm e => hn (by have : n = m := by simpa using e
                                  exact this ▸ hm)]
    have ht1 : f1.there (c.coreSrc ++ [n]) = true := by
      rw [cs] at ht ⊢
      simpa only [FS.there, (core _).1, (core _).2] using ht
    rw [e3 n ht1]
    by_cases hw : handWritten n = true
    · have := e1 (c.src ++ [n]) (.inr ⟨n, hw, rfl⟩)
      have ht2 : f1.there (c.src ++ [n]) = fs.there (c.src ++ [n]) := by simp only [FS.there, this.1, this.2]
      rw [ht2, this.1, cs, (core _).1]
    · rw [if_neg fun h => hw h.1, if_neg fun h => hw h.1, cs, (core _).1]
  · have out : ∀ n, q ≠ c.src ++ [n] := fun n e => hq (by
      rw [e, show c.src ++ [n] = c.crate ++ ["src", n] by simp [Config.src]]
      exact List.prefix_append _ _)
    rw [h7 q fun n _ => out n, e2 q out, (e1 q (.inl hq)).1]

/-- C55: generating a second time, into the same crate from the same core, gives the same files again: nothing but the grammar,
the name and the core determines them. -/
theorem C55_regeneration_is_deterministic {fs₁ fs₂ : FS} {f₁ f₂ : FS} {o₁ o₂ : Outcome}
    (hs₁ : fs₁.file c.source = some src) (hs₂ : fs₂.file c.source = some src)
    (hg : generateParser ord fuel src = .ok (.code code)) (hap : c.Apart)
    (hcore : fs₁.dir c.coreSrc = true) (hsame : ∀ l, fs₁.file (c.core ++ l) = fs₂.file (c.core ++ l) ∧ fs₁.dir (c.core ++ l) = fs₂.dir (c.core ++ l))
    (h₁ : EndsSmoothly fs₁ (generateData ord fuel c) f₁ o₁) (h₂ : EndsSmoothly fs₂ (generateData ord fuel c) f₂ o₂)
    {n : String} (hn : handWritten n = false)
    (hn' : n ∈ ["rules.rs", "parser.rs", "main.rs", "sample_main.txt"] ∨ fs₁.there (c.coreSrc ++ [n]) = true) :
    f₁.file (c.src ++ [n]) = f₂.file (c.src ++ [n]) := by
  obtain ⟨_, a1, a2, ⟨d, a3, a4⟩, a5, a6, _⟩ := C55_result_of_a_run hs₁ hg hap hcore h₁
  have cs : ∀ n, c.coreSrc ++ [n] = c.core ++ ["src", n] := fun n => by simp [Config.coreSrc]
  obtain ⟨_, b1, b2, ⟨d', b3, b4⟩, b5, b6, _⟩ := C55_result_of_a_run hs₂ hg hap
    (by rw [show c.coreSrc = c.core ++ ["src"] from rfl, ← (hsame _).2]; exact hcore) h₂
  have hd : d = d' := by
    rw [cs, (hsame _).1, ← cs, b3] at a3
    injection a3 with a3
    exact a3.symm
  subst hd
  by_cases hm : n ∈ ["rules.rs", "parser.rs", "main.rs", "sample_main.txt"]
  · simp only [List.mem_cons, List.not_mem_nil, or_false] at hm
    rcases hm with rfl | rfl | rfl | rfl
    · rw [a1, b1]
    · rw [a2, b2]
    · rw [a4, b4]
    · rw [a5, b5]
  · have ht := hn'.resolve_left hm
    have ht' : fs₂.there (c.coreSrc ++ [n]) = true := by
      rw [cs] at ht ⊢
      simpa only [FS.there, (hsame _).1, (hsame _).2] using ht
    have hno : ∀ f : FS, ¬ (handWritten n = true ∧ f.there (c.src ++ [n]) = true) := fun f h => by rw [hn] at h; cases h.1
    rw [a6 n hm ht, b6 n hm ht', if_neg (hno _), if_neg (hno _), cs, (hsame _).1]

/-! ## C56: failures the user does not hear of, and the core generated onto itself -/

/-- C56: generating into the directory of the core itself (`--target . --name parser`, without cargo) without any failure:
every file of the core apart from the hand-written and the generated ones is empty afterwards. -/
theorem C56_self_generation_empties_the_core (hs : fs.file c.source = some src) (hg : generateParser ord fuel src = .ok (.code code))
    (hself : c.crate = c.core) (hcargo : c.cargo = false) (hcore : fs.dir c.coreSrc = true)
    (h : EndsSmoothly fs (generateData ord fuel c) fs' o) :
    o = .success ∧ fs'.file (c.coreSrc ++ ["main.rs"]) = some (mainHeader c.name) ∧
      ∀ n, n ∉ ["rules.rs", "parser.rs", "main.rs", "sample_main.txt"] → handWritten n = false → fs.there (c.coreSrc ++ [n]) = true →
        fs'.file (c.coreSrc ++ [n]) = some [] := by
  obtain ⟨f1, h, e0, e1, e2, _⟩ := emitCrate_smooth (generateData_smooth hs hg h)
  have hsrc : c.src = c.coreSrc := by simp [Config.src, Config.coreSrc, hself]
  have ne : ∀ l, l ≠ [] → c.core ++ l ≠ c.crate := fun l hl e => hl (by rw [hself] at e; simpa using e)
  have cs : ∀ n, c.coreSrc ++ [n] = c.core ++ ["src", n] := fun n => by simp [Config.coreSrc]
  have hd : ∀ n, f1.there (c.coreSrc ++ [n]) = fs.there (c.coreSrc ++ [n]) := fun n => by
    rw [cs]; simp only [FS.there, e0 hcargo, e2 _ (ne ["src", n] (by simp)) hcargo]
  rw [hsrc] at h
  obtain ⟨f2, h, d2, e3, e3', e4⟩ := copyDir_self (by
    rw [show c.coreSrc = c.core ++ ["src"] from rfl, e2 _ (ne _ (by simp)) hcargo]; exact hcore) h
  obtain ⟨h1, _, _, _, _, ⟨d, h5, h6⟩, h7⟩ := writeFiles_smooth h
  have hdmain : d = [] := by
    by_cases ht : f1.there (c.coreSrc ++ ["sample_main.txt"]) = true
    · rw [e4 _ ht, if_neg (by decide)] at h5
      injection h5 with h5
      exact h5.symm
    · have ht : f1.there (c.coreSrc ++ ["sample_main.txt"]) = false := by simpa using ht
      rw [e3' _ ht] at h5
      simp [FS.there, h5] at ht
  refine ⟨h1, by rw [← hsrc, h6, hdmain]; simp, fun n hn hw ht => ?_⟩
  rw [h7 _ fun m hm e => hn (by rw [hsrc] at e
                                have : n = m := by simpa using e
                                exact this ▸ hm), e4 n (by rw [hd]; exact ht), if_neg (by rw [hw]; decide)]

/-- C56: failures to write are not reported.  When an existing crate is regenerated, the program may print "Success" although
no file has changed (the copying was given up after the first file, and no generated file could be written). -/
theorem C56_success_although_nothing_was_written (hs : fs.file c.source = some src)
    (hg : generateParser ord fuel src = .ok (.code code)) (hcargo : c.cargo = false) (hap : c.Apart)
    (ht : fs.there c.target = true) (hc : fs.there c.crate = true) (hcore : fs.dir c.coreSrc = true) (hsrc : fs.dir c.src = true)
    (hf : fs.dir (c.src ++ ["sample_main.txt"]) = false) {d : Bytes} (hd : fs.file (c.coreSrc ++ ["sample_main.txt"]) = some d) :
    ∃ fs', Ends fs (generateData ord fuel c) fs' .success ∧ ∀ q, q ≠ c.src ++ ["sample_main.txt"] → fs'.file q = fs.file q := by
  have hne : ∀ n m, c.coreSrc ++ [n] ≠ c.src ++ [m] := by
    intro n m e
    have e := (List.append_inj' e rfl).1
    have : c.crate <+: c.src := List.prefix_append _ _
    rw [← e] at this
    exact hap.away ["src"] this
  let f1 := fs.put (c.src ++ ["sample_main.txt"]) (some [])
  let f2 := f1.put (c.src ++ ["sample_main.txt"]) (some d)
  let f3 := f2.put (c.src ++ ["sample_main.txt"]) none
  refine ⟨f3, ?_, fun q hq => by simp [f3, f2, f1, FS.put, hq]⟩
  have hcs : f2.file (c.coreSrc ++ ["sample_main.txt"]) = some d := by
    simp only [f2, f1, FS.put, if_neg (hne _ _)]; exact hd
  have dirlast : (c.src ++ ["sample_main.txt"]).dropLast = c.src := by simp
  unfold generateData Prog.try
  refine .call (.succeeds (.readString hs)) ?_
  simp only [hg]
  unfold emitCrate Prog.try
  refine .call (.succeeds (.canonicalize ht)) ?_
  refine .call (.already hc) ?_
  simp only [cargoCommands, hcargo, runCargo, reduceCtorEq, if_false]
  rw [if_neg (by decide)]
  unfold copyDir
  refine .call (.succeeds .isDir) ?_
  rw [hcore, if_pos rfl]
  unfold Prog.try
  refine .call (.unreadable (l := [some "sample_main.txt", none])) ?_
  simp only [copyLoop]
  rw [if_neg (by decide)]
  refine .call (fs₁ := f1) (.succeeds (.create (by rw [dirlast]; exact hsrc) hf)) ?_
  refine .call (fs₁ := f2) (.succeeds (.copy (by rw [dirlast]; exact hsrc) hf (by
    simp only [f1, FS.put, if_neg (hne _ _)]; rw [hd]; rfl) (by
    simp only [f1, FS.put, if_neg (hne _ _)]; exact hd))) ?_
  simp only
  unfold writeFiles Prog.try
  refine .call (.fails .refl) ?_
  refine .call (.fails .refl) ?_
  refine .call (.succeeds (.readString hcs)) ?_
  simp only
  refine .call (.fails .refl) ?_
  exact .call (.succeeds (.remove (by simp [f2, FS.put]))) .ret

/-- C56: a run broken off while `hooked_calls.rs` or `user_state.rs` is first put in place leaves it empty, and no later run
fills it. -/
theorem C56_broken_off_run_leaves_empty_file_for_good (hs : fs.file c.source = some src)
    (hg : generateParser ord fuel src = .ok (.code code)) (hcargo : c.cargo = false)
    (hso : fs.there c.source = true) (ht : fs.there c.target = true) (hco : fs.there c.core = true) (hc : fs.there c.crate = true)
    (hcore : fs.dir c.coreSrc = true) (hsrc : fs.dir c.src = true) {x : String} (hx : x = "hooked_calls.rs" ∨ x = "user_state.rs")
    (hnew : fs.there (c.src ++ [x]) = false) {l : List (Option String)} (hl : Lists fs c.coreSrc (some x :: l)) :
    ∃ fs₁, OnDisk fs (main ord fuel c) fs₁ ∧ fs₁.file (c.target ++ [c.name, "src", x]) = some [] ∧
      ∀ fs', AfterRuns (fun P => ∃ ord fuel c', c'.target = c.target ∧ c'.name = c.name ∧ P = main ord fuel c') fs₁ fs' →
        fs'.file (c.target ++ [c.name, "src", x]) = some [] := by
  have e : c.target ++ [c.name, "src", x] = c.src ++ [x] := by simp [Config.src, Config.crate]
  have hput : (fs.put (c.src ++ [x]) (some [])).file (c.target ++ [c.name, "src", x]) = some [] := by rw [e]; simp [FS.put]
  refine ⟨fs.put (c.src ++ [x]) (some []), ?_, hput, fun fs' h => C39_handwritten_files_survive_all_runs h hx hput⟩
  have hnew' := hnew
  simp only [FS.there, Bool.or_eq_false_iff] at hnew'
  unfold main Prog.try
  refine .later (.succeeds (.canonicalize hso)) ?_
  refine .later (.succeeds (.canonicalize ht)) ?_
  simp only
  refine .later (.succeeds (.canonicalize hco)) ?_
  unfold generateData Prog.try
  refine .later (.succeeds (.readString hs)) ?_
  simp only [hg]
  unfold emitCrate Prog.try
  refine .later (.succeeds (.canonicalize ht)) ?_
  refine .later (.already hc) ?_
  simp only [cargoCommands, hcargo, runCargo, reduceCtorEq, if_false]
  rw [if_neg (by decide)]
  unfold copyDir
  refine .later (.succeeds .isDir) ?_
  rw [hcore, if_pos rfl]
  unfold Prog.try
  refine .later (.succeeds (.readDir hcore hl)) ?_
  simp only [copyLoop]
  rw [if_pos (handWritten_iff.mpr hx)]
  unfold Prog.try
  refine .later (.succeeds .exists) ?_
  simp only [hnew]
  rw [if_neg (by decide)]
  exact .later (.succeeds (.create (by simpa using hsrc) hnew'.2)) .now

/-! ## C57: the hooked calls that are imported -/

/-- C57: the generated `parser.rs` imports the hooked calls of the grammar in the order in which they are written, one import
for each use. -/
theorem C57_imports_are_the_hooks_written {g : DGrammar} (hw : g.WF) (hsm : g.text.length < 82000000)
    (h : generateParser ord fuel g.text = .ok (.code code)) : code.hookImports = (g.map fun r => r.rhs.hooks).flatten := by
  have h1 := (gen_conv hw hsm ord).eq (n := fuel) (by rw [h]; simp)
  rw [h] at h1
  exact codes_hooks (output_ok h1.symm).2.1

/-- C57: a hooked call that is used in two places is imported twice by the same `use` (which Rust rejects: E0252). -/
theorem C57_hook_used_twice_is_imported_twice {g : DGrammar} (hw : g.WF) (hsm : g.text.length < 82000000)
    (h : generateParser ord fuel g.text = .ok (.code code)) {x : Bytes} (hx : 2 ≤ ((g.map fun r => r.rhs.hooks).flatten).count x) :
    ¬ code.hookImports.Nodup := by
  rw [C57_imports_are_the_hooks_written hw hsm h]
  intro hd
  have := List.nodup_iff_count.mp hd x
  omega

/-- `<A>=h('x'),h('y');` has code, and `h` is written twice. -/
example : ∃ n c, generateParser .id n (oneRule (.chain .seq [] (.plain (.mk (.hook [104] (.atom [] (chrA 120))) []))
      (.one [] (.plain (.mk (.hook [104] (.atom [] (chrA 121))) [])))) []).text = .ok (.code c) ∧ ¬ c.hookImports.Nodup := by
  have w0 : IsWs [] := isWs_of _ (by decide)
  have hh : IsName [104] := ⟨by simp [IsLetter], by simp⟩
  have hk : ∀ b, (DRhs.atom [] (chrA b)).WF := fun b => ⟨w0, ⟨trivial, w0⟩, rfl⟩
  have hwf : (DRhs.chain .seq [] (.plain (.mk (.hook [104] (.atom [] (chrA 120))) []))
      (.one [] (.plain (.mk (.hook [104] (.atom [] (chrA 121))) [])))).WF :=
    ⟨w0, ⟨⟨⟨hh, hk _⟩, w0⟩, rfl⟩, w0, ⟨⟨hh, hk _⟩, w0⟩, rfl⟩
  obtain ⟨n, c, h⟩ := oneRule_code hwf (cs := []) (by simp) (by decide +kernel) rfl (by
    rintro (h | h)
    · exact absurd h (by simp [DAtom.Panics, DNuc.Panics, DCore.Panics, DRhs.Panics, chrA, IsCont])
    · exact absurd h (by simp [DAtoms.Panics, DAtom.Panics, DNuc.Panics, DCore.Panics, DRhs.Panics, chrA, IsCont])) (by simp) .id
  exact ⟨n, c, h, C57_hook_used_twice_is_imported_twice (oneRule_wf hwf (by simp)) (by decide +kernel) h (x := [104]) (by decide)⟩

/-! ## A concrete run -/

/-- A disk with the empty grammar, a small core and a crate that has been generated before. -/
def demoFS : FS where
  file := fun p => [(["g.dsl"], []), (["parser", "src", "sample_main.txt"], [1]), (["parser", "src", "hooked_calls.rs"], [2]),
    (["parser", "src", "user_state.rs"], [5]), (["parser", "src", "lib.rs"], [3]), (["out", "p", "src", "hooked_calls.rs"], [4])].lookup p
  dir := fun p => decide (p ∈ [[], ["parser"], ["parser", "src"], ["out"], ["out", "p"], ["out", "p", "src"]])
def demoConfig : Config := ⟨"p", ["out"], ["parser"], ["g.dsl"], false⟩

theorem demo_lookup {L : List (Path × Bytes)} {q : Path} {d} (h : L.lookup q = some d) : (q, d) ∈ L := by
  induction L with
  | nil => simp at h
  | cons a L ih =>
    rw [List.lookup_cons] at h
    split at h
    · next hq =>
      have hq : q = a.1 := by simpa using hq
      injection h with h
      subst h; subst hq
      exact List.mem_cons_self ..
    · exact List.mem_cons_of_mem _ (ih h)

theorem demo_lists : Lists demoFS demoConfig.coreSrc [some "hooked_calls.rs", some "user_state.rs", some "lib.rs", some "sample_main.txt"] := by
  refine ⟨by decide, by decide, fun n => ⟨fun h => ?_, fun h => ?_⟩⟩
  · simp only [List.mem_cons, List.not_mem_nil, or_false, Option.some.injEq] at h
    rcases h with rfl | rfl | rfl | rfl <;> decide
  · simp only [FS.there, Bool.or_eq_true] at h
    rcases h with h | h
    · obtain ⟨d, hd⟩ := Option.isSome_iff_exists.mp h
      have := demo_lookup hd
      simp only [demoConfig, Config.coreSrc, List.cons_append, List.nil_append, List.mem_cons, List.not_mem_nil, or_false, Prod.mk.injEq, List.cons.injEq, and_true,
        true_and] at this
      simp at this
      simp
      rcases this with h | h | h | h <;> simp [h.1]
    · simp [demoFS, demoConfig, Config.coreSrc] at h

theorem smooth_call {fs₁ : FS} {ca k r} (h : Succeeds fs ca fs₁ r) (h' : ∃ fs', EndsSmoothly fs₁ (k r) fs' o) :
    ∃ fs', EndsSmoothly fs (.call ca k) fs' o := h'.imp fun _ h' => .call h h'
theorem smooth_already {p k} (h : fs.there p = true) (h' : ∃ fs', EndsSmoothly fs (k (.err true)) fs' o) :
    ∃ fs', EndsSmoothly fs (.call (.createDir p) k) fs' o := h'.imp fun _ h' => .already h h'

/-- The hypotheses of C55 and C56 are met: here is a run without failures. -/
example : ∃ n fs', EndsSmoothly demoFS (generateData .id n demoConfig) fs' .success ∧
    fs'.file (demoConfig.src ++ ["hooked_calls.rs"]) = some [4] ∧ fs'.file (demoConfig.src ++ ["lib.rs"]) = some [3] := by
  obtain ⟨⟨N, hN⟩, _⟩ := C35_empty_file_is_accepted .id
  have hg := hN N (Nat.le_refl _)
  have run : ∃ fs', EndsSmoothly demoFS (generateData .id N demoConfig) fs' .success := by
    unfold generateData Prog.try
    refine smooth_call (.readString (d := []) (by decide)) ?_
    simp only [hg]
    unfold emitCrate Prog.try
    refine smooth_call (.canonicalize (by decide)) ?_
    refine smooth_already (by decide) ?_
    rw [if_neg (by decide)]
    simp only [cargoCommands, demoConfig, runCargo, Bool.false_eq_true, if_false]
    unfold copyDir Prog.try
    refine smooth_call .isDir ?_
    rw [show demoFS.dir _ = true by decide, if_pos rfl]
    refine smooth_call (.readDir (by decide) demo_lists) ?_
    simp only [copyLoop, Prog.try]
    rw [if_pos (by decide), if_pos (by decide), if_neg (by decide), if_neg (by decide)]
    refine smooth_call .exists ?_
    rw [show demoFS.there _ = true by decide]
    simp only [if_true]
    refine smooth_call .exists ?_
    rw [show demoFS.there _ = false by decide]
    simp only [Reply.bool.injEq, Bool.false_eq_true, if_false]
    refine smooth_call (.create (by decide) (by decide)) ?_
    refine smooth_call (.copy (d := [5]) (by decide) (by decide) (by decide) (by decide)) ?_
    refine smooth_call (.create (by decide) (by decide)) ?_
    refine smooth_call (.copy (d := [3]) (by decide) (by decide) (by decide) (by decide)) ?_
    refine smooth_call (.create (by decide) (by decide)) ?_
    refine smooth_call (.copy (d := [1]) (by decide) (by decide) (by decide) (by decide)) ?_
    unfold writeFiles Prog.try
    refine smooth_call (.write (by decide) (by decide)) ?_
    refine smooth_call (.write (by decide) (by decide)) ?_
    refine smooth_call (.readString (d := [1]) (by decide)) ?_
    refine smooth_call (.write (by decide) (by decide)) ?_
    exact smooth_call (.remove (by decide)) ⟨_, .ret⟩
  obtain ⟨fs', h⟩ := run
  obtain ⟨_, _, _, _, _, h6, _⟩ := C55_result_of_a_run (src := []) (by decide) hg (by unfold Config.Apart; decide) (by decide) h
  refine ⟨N, fs', h, ?_, ?_⟩
  · rw [h6 _ (by decide) (by decide)]; decide
  · rw [h6 _ (by decide) (by decide)]; decide

/-- Generating the core onto itself (C56) without failures: `lib.rs` is empty afterwards. -/
example : ∃ n fs', EndsSmoothly demoFS (generateData .id n ⟨"parser", [], ["parser"], ["g.dsl"], false⟩) fs' .success ∧
    demoFS.file ["parser", "src", "lib.rs"] = some [3] ∧ fs'.file ["parser", "src", "lib.rs"] = some [] := by
  obtain ⟨⟨N, hN⟩, _⟩ := C35_empty_file_is_accepted .id
  have hg := hN N (Nat.le_refl _)
  have run : ∃ fs', EndsSmoothly demoFS (generateData .id N ⟨"parser", [], ["parser"], ["g.dsl"], false⟩) fs' .success := by
    unfold generateData Prog.try
    refine smooth_call (.readString (d := []) (by decide)) ?_
    simp only [hg]
    unfold emitCrate Prog.try
    refine smooth_call (.canonicalize (by decide)) ?_
    refine smooth_already (by decide) ?_
    rw [if_neg (by decide)]
    simp only [cargoCommands, runCargo, Bool.false_eq_true, if_false]
    unfold copyDir Prog.try
    refine smooth_call .isDir ?_
    rw [show demoFS.dir _ = true by decide, if_pos rfl]
    refine smooth_call (.readDir (by decide) demo_lists) ?_
    simp only [copyLoop, Prog.try]
    rw [if_pos (by decide), if_pos (by decide), if_neg (by decide), if_neg (by decide)]
    refine smooth_call .exists ?_
    rw [show demoFS.there _ = true by decide]
    simp only [if_true]
    refine smooth_call .exists ?_
    rw [show demoFS.there _ = true by decide]
    simp only [if_true]
    refine smooth_call (.create (by decide) (by decide)) ?_
    refine smooth_call (.copy (d := []) (by decide) (by decide) (by decide) (by decide)) ?_
    refine smooth_call (.create (by decide) (by decide)) ?_
    refine smooth_call (.copy (d := []) (by decide) (by decide) (by decide) (by decide)) ?_
    unfold writeFiles Prog.try
    refine smooth_call (.write (by decide) (by decide)) ?_
    refine smooth_call (.write (by decide) (by decide)) ?_
    refine smooth_call (.readString (d := []) (by decide)) ?_
    refine smooth_call (.write (by decide) (by decide)) ?_
    exact smooth_call (.remove (by decide)) ⟨_, .ret⟩
  obtain ⟨fs', h⟩ := run
  exact ⟨N, fs', h, by decide, (C56_self_generation_empties_the_core (src := []) (by decide) hg rfl rfl (by decide) h).2.2 "lib.rs"
    (by decide) (by decide) (by decide)⟩

/-- The hypotheses of the two other parts of C56 are met: `demoFS` has no `user_state.rs` in the crate yet. -/
example : ∃ n fs₁, OnDisk demoFS (main .id n demoConfig) fs₁ ∧ fs₁.file ["out", "p", "src", "user_state.rs"] = some [] := by
  obtain ⟨⟨N, hN⟩, _⟩ := C35_empty_file_is_accepted .id
  obtain ⟨fs₁, h1, h2, _⟩ := C56_broken_off_run_leaves_empty_file_for_good (fs := demoFS) (c := demoConfig) (src := []) (by decide)
    (hN N (Nat.le_refl _)) rfl (by decide) (by decide) (by decide) (by decide) (by decide) (by decide) (x := "user_state.rs") (.inr rfl)
    (by decide) (l := [some "hooked_calls.rs", some "lib.rs", some "sample_main.txt"])
    ⟨by decide, by decide, fun n => by rw [← demo_lists.2.2 n]; simp only [List.mem_cons, List.not_mem_nil, or_false]; exact or_left_comm⟩
  exact ⟨N, fs₁, h1, h2⟩
example : ∃ n fs', Ends demoFS (generateData .id n demoConfig) fs' .success ∧ fs'.file ["out", "p", "src", "parser.rs"] = none := by
  obtain ⟨⟨N, hN⟩, _⟩ := C35_empty_file_is_accepted .id
  obtain ⟨fs', h1, h2⟩ := C56_success_although_nothing_was_written (fs := demoFS) (c := demoConfig) (src := []) (by decide)
    (hN N (Nat.le_refl _)) rfl (by unfold Config.Apart; decide) (by decide) (by decide) (by decide) (by decide) (by decide) (d := [1]) (by decide)
  exact ⟨N, fs', h1, by rw [h2 _ (by decide)]; decide⟩

/-- The hypothesis of C40 is met: `<A>` is not a grammar. -/
example : ¬ ∃ g : DGrammar, g.WF ∧ g.text = bytesOf "<A>" := by
  rintro ⟨g, hw, e⟩
  cases g with
  | nil => exact absurd e (by decide)
  | cons r g =>
    have : (59 : UInt8) ∈ bytesOf "<A>" := by rw [← e]; exact List.mem_append_left _ (by simp [DRule.text])
    exact absurd this (by decide)

end PP.Run
