import Verif.Lemmas.Mini.Session
import Verif.Props.ByHand

/-! # C95: sessions, several calls by hand on one context

Whatever calls were made before on the context, each call's answer is the answer of its own expression: the memo table never changes an answer. -/
namespace PP.Mini
open PP.Gen

section
variable {R U : Type} [DecidableEq R] {P : Parser R U} {src : Source} {m : Nat}

theorem evalAll_each {ok : Expr R → Prop} {A : Expr R × Nat → Bool × Nat → Prop}
    (hA : ∀ {n e p b q st st'}, Reached P src ok 0 st → ok e → eval P src n e 0 p st = .ok (b, q, st') → A (e, p) (b, q)) :
    ∀ {l : List (Expr R × Nat)} {st rs st'}, (∀ c ∈ l, ok c.1) → Reached P src ok 0 st → evalAll P src m l st = .ok (rs, st') → List.Forall₂ A l rs := by
  intro l
  induction l with
  | nil => intro st rs st' _ _ h; cases h; exact .nil
  | cons c l ih =>
    obtain ⟨e, p⟩ := c
    intro st rs st' hok hr h
    rw [evalAll] at h
    generalize hx : eval P src m e 0 p st = x at h
    cases x with
    | oof => cases h
    | panic => cases h
    | ok x =>
      obtain ⟨b, q, st₁⟩ := x
      rw [Out.bind_ok] at h
      generalize hy : evalAll P src m l st₁ = y at h
      cases y with
      | oof => cases h
      | panic => cases h
      | ok y =>
        obtain ⟨rs', st₂⟩ := y
        cases h
        have he := hok _ (List.mem_cons_self ..)
        exact .cons (hA hr he hx) (ih (fun c hc => hok c (List.mem_cons_of_mem _ hc)) (.call hr he hx) hy)

theorem evalAll_peg {body : R → Expr R} {g : R} (hb : ∀ r, (body r).Plain) : ∀ {l : List (Expr R × Nat)} {rs : List (Bool × Nat)}, (∀ c ∈ l, c.1.Plain) →
    List.Forall₂ (fun c r => Peg body src c.1 c.2 r.1 r.2) l rs →
    ∃ N, ∀ n, N ≤ n → ∀ st, Reached (.plain body g) src Expr.Plain 0 st →
      (∃ st', evalAll (.plain body g) src n l st = .ok (rs, st')) ∨ evalAll (.plain body g) src n l st = .panic .keyOverflow := by
  intro l rs hl h
  induction h with
  | nil => exact ⟨0, fun n _ st _ => .inl ⟨st, rfl⟩⟩
  | @cons c r l rs hp _ ih =>
    obtain ⟨e, p⟩ := c; obtain ⟨b, q⟩ := r
    have he := hl _ (List.mem_cons_self ..)
    obtain ⟨N₁, h₁⟩ := C05_peg_result_is_computed body g src hb he hp
    obtain ⟨N₂, h₂⟩ := ih fun c hc => hl c (List.mem_cons_of_mem _ hc)
    refine ⟨max N₁ N₂, fun n hn st hr => ?_⟩
    rw [evalAll]
    rcases h₁ n (by omega) 0 st hr with ⟨st₁, e₁⟩ | e₁
    · rw [e₁, Out.bind_ok]
      rcases h₂ n (by omega) st₁ (.call hr he e₁) with ⟨st₂, e₂⟩ | e₂
      · rw [e₂]; exact .inl ⟨st₂, rfl⟩
      · rw [e₂]; exact .inr rfl
    · rw [e₁]; exact .inr rfl
end

section
variable {R S : Type} {m : S → R} {vn fn : R → Name} {Q : Prog} {n u c : Nat}

theorem callAll_rename {vn' fn' : S → Name} {source : Val} : ∀ {l : List (Expr S × Nat)} (h : Heap),
    (∀ d ∈ l, ∀ x ∈ d.1.mentions, vn (m x) = vn' x ∧ fn (m x) = fn' x) →
    callAll Q n vn fn u c source (l.map fun d => (d.1.rename m, d.2)) h = callAll Q n vn' fn' u c source l h := by
  intro l
  induction l with
  | nil => intros; rfl
  | cons d l ih =>
    intro h hx
    simp only [List.map_cons, callAll, make_rename h (hx d (List.mem_cons_self ..)), fun h => ih h fun d hd => hx d (List.mem_cons_of_mem _ hd)]

theorem runSession_rename {vn' fn' : S → Name} {l : List (Expr S × Nat)} {text : Bytes}
    (hx : ∀ d ∈ l, ∀ x ∈ d.1.mentions, vn (m x) = vn' x ∧ fn (m x) = fn' x) :
    runSession Q n vn fn text (l.map fun d => (d.1.rename m, d.2)) = runSession Q n vn' fn' text l := by
  unfold runSession
  simp only [callAll_rename _ hx]
end

section
variable {g : DGrammar} {ord : HashOrd} {n₀ : Nat} {c : GeneratedCode} {W : Bytes → Expr Bytes}

/-- C95: in every generated crate, sessions do what the model's evaluator does, call after call. -/
theorem C95_generated_crate_sessions (hw : g.WF) (hsm : g.text.length < 82000000) (h : generateParser ord n₀ g.text = .ok (.code c))
    (hf : ∀ r ∈ g, r.rhs.Faithful) (hr : g.Runnable) : ∃ (Q : Prog) (body : g.Fn → Expr g.Fn) (start : g.Fn),
      readCrate (crateFiles c) = some Q ∧ Links c body Subtype.val ∧ start.1 = utf8Of "grammar" ∧
        ComputesSessions Q (.plain body start) (fun r => nameOf (variantOf c.variants r.1)) fun r => nameOf r.1 := by
  obtain ⟨body, funs, h1, h2, h3, h4, h5⟩ := generated_crate hw hsm h hf hr
  obtain ⟨start, hs⟩ := Runnable.exists_start hr
  exact ⟨progOf (plainUser Unit plainItems) false c.variants funs, body, start, by
    rw [crateFiles, List.append_assoc]
    exact readCrate_append read_coreFilesOfParser (readCrate_append read_userFiles (by simp [readCrate, h2, h3, genOf])),
    h1, hs, computesSessions (plainUserSim _) h4 (h5 start hs)⟩

theorem exists_lifts (start : g.Fn) : ∃ m : Bytes → g.Fn, ∀ e : Expr Bytes, RefersTo g.IsFunction e → ∀ x ∈ e.mentions, (m x).1 = x := by
  classical
  refine ⟨fun x => if hx : x ∈ g.map fun r => lower r.name then ⟨x, hx⟩ else start, fun e h x hx => ?_⟩
  obtain ⟨r, hr, rfl⟩ := refersTo_mentions h x hx
  show (dite _ _ _ : g.Fn).1 = _
  rw [dif_pos (List.mem_map_of_mem (f := fun r : DRule => lower r.name) hr)]

/-- C95: for a grammar without left recursion: in a session, whatever calls were made before on the context, each answer is what PEG semantics gives for its own
expression and position with the grammar as written; where PEG semantics gives every call an answer the session ends, with these answers or (if 2^32 node keys do
not suffice) by a panic. -/
theorem C95_sessions_compute_peg (hw : g.WF) (hsm : g.text.length < 82000000) (h : generateParser ord n₀ g.text = .ok (.code c))
    (hf : ∀ r ∈ g, r.rhs.Faithful) (hr : g.Runnable) (hs : g.Simple) (hW : g.Means W) : ∃ Q, readCrate (crateFiles c) = some Q ∧
      ∀ (text : Bytes) (calls : List (Expr Bytes × Nat)), (∀ d ∈ calls, ByHand d.1 ∧ d.1.Plain ∧ RefersTo g.IsFunction d.1) →
        (∀ n v h', runSession Q n (fun x => nameOf (variantOf c.variants x)) nameOf text calls = .ok v h' →
          ∃ answers t, v = .tuple [.vec (answers.map encAnswer), t] ∧ List.Forall₂ (fun d a => Peg W ⟨text⟩ d.1 d.2 a.1 a.2) calls answers) ∧
        ∀ answers : List (Bool × Nat), List.Forall₂ (fun d a => Peg W ⟨text⟩ d.1 d.2 a.1 a.2) calls answers →
          ∃ N, (∀ n, N ≤ n → ∃ t h', runSession Q n (fun x => nameOf (variantOf c.variants x)) nameOf text calls = .ok (.tuple [.vec (answers.map encAnswer), t]) h') ∨
            ∀ n, N ≤ n → runSession Q n (fun x => nameOf (variantOf c.variants x)) nameOf text calls = .panic := by
  obtain ⟨Q, body, start, hQ, hl, hst, hC⟩ := C95_generated_crate_sessions hw hsm h hf hr
  have hb := links_bodies hw hsm h hf hl hW
  have hpl := links_plain hw hsm h hf hl hs
  obtain ⟨m, hm⟩ := exists_lifts start
  refine ⟨Q, hQ, fun text calls hc => ?_⟩
  have hrun : ∀ n, runSession Q n (fun x => nameOf (variantOf c.variants x)) nameOf text calls =
      runSession Q n (fun r : g.Fn => nameOf (variantOf c.variants r.1)) (fun r => nameOf r.1) text (calls.map fun d => (d.1.rename m, d.2)) := fun n =>
    (runSession_rename fun d hd x hx => by rw [hm _ (hc d hd).2.2 x hx]; exact ⟨rfl, rfl⟩).symm
  simp only [hrun]
  have hbh : ∀ d ∈ calls.map fun d => (d.1.rename m, d.2), ByHand d.1 := List.forall_mem_map.mpr fun d hd => byHand_rename (hc d hd).1
  have hpe : ∀ d ∈ calls.map fun d => (d.1.rename m, d.2), d.1.Plain := List.forall_mem_map.mpr fun d hd => plain_rename (hc d hd).2.1
  have hiff : ∀ answers : List (Bool × Nat), List.Forall₂ (fun d a => Peg body ⟨text⟩ d.1 d.2 a.1 a.2) (calls.map fun d => (d.1.rename m, d.2)) answers ↔
      List.Forall₂ (fun d a => Peg W ⟨text⟩ d.1 d.2 a.1 a.2) calls answers := by
    intro answers
    rw [List.forall₂_map_left_iff]
    have step : ∀ d ∈ calls, ∀ a : Bool × Nat, Peg body ⟨text⟩ (d.1.rename m) d.2 a.1 a.2 ↔ Peg W ⟨text⟩ d.1 d.2 a.1 a.2 := by
      intro d hd a
      have hag : Agrees Subtype.val (d.1.rename m) d.1 := rename_agrees (hm _ (hc d hd).2.2)
      constructor
      · intro hp
        have := Agrees.peg hb hp hag
        rwa [erase_plain (hc d hd).1 (hc d hd).2.1] at this
      · exact fun hp => Agrees.unpeg hb hpl hp (plain_rename (hc d hd).2.1) hag (erase_plain (hc d hd).1 (hc d hd).2.1).symm
    clear hbh hpe hrun
    induction calls generalizing answers with
    | nil => exact ⟨fun h => by cases h; exact .nil, fun h => by cases h; exact .nil⟩
    | cons d l ih =>
      have ih := fun answers => ih (fun d hd => hc d (List.mem_cons_of_mem _ hd)) answers fun d hd => step d (List.mem_cons_of_mem _ hd)
      constructor
      · rintro (_ | ⟨h1, h2⟩); exact .cons ((step d (List.mem_cons_self ..) _).mp h1) ((ih _).mp h2)
      · rintro (_ | ⟨h1, h2⟩); exact .cons ((step d (List.mem_cons_self ..) _).mpr h1) ((ih _).mpr h2)
  refine ⟨fun n v h' hv => ?_, fun answers ha => ?_⟩
  · obtain ⟨k, ⟨rs, st⟩, hx, rfl⟩ := hC.sound _ _ _ _ _ hbh hv
    refine ⟨rs, _, rfl, (hiff _).mp ?_⟩
    exact evalAll_each (A := fun d a => Peg body ⟨text⟩ d.1 d.2 a.1 a.2) (fun hr he hx => C04_memoised_agrees_with_peg body start ⟨text⟩ hpl hr he hx) hpe .init hx
  · obtain ⟨M, hM⟩ := evalAll_peg (g := start) hpl hpe ((hiff _).mpr ha)
    rcases hM M (Nat.le_refl _) _ .init with ⟨st, hx⟩ | hx
    · obtain ⟨N, hN⟩ := hC.complete _ _ _ _ hbh hx
      exact ⟨N, .inl fun n hn => (hN n hn).elim fun h' e => ⟨_, h', e⟩⟩
    · obtain ⟨N, hN⟩ := (hC.panics _ _ hbh).mpr ⟨M, _, hx⟩
      exact ⟨N, .inr hN⟩

/-- C95, with left recursion or without: in a session, whatever calls were made before on the context, what a call accepts from its position to `q` is derivable from
its expression with the grammar as written; a failed call ends where it began; and positions stay inside the text. -/
theorem C95_sessions_are_sound (hw : g.WF) (hsm : g.text.length < 82000000) (h : generateParser ord n₀ g.text = .ok (.code c))
    (hf : ∀ r ∈ g, r.rhs.Faithful) (hr : g.Runnable) (hW : g.Means W) : ∃ Q, readCrate (crateFiles c) = some Q ∧
      ∀ (text : Bytes) (calls : List (Expr Bytes × Nat)), (∀ d ∈ calls, ByHand d.1 ∧ RefersTo g.IsFunction d.1) → ∀ n v h',
        runSession Q n (fun x => nameOf (variantOf c.variants x)) nameOf text calls = .ok v h' →
        ∃ answers t, v = .tuple [.vec (answers.map encAnswer), t] ∧
          List.Forall₂ (fun d a => (a.1 = false → a.2 = d.2) ∧ (a.2 = d.2 ∨ d.2 < a.2 ∧ a.2 ≤ text.length) ∧
            (a.1 = true → Derives W d.1 ((text.take a.2).drop d.2))) calls answers := by
  obtain ⟨Q, body, start, hQ, hl, hst, hC⟩ := C95_generated_crate_sessions hw hsm h hf hr
  have hb := links_bodies hw hsm h hf hl hW
  obtain ⟨m, hm⟩ := exists_lifts start
  refine ⟨Q, hQ, fun text calls hc n v h' hv => ?_⟩
  rw [← runSession_rename (m := m) (vn := fun r : g.Fn => nameOf (variantOf c.variants r.1)) (fn := fun r => nameOf r.1)
    fun d hd x hx => by rw [hm _ (hc d hd).2 x hx]; exact ⟨rfl, rfl⟩] at hv
  obtain ⟨k, ⟨rs, st⟩, hx, rfl⟩ := hC.sound _ _ _ _ _ (List.forall_mem_map.mpr fun d hd => byHand_rename (hc d hd).1) hv
  refine ⟨rs, _, rfl, ?_⟩
  have := evalAll_each (ok := Expr.Any) (A := fun d a => (a.1 = false → a.2 = d.2) ∧ (a.2 = d.2 ∨ d.2 < a.2 ∧ a.2 ≤ text.length) ∧
    (a.1 = true → Derives body d.1 (Source.slice ⟨text⟩ d.2 a.2))) (fun {n e p b q st st'} hr he hx => ⟨?_, ?_, ?_⟩) (fun _ _ => trivial) .init hx
  · rw [List.forall₂_map_left_iff] at this
    clear hv hx
    induction calls generalizing rs with
    | nil => cases this; exact .nil
    | cons d l ih =>
      rcases this with _ | ⟨⟨h1, h2, h3⟩, h4⟩
      refine .cons ⟨h1, h2, fun ht => ?_⟩ (ih (fun d hd => hc d (List.mem_cons_of_mem _ hd)) _ h4)
      have hag : Agrees Subtype.val (d.1.rename m) d.1 := rename_agrees (hm _ (hc d (List.mem_cons_self ..)).2)
      have := h3 ht
      rw [List.drop_take]
      exact derives_unerase (Agrees.derives hb this hag) rfl
  · rintro rfl
    exact C01_failed_match_consumes_nothing (.plain body start) ⟨text⟩ (plain_hooksOK _ _ _) hr hx
  · rcases (C02_positions_stay_in_source (.plain body start) ⟨text⟩ (plain_hooksOK _ _ _) hr hx).1 with h | h
    · exact .inl h
    · exact .inr ⟨h.1, Nat.le_trans h.2 (Nat.mod_le _ _)⟩
  · rintro rfl
    exact C24_accepted_text_is_derivable (.plain body start) ⟨text⟩ (plain_hooksOK _ _ _) hr hx
end

/-! ## The crates in the repository -/

/-- C95: the parser of grammar files. -/
theorem C95_dsl_sessions : ∃ Q, readCrate (coreFilesOfParser ++ userFiles ++ [fileOf Texts.dslRules, fileOf Texts.dslParser]) = some Q ∧
    ComputesSessions Q dslParser (fun r => nameOf (variantOf (Files.dslEnum.map utf8Of) (utf8Of (Files.dslName r)))) fun r => nameOf (utf8Of (Files.dslName r)) :=
  crateCheck_session read_coreFilesOfParser read_userFiles (plainUserSim _) (by intro r; cases r <;> decide) dslCrate

/-- C95, example 1. -/
theorem C95_example1_sessions : ∃ Q, readCrate (coreFiles ++ userFiles ++ [fileOf Texts.ex1Rules, fileOf Texts.ex1Parser]) = some Q ∧
    ComputesSessions Q ex1Parser (fun r => nameOf (variantOf (Files.ex1Enum.map utf8Of) (utf8Of (Files.ex1Name r)))) fun r => nameOf (utf8Of (Files.ex1Name r)) :=
  crateCheck_session read_coreFiles read_userFiles (plainUserSim _) (by intro r; cases r <;> decide) ex1Crate

/-- C95, example 2. -/
theorem C95_example2_sessions : ∃ Q, readCrate (coreFiles ++ userFiles ++ [fileOf Texts.ex2Rules, fileOf Texts.ex2Parser]) = some Q ∧
    ComputesSessions Q ex2Parser (fun r => nameOf (variantOf (Files.ex2Enum.map utf8Of) (utf8Of (Files.ex2Name r)))) fun r => nameOf (utf8Of (Files.ex2Name r)) :=
  crateCheck_session read_coreFiles read_userFiles (plainUserSim _) (by intro r; cases r <;> decide) ex2Crate

/-- C95, example 3. -/
theorem C95_example3_sessions : ∃ Q, readCrate (coreFiles ++ userFiles ++ [fileOf Texts.ex3Rules, fileOf Texts.ex3Parser]) = some Q ∧
    ComputesSessions Q ex3Parser (fun r => nameOf (variantOf (Files.ex3Enum.map utf8Of) (utf8Of (Files.ex3Name r)))) fun r => nameOf (utf8Of (Files.ex3Name r)) :=
  crateCheck_session read_coreFiles read_userFiles (plainUserSim _) (by intro r; cases r <;> decide) ex3Crate

/-- C95, example 4. -/
theorem C95_example4_sessions : ∃ Q, readCrate (coreFiles ++ userFiles ++ [fileOf Texts.ex4Rules, fileOf Texts.ex4Parser]) = some Q ∧
    ComputesSessions Q ex4Parser (fun r => nameOf (variantOf (Files.ex4Enum.map utf8Of) (utf8Of (Files.ex4Name r)))) fun r => nameOf (utf8Of (Files.ex4Name r)) :=
  crateCheck_session read_coreFiles read_userFiles (plainUserSim _) (by intro r; cases r <;> decide) ex4Crate

/-- C95, example 5. -/
theorem C95_example5_sessions : ∃ Q, readCrate (coreFiles ++ userFiles ++ [fileOf Texts.ex5Rules, fileOf Texts.ex5Parser]) = some Q ∧
    ComputesSessions Q ex5Parser (fun r => nameOf (variantOf (Files.ex5Enum.map utf8Of) (utf8Of (Files.ex5Name r)))) fun r => nameOf (utf8Of (Files.ex5Name r)) :=
  crateCheck_session read_coreFiles read_userFiles (plainUserSim _) (by intro r; cases r <;> decide) ex5Crate

/-- C95, example 6. -/
theorem C95_example6_sessions : ∃ Q, readCrate (coreFiles ++ userFiles ++ [fileOf Texts.ex6Rules, fileOf Texts.ex6Parser]) = some Q ∧
    ComputesSessions Q ex6Parser (fun r => nameOf (variantOf (Files.ex6Enum.map utf8Of) (utf8Of (Files.ex6Name r)))) fun r => nameOf (utf8Of (Files.ex6Name r)) :=
  crateCheck_session read_coreFiles read_userFiles (plainUserSim _) (by intro r; cases r <;> decide) ex6Crate

/-- C95, example 7. -/
theorem C95_example7_sessions : ∃ Q, readCrate (coreFiles ++ userFiles ++ [fileOf Texts.ex7Rules, fileOf Texts.ex7Parser]) = some Q ∧
    ComputesSessions Q ex7Parser (fun r => nameOf (variantOf (Files.ex7Enum.map utf8Of) (utf8Of (Files.ex7Name r)))) fun r => nameOf (utf8Of (Files.ex7Name r)) :=
  crateCheck_session read_coreFiles read_userFiles (plainUserSim _) (by intro r; cases r <;> decide) ex7Crate

/-- C95, example 8. -/
theorem C95_example8_sessions : ∃ Q, readCrate (coreFiles ++ userFiles ++ [fileOf Texts.ex8Rules, fileOf Texts.ex8Parser]) = some Q ∧
    ComputesSessions Q ex8Parser (fun r => nameOf (variantOf (Files.ex8Enum.map utf8Of) (utf8Of (Files.ex8Name r)))) fun r => nameOf (utf8Of (Files.ex8Name r)) :=
  crateCheck_session read_coreFiles read_userFiles (plainUserSim _) (by intro r; cases r <;> decide) ex8Crate

/-- C95, example 9. -/
theorem C95_example9_sessions : ∃ Q, readCrate (coreFiles ++ userFiles ++ [fileOf Texts.ex9Rules, fileOf Texts.ex9Parser]) = some Q ∧
    ComputesSessions Q ex9Parser (fun r => nameOf (variantOf (Files.ex9Enum.map utf8Of) (utf8Of (Files.ex9Name r)))) fun r => nameOf (utf8Of (Files.ex9Name r)) :=
  crateCheck_session read_coreFiles read_userFiles (plainUserSim _) (by intro r; cases r <;> decide) ex9Crate

/-- C95, example 10. -/
theorem C95_example10_sessions : ∃ Q, readCrate (coreFiles ++ userFiles ++ [fileOf Texts.ex10Rules, fileOf Texts.ex10Parser]) = some Q ∧
    ComputesSessions Q ex10Parser (fun r => nameOf (variantOf (Files.ex10Enum.map utf8Of) (utf8Of (Files.ex10Name r)))) fun r => nameOf (utf8Of (Files.ex10Name r)) :=
  crateCheck_session read_coreFiles read_userFiles (plainUserSim _) (by intro r; cases r <;> decide) ex10Crate

/-! ### The hypotheses are met -/

/-- The crate of `<Grammar>=('x',<Grammar>)/'y';` and three calls of its rule on one context with the text `xxy`: at position 1, at 0 (which finds the memoised
answer at 1) and at 3 (where it fails). -/
example (ord : HashOrd) : ∃ c Q, (∃ n, generateParser ord n rightG.text = .ok (.code c)) ∧ readCrate (crateFiles c) = some Q ∧
    ∃ N, (∀ n, N ≤ n → ∃ t h', runSession Q n (fun x => nameOf (variantOf c.variants x)) nameOf (bytesOf "xxy")
        [(.varName (lower (nm "Grammar")), 1), (.varName (lower (nm "Grammar")), 0), (.varName (lower (nm "Grammar")), 3)] =
          .ok (.tuple [.vec ([(true, 3), (true, 3), (false, 3)].map encAnswer), t]) h') ∨
      ∀ n, N ≤ n → runSession Q n (fun x => nameOf (variantOf c.variants x)) nameOf (bytesOf "xxy")
        [(.varName (lower (nm "Grammar")), 1), (.varName (lower (nm "Grammar")), 0), (.varName (lower (nm "Grammar")), 3)] = .panic := by
  have hf : ∀ r ∈ rightG, r.rhs.Faithful := by decide +kernel
  have hlr : ∀ x, ¬ rightG.LeftRecursive x := not_leftRecursive_of (by decide +kernel)
  obtain ⟨c, N, hN, -⟩ := round_trip rightG_wf (by decide +kernel) (not_dangling_of (by decide +kernel)) hf (by
    intro r hr k hk; simp only [rightG, List.mem_singleton] at hr; subst hr; cases hk) ord
  have hgen := hN N (Nat.le_refl _)
  let W : Bytes → Expr Bytes := fun _ => .orderedChoice (.subexpression (.sequence (.terminal 120) (.varName (lower (nm "Grammar"))))) (.terminal 121)
  have hW : rightG.Means W := by
    intro r hr
    simp only [rightG, List.mem_singleton] at hr
    subst hr
    rfl
  obtain ⟨Q, hQ, h⟩ := C95_sessions_compute_peg rightG_wf (by decide +kernel) hgen hf rightG_runnable ⟨by decide +kernel, hlr⟩ hW
  have href : RefersTo rightG.IsFunction (.varName (lower (nm "Grammar"))) := ⟨_, List.mem_singleton.mpr rfl, rfl⟩
  have h1 : Peg W ⟨bytesOf "xxy"⟩ (.varName (lower (nm "Grammar"))) 1 true 3 := .ref (.choice_left (.sub_ok (.seq_ok (.terminal_ok (by decide) rfl) (.ref (.choice_right
    (.sub_fail (.seq_fail1 (.terminal_fail (by decide)))) (.terminal_ok (by decide) rfl))))))
  have h3 : Peg W ⟨bytesOf "xxy"⟩ (.varName (lower (nm "Grammar"))) 3 false 3 :=
    .ref (.choice_fail (.sub_fail (.seq_fail1 (.terminal_fail (by decide)))) (.terminal_fail (by decide)))
  refine ⟨c, Q, ⟨N, hgen⟩, hQ, (h _ _ ?_).2 [(true, 3), (true, 3), (false, 3)] (.cons h1 (.cons ?_ (.cons ?_ .nil)))⟩
  · intro d hd
    simp only [List.mem_cons, List.not_mem_nil, or_false] at hd
    rcases hd with rfl | rfl | rfl <;> exact ⟨trivial, trivial, href⟩
  · exact .ref (.choice_left (.sub_ok (.seq_ok (.terminal_ok (by decide) rfl) h1)))
  · exact h3

end PP.Mini
