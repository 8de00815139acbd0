import Verif.Props.Session
import Verif.Props.LeftRec
import Verif.Props.GeneratedHooked

/-! # C94, C95 continued: sessions end; sessions with hooked calls; sessions with left recursion -/
namespace PP.Mini
open PP.Gen

section
variable {R U : Type} [DecidableEq R] {P : Parser R U} {src : Source} {m : Nat}

theorem evalAll_computes {ok : Expr R → Prop} {l : List (Expr R × Nat)} {rs : List (Bool × Nat)} (hl : ∀ c ∈ l, ok c.1)
    (h : List.Forall₂ (fun c r => ∃ N, ∀ n, N ≤ n → ∀ st, Reached P src ok 0 st →
      (∃ st', eval P src n c.1 0 c.2 st = .ok (r.1, r.2, st')) ∨ eval P src n c.1 0 c.2 st = .panic .keyOverflow) l rs) :
    ∃ N, ∀ n, N ≤ n → ∀ st, Reached P src ok 0 st →
      (∃ st', evalAll P src n l st = .ok (rs, st')) ∨ evalAll P src n l st = .panic .keyOverflow := by
  induction h with
  | nil => exact ⟨0, fun n _ st _ => .inl ⟨st, rfl⟩⟩
  | @cons c r l rs hp _ ih =>
    obtain ⟨e, p⟩ := c; obtain ⟨b, q⟩ := r
    obtain ⟨N₁, h₁⟩ := hp
    obtain ⟨N₂, h₂⟩ := ih fun c hc => hl c (List.mem_cons_of_mem _ hc)
    refine ⟨max N₁ N₂, fun n hn st hr => ?_⟩
    rw [evalAll]
    rcases h₁ n (by omega) st hr with ⟨st₁, e₁⟩ | e₁
    · rw [e₁, Out.bind_ok]
      rcases h₂ n (by omega) st₁ (.call hr (hl _ (List.mem_cons_self ..)) e₁) with ⟨st₂, e₂⟩ | e₂
      · rw [e₂]; exact .inl ⟨st₂, rfl⟩
      · rw [e₂]; exact .inr rfl
    · rw [e₁]; exact .inr rfl

theorem evalAll_ends {l : List (Expr R × Nat)}
    (h : ∀ c ∈ l, ∃ N, ∀ n, N ≤ n → ∀ st, Reached P src Expr.Any 0 st →
      (∃ b q st', eval P src n c.1 0 c.2 st = .ok (b, q, st')) ∨ ∃ p, eval P src n c.1 0 c.2 st = .panic p) :
    ∃ N, ∀ n, N ≤ n → ∀ st, Reached P src Expr.Any 0 st → (∃ rs st', evalAll P src n l st = .ok (rs, st') ∧ rs.length = l.length) ∨
      ∃ p, evalAll P src n l st = .panic p := by
  induction l with
  | nil => exact ⟨0, fun n _ st _ => .inl ⟨[], st, rfl, rfl⟩⟩
  | cons c l ih =>
    obtain ⟨e, p⟩ := c
    obtain ⟨N₁, h₁⟩ := h _ (List.mem_cons_self ..)
    obtain ⟨N₂, h₂⟩ := ih fun c hc => h c (List.mem_cons_of_mem _ hc)
    refine ⟨max N₁ N₂, fun n hn st hr => ?_⟩
    rw [evalAll]
    rcases h₁ n (by omega) st hr with ⟨b, q, st₁, e₁⟩ | ⟨x, e₁⟩
    · rw [e₁, Out.bind_ok]
      rcases h₂ n (by omega) st₁ (.call hr trivial e₁) with ⟨rs, st₂, e₂, e₃⟩ | ⟨x, e₂⟩
      · rw [e₂]; exact .inl ⟨_, st₂, rfl, by simp [e₃]⟩
      · rw [e₂]; exact .inr ⟨x, rfl⟩
    · rw [e₁]; exact .inr ⟨x, rfl⟩

theorem reached_mono {ok ok' : Expr R → Prop} (h : ∀ e, ok e → ok' e) {k st} (hr : Reached P src ok k st) : Reached P src ok' k st := by
  induction hr with
  | init => exact .init
  | call _ he hx ih => exact .call ih (h _ he) hx
  | node _ h ih => exact .node ih h

/-- From the model's end of a session to the execution's. -/
theorem ComputesSessions.ends {Q : Prog} {vn fn : R → Name} (hC : ComputesSessions Q P vn fn) (hh : ∀ src, P.HooksOK src) (rules : List R)
    (hrules : ∀ r, r ∈ rules) (hwf : WellFormed P.body) (text : Bytes) (calls : List (Expr R × Nat)) (hb : ∀ c ∈ calls, ByHand c.1)
    (hl : ∀ c ∈ calls, NoEmptyLoop P.body c.1) :
    ∃ N, (∃ (answers : List (Bool × Nat)) (t : Val), answers.length = calls.length ∧ ∀ n, N ≤ n → ∃ h', runSession Q n vn fn text calls = .ok (.tuple [.vec (answers.map encAnswer), t]) h') ∨
      ∀ n, N ≤ n → runSession Q n vn fn text calls = .panic := by
  obtain ⟨M, hM⟩ := evalAll_ends (P := P) (src := ⟨text⟩) (l := calls) fun c hc => by
    obtain ⟨N, hN⟩ := C07_calls_terminate P ⟨text⟩ (hh _) rules hrules hwf (hl c hc) c.2
    refine ⟨N, fun n hn st hr => ?_⟩
    rcases hN n hn 0 st hr with h | h | h
    exacts [.inl h, .inr ⟨_, h⟩, .inr ⟨_, h⟩]
  rcases hM M (Nat.le_refl _) _ .init with ⟨rs, st, hx, hlen⟩ | ⟨p, hx⟩
  · obtain ⟨N, hN⟩ := hC.complete _ _ _ _ hb hx
    exact ⟨N, .inl ⟨rs, _, hlen, hN⟩⟩
  · obtain ⟨N, hN⟩ := (hC.panics _ _ hb).mpr ⟨M, _, hx⟩
    exact ⟨N, .inr hN⟩

/-- Sessions in a grammar whose left recursion is direct: each answer, whatever calls came before, is that of the grammar in which the left recursive rules are
iterations. -/
theorem ComputesSessions.iteration {Q : Prog} {vn fn : R → Name} (hC : ComputesSessions Q P vn fn) (hh : ∀ src, P.HooksOK src) (hcalm : ∀ src, P.HooksCalm src)
    (rules : List R) (hrules : ∀ r, r ∈ rules) (hwf : WellFormed P.body) {lr : R → Option (LRDecl R)} (hD : DirectLR P.body lr)
    (text : Bytes) (calls : List (Expr R × Nat)) (hb : ∀ c ∈ calls, ByHand c.1 ∧ c.1.RefsOK lr) :
    (∀ n v h', runSession Q n vn fn text calls = .ok v h' → ∃ answers t, v = .tuple [.vec (answers.map encAnswer), t] ∧
      List.Forall₂ (fun d a => Peg (iterBody P.body lr) ⟨text⟩ d.1.deLR d.2 a.1 a.2) calls answers) ∧
    ∀ answers : List (Bool × Nat), List.Forall₂ (fun d a => Peg (iterBody P.body lr) ⟨text⟩ d.1.deLR d.2 a.1 a.2 ∧ NoEmptyLoop P.body d.1) calls answers →
      ∃ N, (∀ n, N ≤ n → ∃ t h', runSession Q n vn fn text calls = .ok (.tuple [.vec (answers.map encAnswer), t]) h') ∨
        ∀ n, N ≤ n → runSession Q n vn fn text calls = .panic := by
  have hbh : ∀ c ∈ calls, ByHand c.1 := fun c hc => (hb c hc).1
  have hok : ∀ c ∈ calls, c.1.RefsOK lr := fun c hc => (hb c hc).2
  refine ⟨fun n v h' hv => ?_, fun answers ha => ?_⟩
  · obtain ⟨k, ⟨rs, st⟩, hx, rfl⟩ := hC.sound _ _ _ _ _ hbh hv
    exact ⟨rs, _, rfl, evalAll_each (A := fun d a => Peg (iterBody P.body lr) ⟨text⟩ d.1.deLR d.2 a.1 a.2)
      (fun hr he hx => C22_direct_left_recursion_is_iteration P ⟨text⟩ lr hD hr he hx) hok .init hx⟩
  · have hall : List.Forall₂ (fun c r => ∃ N, ∀ n, N ≤ n → ∀ st, Reached P ⟨text⟩ (Expr.RefsOK lr) 0 st →
        (∃ st', eval P ⟨text⟩ n c.1 0 c.2 st = .ok (r.1, r.2, st')) ∨ eval P ⟨text⟩ n c.1 0 c.2 st = .panic .keyOverflow) calls answers := by
      clear hbh hb
      induction ha with
      | nil => exact .nil
      | cons h _ ih =>
        refine .cons ?_ (ih fun c hc => hok c (List.mem_cons_of_mem _ hc))
        obtain ⟨N, hN⟩ := C22_iteration_is_computed P ⟨text⟩ (hh _) (hcalm _) lr hD rules hrules hwf (hok _ (List.mem_cons_self ..)) h.2 h.1
        exact ⟨N, fun n hn st hr => hN n hn 0 st hr⟩
    obtain ⟨M, hM⟩ := evalAll_computes hok hall
    rcases hM M (Nat.le_refl _) _ .init with ⟨st, hx⟩ | hx
    · obtain ⟨N, hN⟩ := hC.complete _ _ _ _ hbh hx
      exact ⟨N, .inl fun n hn => (hN n hn).elim fun h' e => ⟨_, h', e⟩⟩
    · obtain ⟨N, hN⟩ := (hC.panics _ _ hbh).mpr ⟨M, _, hx⟩
      exact ⟨N, .inr hN⟩
end

section
variable {g : DGrammar} {ord : HashOrd} {n₀ : Nat} {c : GeneratedCode} {W : Bytes → Expr Bytes}

/-- C95: if every cycle of references that may be evaluated before anything is consumed contains a reference the generator recognises as left recursive, and no
repeated expression may match the empty string, in the grammar and in the expressions called, then every session ends: with an answer for every call, or by a panic. -/
theorem C95_sessions_end (hw : g.WF) (hsm : g.text.length < 82000000) (h : generateParser ord n₀ g.text = .ok (.code c))
    (hf : ∀ r ∈ g, r.rhs.Faithful) (hr : g.Runnable) (hW : g.Means W) (hcyc : ∀ x, ¬ Relation.TransGen (g.Hidden W) x x)
    (hloop : ∀ r ∈ g, NoEmptyLoop W (W (lower r.name))) : ∃ Q, readCrate (crateFiles c) = some Q ∧
      ∀ (text : Bytes) (calls : List (Expr Bytes × Nat)), (∀ d ∈ calls, ByHand d.1 ∧ RefersTo g.IsFunction d.1 ∧ NoEmptyLoop W d.1.erase) →
        ∃ N, (∃ (answers : List (Bool × Nat)) (t : Val), answers.length = calls.length ∧ ∀ n, N ≤ n → ∃ h',
            runSession Q n (fun x => nameOf (variantOf c.variants x)) nameOf text calls = .ok (.tuple [.vec (answers.map encAnswer), t]) h') ∨
          ∀ n, N ≤ n → runSession Q n (fun x => nameOf (variantOf c.variants x)) nameOf text calls = .panic := by
  obtain ⟨Q, body, start, hQ, hl, hst, hC⟩ := C95_generated_crate_sessions hw hsm h hf hr
  have hb := links_bodies hw hsm h hf hl hW
  have hwf := links_wellFormed hw hsm h hf hl _ (fn_finite g) hW hcyc hloop
  obtain ⟨m, hm⟩ := exists_lifts start
  refine ⟨Q, hQ, fun text calls hc => ?_⟩
  have hrun : ∀ n, runSession Q n (fun x => nameOf (variantOf c.variants x)) nameOf text calls =
      runSession Q n (fun r : g.Fn => nameOf (variantOf c.variants r.1)) (fun r => nameOf r.1) text (calls.map fun d => (d.1.rename m, d.2)) := fun n =>
    (runSession_rename fun d hd x hx => by rw [hm _ (hc d hd).2.1 x hx]; exact ⟨rfl, rfl⟩).symm
  simp only [hrun]
  have := hC.ends (fun _ => plain_hooksOK _ _ _) _ (fn_finite g) hwf text (calls.map fun d => (d.1.rename m, d.2))
    (List.forall_mem_map.mpr fun d hd => byHand_rename (hc d hd).1)
    (List.forall_mem_map.mpr fun d hd => Agrees.loops hb (rename_agrees (hm _ (hc d hd).2.1)) (hc d hd).2.2)
  simpa only [List.length_map] using this

/-- C95: generated crates with example 11's user files, whose user state outlives the calls too. -/
theorem C95_hooked_crate_sessions (hw : g.WF) (hsm : g.text.length < 82000000) (h : generateParser ord n₀ g.text = .ok (.code c))
    (hf : ∀ r ∈ g, r.rhs.Faithful) (hr : g.RunnableWith [utf8Of "unique_line_cache"]) : ∃ (Q : Prog) (body : g.Fn → Expr g.Fn) (start : g.Fn),
      readCrate (crateFiles11 c) = some Q ∧ Links c body Subtype.val ∧ start.1 = utf8Of "grammar" ∧
        ComputesSessions Q (uniqueParser body start) (fun r => nameOf (variantOf c.variants r.1)) fun r => nameOf r.1 := by
  obtain ⟨body, funs, h1, h2, h3, h4, h5⟩ := generated_crate_with (items := ex11Items) (fun x hx => List.mem_singleton.mp hx ▸ unique_word) hw hsm h hf hr
    fun r hr' => ex11_free (Text.name_lower (hw r hr').1) fun e => (hr.free r hr').2 (by simp [← lower_spec, e])
  obtain ⟨start, hs⟩ : ∃ r : g.Fn, r.1 = utf8Of "grammar" := by
    obtain ⟨r, hr, -, h⟩ := hr.start
    refine ⟨⟨lower r.name, List.mem_map_of_mem hr⟩, ?_⟩
    show lower r.name = _
    rw [← lower_cap, cap_spec, h]
    decide +kernel
  exact ⟨progOf ex11User false c.variants funs, body, start, by
    rw [crateFiles11, List.append_assoc]
    exact readCrate_append read_coreFilesOfParser (readCrate_append read_ex11UserFiles (by simp [readCrate, h2, h3, genOf])),
    h1, hs, computesSessions (uniqueUserSim body start) h4 (h5 _ _ (fun r s h => Subtype.ext h) (fun r => ⟨r, rfl, rfl⟩) hs)⟩

/-- C95, with hooked calls: whatever calls came before, what a call accepts is derivable from its expression (a hooked call derives what it wraps), a failed call ends
where it began, and positions stay inside the text. -/
theorem C95_hooked_sessions_are_sound (hw : g.WF) (hsm : g.text.length < 82000000) (h : generateParser ord n₀ g.text = .ok (.code c))
    (hf : ∀ r ∈ g, r.rhs.Faithful) (hr : g.RunnableWith [utf8Of "unique_line_cache"]) (hW : g.Means W) : ∃ Q, readCrate (crateFiles11 c) = some Q ∧
      ∀ (text : Bytes) (calls : List (Expr Bytes × Nat)), (∀ d ∈ calls, ByHand d.1 ∧ RefersTo g.IsFunction d.1) → ∀ n v h',
        runSession Q n (fun x => nameOf (variantOf c.variants x)) nameOf text calls = .ok v h' →
        ∃ answers t, v = .tuple [.vec (answers.map encAnswer), t] ∧
          List.Forall₂ (fun d a => (a.1 = false → a.2 = d.2) ∧ (a.2 = d.2 ∨ d.2 < a.2 ∧ a.2 ≤ text.length) ∧
            (a.1 = true → Derives W d.1 ((text.take a.2).drop d.2))) calls answers := by
  obtain ⟨Q, body, start, hQ, hl, hst, hC⟩ := C95_hooked_crate_sessions hw hsm h hf hr
  have hb := links_bodies hw hsm h hf hl hW
  obtain ⟨m, hm⟩ := exists_lifts start
  refine ⟨Q, hQ, fun text calls hc n v h' hv => ?_⟩
  rw [← runSession_rename (m := m) (vn := fun r : g.Fn => nameOf (variantOf c.variants r.1)) (fn := fun r => nameOf r.1)
    fun d hd x hx => by rw [hm _ (hc d hd).2 x hx]; exact ⟨rfl, rfl⟩] at hv
  obtain ⟨k, ⟨rs, st⟩, hx, rfl⟩ := hC.sound _ _ _ _ _ (List.forall_mem_map.mpr fun d hd => byHand_rename (hc d hd).1) hv
  refine ⟨rs, _, rfl, ?_⟩
  have := evalAll_each (ok := Expr.Any) (A := fun d a => (a.1 = false → a.2 = d.2) ∧ (a.2 = d.2 ∨ d.2 < a.2 ∧ a.2 ≤ text.length) ∧
    (a.1 = true → Derives body d.1 (Source.slice ⟨text⟩ d.2 a.2))) (fun {n e p b q st st'} hr he hx => ⟨?_, ?_, ?_⟩) (fun _ _ => trivial) .init hx
  · rw [List.forall₂_map_left_iff] at this
    clear hv hx
    induction calls generalizing rs with
    | nil => cases this; exact .nil
    | cons d l ih =>
      rcases this with _ | ⟨⟨h1, h2, h3⟩, h4⟩
      refine .cons ⟨h1, h2, fun ht => ?_⟩ (ih (fun d hd => hc d (List.mem_cons_of_mem _ hd)) _ h4)
      have hag : Agrees Subtype.val (d.1.rename m) d.1 := rename_agrees (hm _ (hc d (List.mem_cons_self ..)).2)
      have := h3 ht
      rw [List.drop_take]
      exact derives_unerase (Agrees.derives hb this hag) rfl
  · rintro rfl
    exact C01_failed_match_consumes_nothing (uniqueParser body start) ⟨text⟩ (unique_hooksOK _ _ _) hr hx
  · rcases (C02_positions_stay_in_source (uniqueParser body start) ⟨text⟩ (unique_hooksOK _ _ _) hr hx).1 with h | h
    · exact .inl h
    · exact .inr ⟨h.1, Nat.le_trans h.2 (Nat.mod_le _ _)⟩
  · rintro rfl
    exact C24_accepted_text_is_derivable (uniqueParser body start) ⟨text⟩ (unique_hooksOK _ _ _) hr hx
end

/-! ## Crates in the repository -/

/-- C94, example 11. -/
theorem C94_example11_by_hand : ∃ Q, readCrate (coreFiles ++ ex11UserFiles ++ [fileOf Texts.ex11Rules, fileOf Texts.ex11Parser]) = some Q ∧
    ComputesByHand Q ex11Parser (fun r => nameOf (variantOf (Files.ex11Enum.map utf8Of) (utf8Of (Files.ex11Name r)))) fun r => nameOf (utf8Of (Files.ex11Name r)) :=
  crateCheck_byHand (us := ex11User) read_coreFiles read_ex11UserFiles ex11UserSim (by intro r; cases r <;> decide) ex11Crate

/-- C95, example 11: the set of lines the hooked call keeps outlives the calls. -/
theorem C95_example11_sessions : ∃ Q, readCrate (coreFiles ++ ex11UserFiles ++ [fileOf Texts.ex11Rules, fileOf Texts.ex11Parser]) = some Q ∧
    ComputesSessions Q ex11Parser (fun r => nameOf (variantOf (Files.ex11Enum.map utf8Of) (utf8Of (Files.ex11Name r)))) fun r => nameOf (utf8Of (Files.ex11Name r)) :=
  crateCheck_session (us := ex11User) read_coreFiles read_ex11UserFiles ex11UserSim (by intro r; cases r <;> decide) ex11Crate

/-- C95, example 10, the two rules its tests call (examples/example_10_basic_bench/src/lib.rs:6-97): in a session of calls of the right recursive and of the left
recursive rule, in any order, at any positions of any text, each call says whether there is a '1' at its position, and ends after the longest run of '1's there; and every
session ends. -/
theorem C95_example10_runs_of_ones : ∃ Q, readCrate (coreFiles ++ userFiles ++ [fileOf Texts.ex10Rules, fileOf Texts.ex10Parser]) = some Q ∧
    ∀ (text : Bytes) (calls : List (Expr Ex10 × Nat)), (∀ d ∈ calls, d.1 = .varName .r_rr ∨ d.1 = .varNameLR [.r_lr] .r_lr) →
      (∀ n v h', runSession Q n (fun r => nameOf (variantOf (Files.ex10Enum.map utf8Of) (utf8Of (Files.ex10Name r)))) (fun r => nameOf (utf8Of (Files.ex10Name r))) text calls =
          .ok v h' → ∃ answers t, v = .tuple [.vec (answers.map encAnswer), t] ∧
            List.Forall₂ (fun d a => (a.1 = true ↔ OneAt ⟨text⟩ d.2) ∧ OnesEnd ⟨text⟩ d.2 a.2) calls answers) ∧
      ∃ N, (∃ (answers : List (Bool × Nat)) (t : Val), answers.length = calls.length ∧ ∀ n, N ≤ n → ∃ h',
          runSession Q n (fun r => nameOf (variantOf (Files.ex10Enum.map utf8Of) (utf8Of (Files.ex10Name r)))) (fun r => nameOf (utf8Of (Files.ex10Name r))) text calls =
            .ok (.tuple [.vec (answers.map encAnswer), t]) h') ∨
        ∀ n, N ≤ n → runSession Q n (fun r => nameOf (variantOf (Files.ex10Enum.map utf8Of) (utf8Of (Files.ex10Name r)))) (fun r => nameOf (utf8Of (Files.ex10Name r))) text calls =
          .panic := by
  obtain ⟨Q, hQ, hC⟩ := C95_example10_sessions
  refine ⟨Q, hQ, fun text calls hc => ?_⟩
  have hbh : ∀ d ∈ calls, ByHand d.1 := fun d hd => by rcases hc d hd with h | h <;> rw [h] <;> trivial
  refine ⟨fun n v h' hv => ?_, hC.ends (fun _ => plain_hooksOK _ _ _) Ex10.all Ex10.mem_all wf_ex10 text calls hbh fun d hd => by
    rcases hc d hd with h | h <;> rw [h] <;> trivial⟩
  obtain ⟨k, ⟨rs, st⟩, hx, rfl⟩ := hC.sound _ _ _ _ _ hbh hv
  refine ⟨rs, _, rfl, ?_⟩
  have := evalAll_each (P := ex10Parser) (ok := fun e => e = ex10RR ∨ e = ex10LRRef) (A := fun d a => (a.1 = true ↔ OneAt ⟨text⟩ d.2) ∧ OnesEnd ⟨text⟩ d.2 a.2)
    (fun {n e p b q st st'} hr he hx => C48_longest_run ⟨text⟩ (reached_mono (fun e he => ?_) hr) he hx) (l := calls) hc .init hx
  · exact this
  · rcases he with rfl | rfl
    · exact rfl
    · exact ⟨_, rfl, rfl⟩

/-- C95, example 5: sessions are those of the iterative reading. -/
theorem C95_example5_iteration : ∃ Q, readCrate (coreFiles ++ userFiles ++ [fileOf Texts.ex5Rules, fileOf Texts.ex5Parser]) = some Q ∧
    ∀ (text : Bytes) (calls : List (Expr Ex5 × Nat)), (∀ d ∈ calls, ByHand d.1 ∧ d.1.RefsOK ex5LR) →
      (∀ n v h', runSession Q n (fun r => nameOf (variantOf (Files.ex5Enum.map utf8Of) (utf8Of (Files.ex5Name r)))) (fun r => nameOf (utf8Of (Files.ex5Name r))) text calls = .ok v h' →
        ∃ answers t, v = .tuple [.vec (answers.map encAnswer), t] ∧
          List.Forall₂ (fun d a => Peg (iterBody Ex5.body ex5LR) ⟨text⟩ d.1.deLR d.2 a.1 a.2) calls answers) ∧
      ∀ answers : List (Bool × Nat), List.Forall₂ (fun d a => Peg (iterBody Ex5.body ex5LR) ⟨text⟩ d.1.deLR d.2 a.1 a.2 ∧ NoEmptyLoop Ex5.body d.1) calls answers →
        ∃ N, (∀ n, N ≤ n → ∃ t h', runSession Q n (fun r => nameOf (variantOf (Files.ex5Enum.map utf8Of) (utf8Of (Files.ex5Name r)))) (fun r => nameOf (utf8Of (Files.ex5Name r))) text calls =
            .ok (.tuple [.vec (answers.map encAnswer), t]) h') ∨
          ∀ n, N ≤ n → runSession Q n (fun r => nameOf (variantOf (Files.ex5Enum.map utf8Of) (utf8Of (Files.ex5Name r)))) (fun r => nameOf (utf8Of (Files.ex5Name r))) text calls = .panic := by
  obtain ⟨Q, hQ, hC⟩ := C95_example5_sessions
  exact ⟨Q, hQ, fun text calls hc => (hC.iteration (fun _ => plain_hooksOK _ _ _) (fun _ => plain_hooksCalm _ _ _) Ex5.all Ex5.mem_all wf_ex5 direct_ex5 text calls hc)⟩

/-- C95, example 6: sessions are those of the iterative reading. -/
theorem C95_example6_iteration : ∃ Q, readCrate (coreFiles ++ userFiles ++ [fileOf Texts.ex6Rules, fileOf Texts.ex6Parser]) = some Q ∧
    ∀ (text : Bytes) (calls : List (Expr Ex6 × Nat)), (∀ d ∈ calls, ByHand d.1 ∧ d.1.RefsOK ex6LR) →
      (∀ n v h', runSession Q n (fun r => nameOf (variantOf (Files.ex6Enum.map utf8Of) (utf8Of (Files.ex6Name r)))) (fun r => nameOf (utf8Of (Files.ex6Name r))) text calls = .ok v h' →
        ∃ answers t, v = .tuple [.vec (answers.map encAnswer), t] ∧
          List.Forall₂ (fun d a => Peg (iterBody Ex6.body ex6LR) ⟨text⟩ d.1.deLR d.2 a.1 a.2) calls answers) ∧
      ∀ answers : List (Bool × Nat), List.Forall₂ (fun d a => Peg (iterBody Ex6.body ex6LR) ⟨text⟩ d.1.deLR d.2 a.1 a.2 ∧ NoEmptyLoop Ex6.body d.1) calls answers →
        ∃ N, (∀ n, N ≤ n → ∃ t h', runSession Q n (fun r => nameOf (variantOf (Files.ex6Enum.map utf8Of) (utf8Of (Files.ex6Name r)))) (fun r => nameOf (utf8Of (Files.ex6Name r))) text calls =
            .ok (.tuple [.vec (answers.map encAnswer), t]) h') ∨
          ∀ n, N ≤ n → runSession Q n (fun r => nameOf (variantOf (Files.ex6Enum.map utf8Of) (utf8Of (Files.ex6Name r)))) (fun r => nameOf (utf8Of (Files.ex6Name r))) text calls = .panic := by
  obtain ⟨Q, hQ, hC⟩ := C95_example6_sessions
  exact ⟨Q, hQ, fun text calls hc => (hC.iteration (fun _ => plain_hooksOK _ _ _) (fun _ => plain_hooksCalm _ _ _) Ex6.all Ex6.mem_all wf_ex6 direct_ex6 text calls hc)⟩

/-- The hypotheses are met, non-trivially: the left recursive rule of example 5 called at 2 and then at 0 of `1-2-`: it ends at 3 both times. -/
example : let calls : List (Expr Ex5 × Nat) := [(.varNameLR [.r_expr] .r_expr, 2), (.varNameLR [.r_expr] .r_expr, 0)]
    (∀ d ∈ calls, ByHand d.1 ∧ d.1.RefsOK ex5LR) ∧
      List.Forall₂ (fun d a => Peg (iterBody Ex5.body ex5LR) ⟨bytesOf "1-2-"⟩ d.1.deLR d.2 a.1 a.2 ∧ NoEmptyLoop Ex5.body d.1) calls [(true, 3), (true, 3)] := by
  have key : ∀ p, (eval ex5Parser ⟨bytesOf "1-2-"⟩ 40 (.varNameLR [.r_expr] .r_expr) 0 p (St.new .r_grammar ())).view = some (true, 3) →
      Peg (iterBody Ex5.body ex5LR) ⟨bytesOf "1-2-"⟩ (Expr.varNameLR [.r_expr] .r_expr).deLR p true 3 := fun p h => by
    obtain ⟨st, hx⟩ := Out.view_eq h
    exact C22_direct_left_recursion_is_iteration ex5Parser _ ex5LR direct_ex5 .init (e := .varNameLR [.r_expr] .r_expr) ⟨_, rfl, rfl⟩ hx
  exact ⟨by simp [ByHand, Expr.RefsOK, ex5LR], .cons ⟨key 2 (by decide +kernel), trivial⟩ (.cons ⟨key 0 (by decide +kernel), trivial⟩ .nil)⟩

end PP.Mini
