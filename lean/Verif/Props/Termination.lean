import Verif.Lemmas.Term
import Verif.Lemmas.PegTotal
import Verif.Props.Peg

/-! # Termination: C07, C08, C50, C51

`WellFormed` (Spec/WellFormed.lean) is the usual PEG condition — no loop of ordinary references without consumption, no
repetition of something that may be empty — where references the generator marked as left recursive are exempt. -/
set_option linter.unusedSectionVars false
namespace PP
variable {R U : Type} [DecidableEq R]

/-! ## C07 -/

/-- C07: in a well-formed grammar every call, from every reachable state, terminates: there is one amount of fuel, depending
only on the expression, the source and the position, beyond which the call always returns or panics for one of the two
documented reasons. -/
theorem C07_calls_terminate (P : Parser R U) (src : Source) (hh : P.HooksOK src) (rules : List R)
    (hrules : ∀ r, r ∈ rules) (hwf : WellFormed P.body) {e : Expr R} (he : NoEmptyLoop P.body e) (p : Nat) :
    ∃ N, ∀ n, N ≤ n → ∀ k st, Reached P src Expr.Any k st →
      (∃ b q st', eval P src n e k p st = .ok (b, q, st')) ∨ eval P src n e k p st = .panic .keyOverflow ∨
      eval P src n e k p st = .panic .user := by
  obtain ⟨N, hN⟩ := eval_halts hh rules hrules hwf he p
  refine ⟨N, fun n hn k st hr => ?_⟩
  obtain ⟨D, hi, hk, hl, hpost⟩ := hr.post (lr := True) hh (fun _ => Or.inl trivial) (fun _ _ => Or.inl trivial) n
    (e := e) (Or.inl trivial) p
  have h1 := hN n hn k st ⟨D, hi, hk, hl⟩
  generalize eval P src n e k p st = x at h1 hpost
  cases x with
  | oof => exact absurd rfl h1
  | ok a => exact Or.inl ⟨a.1, a.2.1, a.2.2, rfl⟩
  | panic y => exact Or.inr (hpost.imp (fun h => by rw [h]) (fun h => by rw [h]))

/-- C07 for the entry point: `parse` of a well-formed grammar terminates on every source. -/
theorem C07_parse_terminates (P : Parser R U) (src : Source) (hh : P.HooksOK src) (rules : List R)
    (hrules : ∀ r, r ∈ rules) (hwf : WellFormed P.body) :
    ∃ N, ∀ n, N ≤ n → (∃ b q t, parse P src n = .ok (b, q, t)) ∨ parse P src n = .panic .keyOverflow ∨
      parse P src n = .panic .user := by
  obtain ⟨N, hN⟩ := eval_halts hh rules hrules hwf (e := .varName P.grammar) trivial 0
  have h1 := hN N (Nat.le_refl _) 0 _ good_new
  -- the state the rule evaluation ends in does not depend on the fuel
  have hsame : ∀ n, N ≤ n → eval P src n (.varName P.grammar) 0 0 (St.new P.grammar P.userInit) =
      eval P src N (.varName P.grammar) 0 0 (St.new P.grammar P.userInit) := fun n hn => eval_mono hn h1
  have key : ∃ M, ∀ n, M ≤ n → parse P src n ≠ .oof := by
    generalize hx : eval P src N (.varName P.grammar) 0 0 (St.new P.grammar P.userInit) = x at h1 hsame
    cases x with
    | oof => exact absurd rfl h1
    | panic y => exact ⟨N, fun n hn => by unfold parse; rw [hsame n hn]; simp⟩
    | ok a =>
      obtain ⟨b, q, st⟩ := a
      obtain ⟨ks, ts, hr, h0, hu⟩ := eval_new_root (lr := True) P src hh (fun _ => Or.inl trivial)
        (e := .varName P.grammar) (Or.inl trivial) hx
      obtain ⟨M, hM⟩ := clearFalse_spec P.grammar st.pub h0 rfl hu
      refine ⟨N + M, fun n hn => ?_⟩
      unfold parse
      rw [hsame n (by omega)]
      simp only [Out.bind_ok]
      exact Out.bind_no_oof ((hM n).1 (by omega)) (by simp)
  obtain ⟨M, hM⟩ := key
  refine ⟨M, fun n hn => ?_⟩
  have h2 := hM n hn
  generalize hx : parse P src n = x at h2
  cases x with
  | oof => exact absurd rfl h2
  | ok a => exact Or.inl ⟨a.1, a.2.1, a.2.2, rfl⟩
  | panic y =>
    rcases parse_panic (lr := True) P src hh (fun _ => Or.inl trivial) hx with rfl | rfl
    · exact Or.inr (Or.inl rfl)
    · exact Or.inr (Or.inr rfl)

/-- C07 for parsers without hooked calls. -/
theorem C07_plain_parse_terminates (body : R → Expr R) (g : R) (src : Source) (rules : List R)
    (hrules : ∀ r, r ∈ rules) (hwf : WellFormed body) :
    ∃ N, ∀ n, N ≤ n → (∃ b q t, parse (.plain body g) src n = .ok (b, q, t)) ∨
      parse (.plain body g) src n = .panic .keyOverflow := by
  obtain ⟨N, hN⟩ := C07_parse_terminates (.plain body g) src (plain_hooksOK _ _ _) rules hrules hwf
  refine ⟨N, fun n hn => ?_⟩
  rcases hN n hn with h | h | h
  · exact Or.inl h
  · exact Or.inr h
  · exfalso
    unfold parse at h
    generalize hy : eval (.plain body g) src n (.varName g) 0 0 (St.new g ()) = y at h
    cases y with
    | oof => simp [Parser.plain] at h hy; rw [hy] at h; cases h
    | panic z =>
      simp [Parser.plain] at h hy; rw [hy] at h
      cases h
      exact eval_noUser _ src (plain_hooksCalm _ _ _) n _ _ _ _ hy
    | ok a =>
      obtain ⟨b', q', st⟩ := a
      simp [Parser.plain] at h hy; rw [hy] at h
      simp only [Out.bind_ok] at h
      obtain ⟨ks, ts, hr, h0, hu⟩ := eval_new_root (lr := True) (.plain body g) src (plain_hooksOK _ _ _)
        (fun _ => Or.inl trivial) (e := .varName g) (Or.inl trivial) hy
      obtain ⟨M, hM⟩ := clearFalse_spec g st.pub h0 rfl hu
      have h2 := (hM n).2
      generalize hz : st.pub.clearFalse g n = z at h h2
      cases z with
      | oof => cases h
      | panic w => simp at h; subst h; cases h2
      | ok t => cases h

/-- C07, on the specification side: a well-formed grammar without left recursion has a PEG result for every expression at
every position (so C04-C06 apply everywhere). -/
theorem C07_peg_is_total (body : R → Expr R) (src : Source) (hb : ∀ r, (body r).Plain) (hwf : WellFormed body)
    (e : Expr R) (he : e.Plain) (hne : NoEmptyLoop body e) (p : Nat) : ∃ b q, Peg body src e p b q :=
  peg_total hb hwf he hne p

/-- The certificate check is a sound way to establish well-formedness. -/
theorem C07_certificate_sound {body : R → Expr R} {rules : List R} (hall : ∀ r, r ∈ rules) (nul order : List R)
    (h : certOK body rules (fun r => nul.contains r) (fun r => order.idxOf r) = true) : WellFormed body :=
  .ofCert hall h

/-! The grammars of the repository are well-formed: the DSL parser and all example parsers, six of which are left recursive. -/

theorem wf_dsl : WellFormed Dsl.body :=
  C07_certificate_sound Dsl.mem_all [.r_whitespace]
    [.r_alphabet_upper, .r_alphabet_lower, .r_num, .r_numnozero, .r_hexval, .r_spaces, .r_ascii,
    .r_apostrophe, .r_quotationmark, .r_left_angle_bracket, .r_right_angle_bracket, .r_left_bracket,
    .r_right_bracket, .r_assignment, .r_end_rule, .r_ampersand, .r_exclamation_mark, .r_plus, .r_star,
    .r_question_mark, .r_comma, .r_newline, .r_backslash, .r_hex, .r_whitespace, .r_inline, .r_specials,
    .r_var_name, .r_var_name_decl, .r_var_name_ref, .r_integer, .r_orderedchoicematchrange,
    .r_subexpression, .r_epsilon, .r_and_predicate, .r_not_predicate, .r_comment,
    .r_semantic_instructions, .r_hooked_call, .r_stringterminal, .r_terminal, .r_lhs, .r_nucleus,
    .r_rule, .r_one_or_more, .r_zero_or_more, .r_optional, .r_grammar, .r_atom, .r_sequence,
    .r_ordered_choice, .r_rhs]
    (by decide +kernel)

theorem wf_ex1 : WellFormed Ex1.body :=
  C07_certificate_sound Ex1.mem_all []
    [.r_addition, .r_subtraction, .r_onenine, .r_digit, .r_grammar, .r_integer, .r_expr]
    (by decide +kernel)

theorem wf_ex2 : WellFormed Ex2.body :=
  C07_certificate_sound Ex2.mem_all []
    [.r_a, .r_b, .r_grammar]
    (by decide +kernel)

theorem wf_ex3 : WellFormed Ex3.body :=
  C07_certificate_sound Ex3.mem_all [.r_sign]
    [.r_onenine, .r_digit, .r_fraction, .r_exponent, .r_sign, .r_addition, .r_subtraction,
    .r_multiplication, .r_division, .r_parentheses, .r_expr, .r_grammar, .r_integer, .r_number,
    .r_factor, .r_term]
    (by decide +kernel)

theorem wf_ex4 : WellFormed Ex4.body :=
  C07_certificate_sound Ex4.mem_all [.r_sign]
    [.r_onenine, .r_digit, .r_fraction, .r_exponent, .r_sign, .r_addition, .r_subtraction,
    .r_multiplication, .r_division, .r_parentheses, .r_expr, .r_grammar, .r_integer, .r_number,
    .r_factor, .r_power, .r_power_expr, .r_term]
    (by decide +kernel)

theorem wf_ex5 : WellFormed Ex5.body :=
  C07_certificate_sound Ex5.mem_all []
    [.r_num, .r_grammar, .r_expr]
    (by decide +kernel)

theorem wf_ex6 : WellFormed Ex6.body :=
  C07_certificate_sound Ex6.mem_all []
    [.r_num, .r_term, .r_grammar, .r_fact]
    (by decide +kernel)

theorem wf_ex7 : WellFormed Ex7.body :=
  C07_certificate_sound Ex7.mem_all []
    [.r_num, .r_intermediate, .r_grammar, .r_expr]
    (by decide +kernel)

theorem wf_ex8 : WellFormed Ex8.body :=
  C07_certificate_sound Ex8.mem_all []
    [.r_num, .r_test_indirect_three_level_b, .r_test_indirect_three_level_c, .r_grammar, .r_test_lr_num,
    .r_test_indirect_three_level_a]
    (by decide +kernel)

theorem wf_ex9 : WellFormed Ex9.body :=
  C07_certificate_sound Ex9.mem_all []
    [.r_num, .r_test_indirect_three_level_b, .r_test_indirect_three_level_c,
    .r_test_indirect_three_level_d, .r_test_indirect_three_level_e, .r_grammar, .r_test_lr_num,
    .r_test_indirect_three_level_a]
    (by decide +kernel)

theorem wf_ex10 : WellFormed Ex10.body :=
  C07_certificate_sound Ex10.mem_all []
    [.r_rr, .r_lr, .r_grammar]
    (by decide +kernel)

theorem wf_ex11 : WellFormed Ex11.body :=
  C07_certificate_sound Ex11.mem_all []
    [.r_alphabet_lower, .r_unique_line_matcher, .r_grammar]
    (by decide +kernel)

/-- C07 instance: example 3 (mutual left recursion through expr/term/factor) terminates on every source. -/
theorem C07_example3_terminates (src : Source) : ∃ N, ∀ n, N ≤ n →
    (∃ b q t, parse ex3Parser src n = .ok (b, q, t)) ∨ parse ex3Parser src n = .panic .keyOverflow :=
  C07_plain_parse_terminates Ex3.body .r_grammar src Ex3.all Ex3.mem_all wf_ex3

/-- ... and the other examples without hooks. -/
theorem C07_examples_terminate (src : Source) :
    (∃ N, ∀ n, N ≤ n → (∃ b q t, parse ex1Parser src n = .ok (b, q, t)) ∨ parse ex1Parser src n = .panic .keyOverflow) ∧
    (∃ N, ∀ n, N ≤ n → (∃ b q t, parse ex2Parser src n = .ok (b, q, t)) ∨ parse ex2Parser src n = .panic .keyOverflow) ∧
    (∃ N, ∀ n, N ≤ n → (∃ b q t, parse ex4Parser src n = .ok (b, q, t)) ∨ parse ex4Parser src n = .panic .keyOverflow) ∧
    (∃ N, ∀ n, N ≤ n → (∃ b q t, parse ex5Parser src n = .ok (b, q, t)) ∨ parse ex5Parser src n = .panic .keyOverflow) ∧
    (∃ N, ∀ n, N ≤ n → (∃ b q t, parse ex6Parser src n = .ok (b, q, t)) ∨ parse ex6Parser src n = .panic .keyOverflow) ∧
    (∃ N, ∀ n, N ≤ n → (∃ b q t, parse ex7Parser src n = .ok (b, q, t)) ∨ parse ex7Parser src n = .panic .keyOverflow) ∧
    (∃ N, ∀ n, N ≤ n → (∃ b q t, parse ex8Parser src n = .ok (b, q, t)) ∨ parse ex8Parser src n = .panic .keyOverflow) ∧
    (∃ N, ∀ n, N ≤ n → (∃ b q t, parse ex9Parser src n = .ok (b, q, t)) ∨ parse ex9Parser src n = .panic .keyOverflow) ∧
    (∃ N, ∀ n, N ≤ n → (∃ b q t, parse ex10Parser src n = .ok (b, q, t)) ∨ parse ex10Parser src n = .panic .keyOverflow) :=
  ⟨C07_plain_parse_terminates _ _ src Ex1.all Ex1.mem_all wf_ex1,
   C07_plain_parse_terminates _ _ src Ex2.all Ex2.mem_all wf_ex2,
   C07_plain_parse_terminates _ _ src Ex4.all Ex4.mem_all wf_ex4,
   C07_plain_parse_terminates _ _ src Ex5.all Ex5.mem_all wf_ex5,
   C07_plain_parse_terminates _ _ src Ex6.all Ex6.mem_all wf_ex6,
   C07_plain_parse_terminates _ _ src Ex7.all Ex7.mem_all wf_ex7,
   C07_plain_parse_terminates _ _ src Ex8.all Ex8.mem_all wf_ex8,
   C07_plain_parse_terminates _ _ src Ex9.all Ex9.mem_all wf_ex9,
   C07_plain_parse_terminates _ _ src Ex10.all Ex10.mem_all wf_ex10⟩

/-- Not vacuous: the classic offenders are rejected by the condition.  `A = A` (ordinary reference) ... -/
example : ¬ WellFormed (fun _ : Unit => Expr.varName ()) := fun h =>
  h.noCycle.induction (C := fun _ => False) () fun y ih => ih y .ref
/-- ... and `A = ('a'?)*`. -/
example : ¬ WellFormed (fun _ : Unit => Expr.zeroOrMore (.optional (.terminal 97))) := fun h => (h.noLoop ()).1 .opt

/-! ## C08 -/

/-- C08: the DSL parser terminates on every source: it returns a result, or panics because the arena ran out of its 2^32
keys. -/
theorem C08_dsl_parse_terminates (src : Source) : ∃ N, ∀ n, N ≤ n →
    (∃ b q t, parse dslParser src n = .ok (b, q, t)) ∨ parse dslParser src n = .panic .keyOverflow :=
  C07_plain_parse_terminates Dsl.body .r_grammar src Dsl.all Dsl.mem_all wf_dsl

/-- C08: on sources below 82 million bytes the recognition phase of the DSL parser (everything but the copying of the tree
by `clear_false`) returns a result, for every start rule; and the result is the PEG one. -/
theorem C08_dsl_recognition_total (src : Source) (hsmall : src.len < 82000000) (r : Dsl) {p : Nat} (hp : p ≤ src.len) :
    ∃ b q, Peg Dsl.body src (.varName r) p b q ∧ ∃ N, ∀ n, N ≤ n →
      ∃ st', eval dslParser src n (.varName r) 0 p (St.new .r_grammar ()) = .ok (b, q, st') := by
  have hcard : Dsl.all.length * (src.len + 1) < 2 ^ 32 := by
    rw [show Dsl.all.length = 52 from rfl]; omega
  obtain ⟨b, q, h⟩ := C07_peg_is_total Dsl.body src dsl_plain wf_dsl (.varName r) trivial trivial p
  exact ⟨b, q, h, C05_peg_result_is_computed_small Dsl.body .r_grammar src dsl_plain Dsl.all Dsl.mem_all hcard
    (e := .varName r) trivial hp h⟩

/-! ## C50 -/

/-- C50: in a well-formed grammar, started at `pos` from any reachable state, with any involved set and any previously
active recursion, the growth loop evaluates the rule body at most `(length - pos) + 1` times: with that many iterations of
loop fuel (`n`) it never runs out, however large the fuel `m` of the body evaluations. -/
theorem C50_growth_iterations_bounded (P : Parser R U) (src : Source) (hh : P.HooksOK src) (rules : List R)
    (hrules : ∀ r, r ∈ rules) (hwf : WellFormed P.body) (r : R) (pos : Nat) :
    ∃ m0, ∀ m, m0 ≤ m → ∀ k st, Reached P src Expr.Any k st → ∀ (inv : List R) (prev : Option (R × Nat)) (n : Nat),
      (src.len - pos) + 1 ≤ n →
      growthFunction n inv r (eval P src m (P.body r)) prev k pos (st.setActive (some (r, pos))) ≠ .oof := by
  obtain ⟨N, hN⟩ := eval_halts hh rules hrules hwf (hwf.noLoop r) pos
  refine ⟨N, fun m hm k st hr inv prev n hn => ?_⟩
  have hg : Good True P src k st := hr.inv hh (fun _ => Or.inl trivial) (fun _ _ => Or.inl trivial)
  refine growth_no_oof hh (B := max src.len pos) (Nat.le_max_left _ _) [] [] (w := 0)
    (fun k' st' hg _ => hN m hm k' st' hg) hg (by simp) ?_ prev
  omega

/-- C50 for an arbitrary rule body: whatever the body closure does, if it returns from every state and the ends the loop
looks at stay below `B`, then `B - pos + 1` iterations suffice.  Each iteration that continues ended strictly later than
the one before. -/
theorem C50_growth_iterations_bounded_any_body (func : PFn R U) (r : R) (B pos : Nat)
    (hret : ∀ k st, func k pos st ≠ .oof)
    (hB : ∀ k st b q st', func k pos st = .ok (b, q, st') → (growthPick st' r pos k b q).2.2 ≤ B)
    (inv : List R) (prev : Option (R × Nat)) (k n : Nat) (st : St R U) (hn : B - pos + 1 ≤ n) :
    growthFunction n inv r func prev k pos st ≠ .oof := by
  have loop : ∀ n (last : Bool × Nat) (lk ck : Nat) (st : St R U), B - last.2 + 1 ≤ n →
      growthLoop r func k pos prev n last lk ck st ≠ .oof := by
    intro n
    induction n with
    | zero => intros; omega
    | succ n ih =>
      intro last lk ck st hn
      unfold growthLoop
      refine Out.bind_no_oof (reinit_no_oof _ _ _) fun st1 _ => Out.bind_no_oof (hret _ _) ?_
      rintro ⟨b0, q0, st2⟩ hc
      have h1 := hB _ _ _ _ _ hc
      dsimp only
      generalize growthPick st2 r pos ck b0 q0 = x at h1
      obtain ⟨ck', b, q⟩ := x
      dsimp only at h1 ⊢
      refine Out.bind_no_oof (updateEntry_no_oof _ _ _ _ _) fun st3 _ => ?_
      split
      · exact Out.bind_no_oof (connect_no_oof _ _ _) (by simp)
      · next hcond =>
        refine Out.bind_no_oof (reserve_no_oof _ _) ?_
        rintro ⟨k', st4⟩ _
        simp only [Bool.or_eq_true, decide_eq_true_eq, not_or, Nat.not_le] at hcond
        exact ih _ _ _ _ (by dsimp only; omega)
  unfold growthFunction
  exact Out.bind_no_oof (reserve_no_oof _ _) fun _ _ => Out.bind_no_oof (updateEntry_no_oof _ _ _ _ _) fun _ _ =>
    Out.bind_no_oof (reserve_no_oof _ _) fun _ _ => loop n _ _ _ _ hn

/-- The bound is tight: `E = (E,'a')/'a'` on "aaa" at 0 needs 4 iterations. -/
example :
    (growthFunction 3 [Ex10.r_lr] .r_lr (eval ex10Parser ⟨[49, 49, 49]⟩ 30 (Ex10.body .r_lr)) none 0 0
      ((St.new .r_grammar ()).setActive (some (.r_lr, 0)))).view = none := by decide +kernel
example :
    (growthFunction 4 [Ex10.r_lr] .r_lr (eval ex10Parser ⟨[49, 49, 49]⟩ 30 (Ex10.body .r_lr)) none 0 0
      ((St.new .r_grammar ()).setActive (some (.r_lr, 0)))).view = some (true, 3) := by decide +kernel

/-! ## C51 -/

/-- C51: a left-recursive rule called while no left recursion is active never succeeds with an empty match, whatever its
body does. -/
theorem C51_left_recursion_never_matches_empty (P : Parser R U) (src : Source) (st : St R U) (hidle : st.cache.active = none)
    {n k p : Nat} {inv : List R} {r : R} {q : Nat} {st' : St R U}
    (hc : eval P src n (.varNameLR inv r) k p st = .ok (true, q, st')) : p < q := by
  have loop : ∀ (f : PFn R U) (prev : Option (R × Nat)) n (last : Bool × Nat) (lk ck : Nat) (st : St R U) q st',
      (last.1 = true → p < last.2) → p ≤ last.2 →
      growthLoop r f k p prev n last lk ck st = .ok (true, q, st') → p < q := by
    intro f prev n
    induction n with
    | zero => intro last lk ck st q st' _ _ h; cases h
    | succ n ih =>
      intro last lk ck st q st' h1 h2 h
      unfold growthLoop at h
      rw [Out.bind_eq_ok] at h
      obtain ⟨st1, _, h⟩ := h
      rw [Out.bind_eq_ok] at h
      obtain ⟨⟨b0, q0, st2⟩, _, h⟩ := h
      dsimp only at h
      generalize growthPick st2 r p ck b0 q0 = x at h
      obtain ⟨ck', b, q1⟩ := x
      dsimp only at h
      rw [Out.bind_eq_ok] at h
      obtain ⟨st3, _, h⟩ := h
      split at h
      · rw [Out.bind_eq_ok] at h
        obtain ⟨st4, _, h⟩ := h
        simp only [Out.ok.injEq, Prod.mk.injEq] at h
        obtain ⟨h3, rfl, _⟩ := h
        exact h1 h3
      · next hcond =>
        rw [Out.bind_eq_ok] at h
        obtain ⟨⟨k', st4⟩, _, h⟩ := h
        simp only [Bool.or_eq_true, decide_eq_true_eq, not_or, Nat.not_le] at hcond
        exact ih _ _ _ _ _ _ (fun _ => by dsimp only; omega) (by dsimp only; omega) h
  cases n with
  | zero => cases hc
  | succ n =>
    simp only [eval, varNameLRKernel, shouldGrow, hidle, Out.bind_ok, if_true, growthFunction] at hc
    rw [Out.bind_eq_ok] at hc
    obtain ⟨⟨k1, st1⟩, _, hc⟩ := hc
    rw [Out.bind_eq_ok] at hc
    obtain ⟨st2, _, hc⟩ := hc
    rw [Out.bind_eq_ok] at hc
    obtain ⟨⟨k2, st3⟩, _, hc⟩ := hc
    exact loop _ _ _ _ _ _ _ _ _ (by simp) (Nat.le_refl _) hc

/-- ... so a left-recursive rule with a nullable alternative fails where a PEG reader expects the empty match:
`A = (A,'a') / 'b'?` on "c" fails, on "b" matches. -/
def nullLR : Unit → Expr Unit := fun _ =>
  .orderedChoice (.subexpression (.sequence (.varNameLR [()] ()) (.terminal 97))) (.optional (.terminal 98))

theorem C51_nullable_left_recursion_fails :
    (eval (.plain nullLR ()) ⟨[99]⟩ 20 (.varNameLR [()] ()) 0 0 (St.new () ())).view = some (false, 0) ∧
    (eval (.plain nullLR ()) ⟨[99]⟩ 20 (.optional (.terminal 98)) 0 0 (St.new () ())).view = some (true, 0) ∧
    (eval (.plain nullLR ()) ⟨[98]⟩ 20 (.varNameLR [()] ()) 0 0 (St.new () ())).view = some (true, 1) := by
  decide +kernel

end PP
