import Verif.Lemmas.Borrow
import Verif.Lemmas.NoBorrow

/-! # C67: borrows of the shared context never conflict -/
set_option linter.unusedSectionVars false
namespace PP
variable {R U : Type} [DecidableEq R]

/-- C67: with hooks that hold no borrow while calling back, no borrow of the context ever conflicts with another: every call at
free cells ends with free cells or with a panic that is not a borrow panic. -/
theorem C67_no_borrow_conflict {P : Parser R (U × Cells)} {src : Source} (hP : P.Polite src) (n : Nat) (e : Expr R) (k p : Nat)
    {st : StB R U} (hst : st.user.2 = .new) :
    evalB P src n e k p st ≠ .panic .borrow ∧
      ∀ b q st', evalB P src n e k p st = .ok (b, q, st') → st'.user.2 = .new := by
  obtain ⟨c, t, u, f⟩ := st
  have hst : f = .new := hst
  subst hst
  have h := sim_eval hP n e k p ⟨c, t, u⟩
  change evalB P src n e k p ⟨c, t, u, .new⟩ = _ at h
  rw [h]
  have hn := NB.eval_noBorrow P.strip src n e k p ⟨c, t, u⟩
  cases hx : eval P.strip src n e k p ⟨c, t, u⟩ with
  | oof => exact ⟨by simp [upRes], by simp [upRes]⟩
  | panic x => exact ⟨by rw [hx] at hn; simpa [upRes] using hn, by simp [upRes]⟩
  | ok x =>
    refine ⟨by simp [upRes], ?_⟩
    intro b q st' h'
    simp only [upRes, Out.ok.injEq, Prod.mk.injEq] at h'
    obtain ⟨_, _, rfl⟩ := h'
    rfl

/-- C67: a parse with borrow checking is the same as one without. -/
theorem C67_parse_without_flags {P : Parser R (U × Cells)} {src : Source} (hP : P.Polite src) (n : Nat) :
    parseB P src n = parse P.strip src n := by
  unfold parseB parse
  have h := sim_eval hP n (.varName P.grammar) 0 0 (St.new P.grammar P.userInit.1)
  have e : up (St.new P.grammar P.userInit.1) = St.new P.grammar P.userInit := by
    have := hP.init
    rcases hu : P.userInit with ⟨u, c⟩
    rw [hu] at this
    cases this
    rfl
  rw [e] at h
  rw [h]
  change _ = (eval P.strip src n (.varName P.grammar) 0 0 (St.new P.grammar P.userInit.1) >>= _)
  cases eval P.strip src n (.varName P.grammar) 0 0 (St.new P.grammar P.userInit.1) with
  | oof => rfl
  | panic x => rfl
  | ok x => rfl

/-- C67: a whole parse never panics on a borrow. -/
theorem C67_parse_no_borrow_panic {P : Parser R (U × Cells)} {src : Source} (hP : P.Polite src) (n : Nat) :
    parseB P src n ≠ .panic .borrow := by
  rw [C67_parse_without_flags hP]
  exact NB.parse_noBorrow P.strip src n

/-- C67, negative: whoever calls back into a rule while any borrow of the context is alive — shared or exclusive — panics, for every
rule, position and memo table. -/
theorem C67_rule_call_under_a_borrow_panics (P : Parser R (U × Cells)) (src : Source) (n : Nat) (r : R) (k p : Nat) {st : StB R U}
    (h : st.user.2.context ≠ .free) :
    evalB P src (n + 1) (.varName r) k p st = .panic .borrow ∧
      ∀ inv, evalB P src (n + 1) (.varNameLR inv r) k p st = .panic .borrow := by
  obtain ⟨c, t, u, x, y⟩ := st
  refine ⟨?_, fun inv => ?_⟩
  · show varNameKernelB r _ k p _ = _
    unfold varNameKernelB borrowRef
    cases x with
    | free => exact absurd rfl h
    | exclusive => rfl
    | shared m =>
      simp only [Flag.read, Out.bind_ok, setContextFlag]
      cases c.check r p with
      | none => rfl
      | some m => rfl
  · show varNameLRKernelB n inv r _ k p _ = _
    unfold varNameLRKernelB shouldGrowB borrowMut
    cases x with
    | free => exact absurd rfl h
    | exclusive => rfl
    | shared m => rfl

/-! ## Hooks that keep the rules -/

theorem tidy_polite : ∀ h : HookProg U, (h.tidy .new).Polite
  | .ret _ _ _ => rfl
  | .panic => trivial
  | .call _ _ k => ⟨rfl, fun _ b q => tidy_polite (k _ b q)⟩

theorem tidy_strip : ∀ h : HookProg U, (h.tidy .new).strip = h
  | .ret _ _ _ => rfl
  | .panic => rfl
  | .call u p k => congrArg (HookProg.call u p) (funext fun _ => funext fun _ => funext fun _ => tidy_strip (k _ _ _))

/-- C67: any parser whose hooks use the user state only between calls is free of borrow conflicts, and behaves as the parser of the
other theorems, in which there are no flags. -/
theorem C67_tidy_hooks (P : Parser R U) (src : Source) (n : Nat) : P.tidy.Polite src ∧ parseB P.tidy src n = parse P src n := by
  have hp : P.tidy.Polite src := ⟨rfl, fun _ _ _ => tidy_polite _⟩
  refine ⟨hp, (C67_parse_without_flags hp n).trans ?_⟩
  have e : P.tidy.strip = P := by
    cases P
    simp only [Parser.strip, Parser.tidy, Parser.mk.injEq, true_and, and_true]
    funext _ _ _ _
    exact tidy_strip _
  rw [e]

/-- C67: example 11's hook takes its borrow of the user state after its closure has returned and drops it before it returns, so its
parser never hits a borrow conflict and behaves as the one without flags. -/
theorem C67_example11 (src : Source) (n : Nat) : ex11ParserB.Polite src ∧ parseB ex11ParserB src n = parse ex11Parser src n := by
  have hp : ex11ParserB.Polite src := by
    refine ⟨rfl, fun name pos u => ⟨rfl, fun u' b q => ?_⟩⟩
    unfold uniqueLineAfterB
    split
    · split
      · dsimp only [Cells.new, Flag.lock]
        split <;> rfl
      · trivial
    · rfl
  refine ⟨hp, (C67_parse_without_flags hp n).trans ?_⟩
  have e : ex11ParserB.strip = ex11Parser := by
    simp only [Parser.strip, ex11ParserB, ex11Parser, Parser.mk.injEq, true_and, and_true]
    funext _ src pos u
    refine congrArg (HookProg.call u pos) (funext fun u' => funext fun b => funext fun q => ?_)
    unfold uniqueLineAfterB uniqueLineAfter
    cases b with
    | false => rfl
    | true =>
      simp only [if_true]
      cases src.getString pos q with
      | oof => rfl
      | panic => rfl
      | ok o =>
        cases o with
        | none => rfl
        | some l =>
          dsimp only [Cells.new, Flag.lock]
          split <;> rfl
  rw [e]

/-- C67, negative: if the user state is still borrowed when example 11's hook inserts its line, the hook panics. -/
theorem C67_example11_held_user_state (src : Source) (pos q : Nat) (u : List (List UInt8) × Cells) (h : u.2.user ≠ .free) :
    uniqueLineAfterB src pos u true q = .panic := by
  unfold uniqueLineAfterB
  simp only [if_true]
  split
  · cases hu : u.2.user with
    | free => exact absurd hu h
    | shared n => rfl
    | exclusive => rfl
  · rfl

/-! ## Examples -/

/-- A hook that keeps the context borrowed while it calls its closure. -/
def rudeHook (u : Unit × Cells) (pos : Nat) : HookProg (Unit × Cells) :=
  .call (u.1, { u.2 with context := .shared 0 }) pos fun u b q => .ret (u.1, .new) b q

example : ¬ (rudeHook ((), .new) 0).Polite := fun h => nomatch h.1

/-- A grammar with a hook around a rule reference, and the hook above. -/
def rudeParser : Parser Bool (Unit × Cells) where
  body r := if r then .hooked "rude" (.varName false) else .terminal 97
  grammar := true
  hook _ _ pos u := rudeHook u pos
  userInit := ((), .new)

/-- With it the parse ends in a borrow panic. -/
example : parseB rudeParser ⟨bytesOf "ab"⟩ 100 = .panic .borrow := by decide +kernel

/-- The grammar of example 11 would survive even that hook: what it wraps refers to no rule (the alphabet is inlined). -/
example : (match parseB (R := Ex11) { body := Ex11.body, grammar := .r_grammar, hook := fun _ _ pos u => rudeHook u pos, userInit := ((), .new) }
    ⟨bytesOf "ab\n"⟩ 100 with | .ok (b, q, _) => some (b, q) | _ => none) = some (true, 3) := by decide +kernel

/-- Its own hook. -/
example : (match parseB ex11ParserB ⟨bytesOf "ab\n"⟩ 100 with | .ok (b, q, _) => some (b, q) | _ => none) = some (true, 3) := by
  decide +kernel

end PP
