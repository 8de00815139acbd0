import Verif.Spec.Calls

/-! # Without panicking hooks there is no user panic -/
set_option linter.unusedSectionVars false
namespace PP
variable {R U : Type} [DecidableEq R]

/-- The closure raises no user panic. -/
def NoUser (f : PFn R U) : Prop := ∀ k p st, f k p st ≠ .panic .user

theorem Out.bind_ne {α β : Type} {x : Out α} {f : α → Out β} (hx : x ≠ .panic .user)
    (hf : ∀ a, f a ≠ .panic .user) : (x >>= f) ≠ .panic .user := by
  cases x with
  | oof => simp
  | panic p => simp at hx ⊢; exact hx
  | ok a => exact hf a

theorem modify_ne (p : Publisher R) (k : Nat) (g : Node R → Node R) : p.modify k g ≠ .panic .user := by
  unfold Publisher.modify; split <;> simp

theorem connect_ne (st : St R U) (a b : Nat) : st.connect a b ≠ .panic .user := by
  refine Out.bind_ne ?_ (by simp)
  unfold Publisher.connect
  split
  · simp
  · exact modify_ne _ _ _

theorem connectIf_ne (st : St R U) (a b : Nat) : st.connectIfNotConnected a b ≠ .panic .user :=
  Out.bind_ne (modify_ne _ _ _) (by simp)

theorem reserve_ne (st : St R U) (r : R) : st.reserve r ≠ .panic .user := by
  refine Out.bind_ne ?_ (by simp)
  unfold Publisher.addNode; split <;> simp

theorem updateEntry_ne (st : St R U) (k : Nat) (b : Bool) (p q : Nat) : st.updateEntry k b p q ≠ .panic .user :=
  Out.bind_ne (modify_ne _ _ _) fun _ => Out.bind_ne (modify_ne _ _ _) fun _ => Out.bind_ne (modify_ne _ _ _) (by simp)

theorem reinit_ne (st : St R U) (r : R) (p : Nat) : st.reinitializeEvalSet r p ≠ .panic .user := by
  refine Out.bind_ne ?_ (by simp)
  unfold Cache.reinitializeEvalSet; split <;> simp

theorem remove_ne (st : St R U) (h : R × Nat) (r : R) : st.removeFromEvalSet h r ≠ .panic .user := by
  refine Out.bind_ne ?_ (by simp)
  unfold Cache.removeFromEvalSet; split <;> simp

theorem NoUser.loop {f : PFn R U} (hf : NoUser f) (parent : Nat) : ∀ n p st, repeatLoop f parent n p st ≠ .panic .user := by
  intro n
  induction n with
  | zero => intro p st; simp [repeatLoop]
  | succ n ih =>
    intro p st
    unfold repeatLoop
    refine Out.bind_ne (hf _ _ _) ?_
    rintro ⟨b, q, st'⟩
    dsimp only
    split
    · simp
    · exact ih _ _

theorem NoUser.varName {f : PFn R U} (hf : NoUser f) (r : R) : NoUser (varNameKernel r f) := by
  intro k p st
  unfold varNameKernel
  split
  · exact Out.bind_ne (connect_ne _ _ _) (by simp)
  · refine Out.bind_ne (reserve_ne _ _) ?_
    rintro ⟨ck, st1⟩
    refine Out.bind_ne (hf _ _ _) ?_
    rintro ⟨b, q, st2⟩
    exact Out.bind_ne (updateEntry_ne _ _ _ _ _) fun _ => Out.bind_ne (connect_ne _ _ _) (by simp)

theorem NoUser.growth {f : PFn R U} (hf : NoUser f) (r : R) (parent p : Nat) (prev : Option (R × Nat)) :
    ∀ n last lk ck st, growthLoop r f parent p prev n last lk ck st ≠ .panic .user := by
  intro n
  induction n with
  | zero => intro last lk ck st; simp [growthLoop]
  | succ n ih =>
    intro last lk ck st
    unfold growthLoop
    refine Out.bind_ne (reinit_ne _ _ _) fun st1 => Out.bind_ne (hf _ _ _) ?_
    rintro ⟨b, q, st2⟩
    dsimp only
    refine Out.bind_ne (updateEntry_ne _ _ _ _ _) fun st3 => ?_
    split
    · exact Out.bind_ne (connect_ne _ _ _) (by simp)
    · refine Out.bind_ne (reserve_ne _ _) ?_
      rintro ⟨nk, st4⟩
      exact ih _ _ _ _

theorem NoUser.varNameLR {f : PFn R U} (hf : NoUser f) (n : Nat) (inv : List R) (r : R) :
    NoUser (varNameLRKernel n inv r f) := by
  intro k p st
  unfold varNameLRKernel
  refine Out.bind_ne ?_ ?_
  · unfold shouldGrow
    split
    · simp
    · split
      · simp
      · refine Out.bind_ne ?_ fun a => by split <;> simp
        unfold Cache.ruleInInvolvedSet; split <;> simp
  · rintro ⟨s, l, st1⟩
    dsimp only
    split
    · unfold growthFunction
      refine Out.bind_ne (reserve_ne _ _) ?_
      rintro ⟨lk, st2⟩
      refine Out.bind_ne (updateEntry_ne _ _ _ _ _) fun st3 => Out.bind_ne (reserve_ne _ _) ?_
      rintro ⟨ck, st4⟩
      exact hf.growth _ _ _ _ _ _ _ _ _
    · unfold lrInner
      split
      · simp
      · refine Out.bind_ne ?_ fun a => ?_
        · unfold Cache.ruleInEvalSet; split <;> simp
        · split
          · refine Out.bind_ne (reserve_ne _ _) ?_
            rintro ⟨ck, st2⟩
            refine Out.bind_ne (remove_ne _ _ _) fun st3 => Out.bind_ne (hf _ _ _) ?_
            rintro ⟨b, q, st4⟩
            exact Out.bind_ne (updateEntry_ne _ _ _ _ _) fun _ => Out.bind_ne (connect_ne _ _ _) (by simp)
          · split
            · exact Out.bind_ne (connectIf_ne _ _ _) (by simp)
            · simp

theorem NoUser.hook {f : PFn R U} (hf : NoUser f) (parent : Nat) : ∀ (prog : HookProg U), prog.Calm → ∀ st,
    runHook f parent prog st ≠ .panic .user := by
  intro prog hc
  induction hc with
  | ret => intro st; simp [runHook]
  | call _ ih =>
    intro st
    unfold runHook
    exact Out.bind_ne (hf _ _ _) fun a => ih _ _ _ _

theorem eval_noUser (P : Parser R U) (src : Source) (hc : P.HooksCalm src) : ∀ n e, NoUser (eval P src n e) := by
  intro n
  induction n with
  | zero => intro e k p st; simp [eval]
  | succ n ih =>
    intro e k p st
    cases e with
    | andPredicate e | notPredicate e | optional e | subexpression e =>
      refine Out.bind_ne (ih e _ _ _) fun ⟨b, q, st'⟩ => ?_
      dsimp only; split <;> simp
    | oneOrMore e =>
      refine Out.bind_ne (ih e _ _ _) fun ⟨b, q, st'⟩ => ?_
      dsimp only; split
      · simp
      · exact NoUser.loop (ih e) _ _ _ _
    | zeroOrMore e => exact NoUser.loop (ih e) _ _ _ _
    | orderedChoice a b =>
      refine Out.bind_ne (ih a _ _ _) fun ⟨b', q, st'⟩ => ?_
      dsimp only; split
      · simp
      · refine Out.bind_ne (ih b _ _ _) fun ⟨b', q, st'⟩ => ?_
        dsimp only; split <;> simp
    | sequence a b =>
      refine Out.bind_ne (ih a _ _ _) fun ⟨b', q, st'⟩ => ?_
      dsimp only; split
      · refine Out.bind_ne (ih b _ _ _) fun ⟨b', q, st'⟩ => ?_
        dsimp only; split <;> simp
      · simp
    | terminal c => simp [eval, liftPure]
    | stringTerminal d => simp [eval, liftPure]
    | matchRange lo hi => simp [eval, liftPure]
    | varName r => exact NoUser.varName (ih _) r _ _ _
    | varNameLR inv r => exact NoUser.varNameLR (ih _) n inv r _ _ _
    | inlined r => exact ih _ _ _ _
    | hooked name e => exact NoUser.hook (ih e) _ _ (hc name p st.user) _

end PP
