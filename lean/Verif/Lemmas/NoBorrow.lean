import Verif.Spec.Calls

/-! # The code without flags raises no borrow panic -/
set_option linter.unusedSectionVars false
namespace PP.NB
open PP
variable {R U : Type} [DecidableEq R]

/-- The closure raises no borrow panic. -/
def NoBorrow (f : PFn R U) : Prop := ∀ k p st, f k p st ≠ .panic .borrow

theorem bind_ne {α β : Type} {x : Out α} {f : α → Out β} (hx : x ≠ .panic .borrow)
    (hf : ∀ a, f a ≠ .panic .borrow) : (x >>= f) ≠ .panic .borrow := by
  cases x with
  | oof => simp
  | panic p => simp at hx ⊢; exact hx
  | ok a => exact hf a

theorem modify_ne (p : Publisher R) (k : Nat) (g : Node R → Node R) : p.modify k g ≠ .panic .borrow := by
  unfold Publisher.modify; split <;> simp

theorem connect_ne (st : St R U) (a b : Nat) : st.connect a b ≠ .panic .borrow := by
  refine bind_ne ?_ (by simp)
  unfold Publisher.connect
  split
  · simp
  · exact modify_ne _ _ _

theorem connectIf_ne (st : St R U) (a b : Nat) : st.connectIfNotConnected a b ≠ .panic .borrow :=
  bind_ne (modify_ne _ _ _) (by simp)

theorem reserve_ne (st : St R U) (r : R) : st.reserve r ≠ .panic .borrow := by
  refine bind_ne ?_ (by simp)
  unfold Publisher.addNode; split <;> simp

theorem updateEntry_ne (st : St R U) (k : Nat) (b : Bool) (p q : Nat) : st.updateEntry k b p q ≠ .panic .borrow :=
  bind_ne (modify_ne _ _ _) fun _ => bind_ne (modify_ne _ _ _) fun _ => bind_ne (modify_ne _ _ _) (by simp)

theorem reinit_ne (st : St R U) (r : R) (p : Nat) : st.reinitializeEvalSet r p ≠ .panic .borrow := by
  refine bind_ne ?_ (by simp)
  unfold Cache.reinitializeEvalSet; split <;> simp

theorem remove_ne (st : St R U) (h : R × Nat) (r : R) : st.removeFromEvalSet h r ≠ .panic .borrow := by
  refine bind_ne ?_ (by simp)
  unfold Cache.removeFromEvalSet; split <;> simp

theorem NoBorrow.loop {f : PFn R U} (hf : NoBorrow f) (parent : Nat) : ∀ n p st, repeatLoop f parent n p st ≠ .panic .borrow := by
  intro n
  induction n with
  | zero => intro p st; simp [repeatLoop]
  | succ n ih =>
    intro p st
    unfold repeatLoop
    refine bind_ne (hf _ _ _) ?_
    rintro ⟨b, q, st'⟩
    dsimp only
    split
    · simp
    · exact ih _ _

theorem NoBorrow.varName {f : PFn R U} (hf : NoBorrow f) (r : R) : NoBorrow (varNameKernel r f) := by
  intro k p st
  unfold varNameKernel
  split
  · exact bind_ne (connect_ne _ _ _) (by simp)
  · refine bind_ne (reserve_ne _ _) ?_
    rintro ⟨ck, st1⟩
    refine bind_ne (hf _ _ _) ?_
    rintro ⟨b, q, st2⟩
    exact bind_ne (updateEntry_ne _ _ _ _ _) fun _ => bind_ne (connect_ne _ _ _) (by simp)

theorem NoBorrow.growth {f : PFn R U} (hf : NoBorrow f) (r : R) (parent p : Nat) (prev : Option (R × Nat)) :
    ∀ n last lk ck st, growthLoop r f parent p prev n last lk ck st ≠ .panic .borrow := by
  intro n
  induction n with
  | zero => intro last lk ck st; simp [growthLoop]
  | succ n ih =>
    intro last lk ck st
    unfold growthLoop
    refine bind_ne (reinit_ne _ _ _) fun st1 => bind_ne (hf _ _ _) ?_
    rintro ⟨b, q, st2⟩
    dsimp only
    refine bind_ne (updateEntry_ne _ _ _ _ _) fun st3 => ?_
    split
    · exact bind_ne (connect_ne _ _ _) (by simp)
    · refine bind_ne (reserve_ne _ _) ?_
      rintro ⟨nk, st4⟩
      exact ih _ _ _ _

theorem NoBorrow.varNameLR {f : PFn R U} (hf : NoBorrow f) (n : Nat) (inv : List R) (r : R) :
    NoBorrow (varNameLRKernel n inv r f) := by
  intro k p st
  unfold varNameLRKernel
  refine bind_ne ?_ ?_
  · unfold shouldGrow
    split
    · simp
    · split
      · simp
      · refine bind_ne ?_ fun a => by split <;> simp
        unfold Cache.ruleInInvolvedSet; split <;> simp
  · rintro ⟨s, l, st1⟩
    dsimp only
    split
    · unfold growthFunction
      refine bind_ne (reserve_ne _ _) ?_
      rintro ⟨lk, st2⟩
      refine bind_ne (updateEntry_ne _ _ _ _ _) fun st3 => bind_ne (reserve_ne _ _) ?_
      rintro ⟨ck, st4⟩
      exact hf.growth _ _ _ _ _ _ _ _ _
    · unfold lrInner
      split
      · simp
      · refine bind_ne ?_ fun a => ?_
        · unfold Cache.ruleInEvalSet; split <;> simp
        · split
          · refine bind_ne (reserve_ne _ _) ?_
            rintro ⟨ck, st2⟩
            refine bind_ne (remove_ne _ _ _) fun st3 => bind_ne (hf _ _ _) ?_
            rintro ⟨b, q, st4⟩
            exact bind_ne (updateEntry_ne _ _ _ _ _) fun _ => bind_ne (connect_ne _ _ _) (by simp)
          · split
            · exact bind_ne (connectIf_ne _ _ _) (by simp)
            · simp

theorem NoBorrow.hook {f : PFn R U} (hf : NoBorrow f) (parent : Nat) : ∀ (prog : HookProg U), ∀ st,
    runHook f parent prog st ≠ .panic .borrow := by
  intro prog
  induction prog with
  | ret => intro st; simp [runHook]
  | panic => intro st; simp [runHook]
  | call u p k ih =>
    intro st
    unfold runHook
    exact bind_ne (hf _ _ _) fun a => ih _ _ _ _

theorem eval_noBorrow (P : Parser R U) (src : Source) : ∀ n e, NoBorrow (eval P src n e) := by
  intro n
  induction n with
  | zero => intro e k p st; simp [eval]
  | succ n ih =>
    intro e k p st
    cases e with
    | andPredicate e | notPredicate e | optional e | subexpression e =>
      refine bind_ne (ih e _ _ _) fun ⟨b, q, st'⟩ => ?_
      dsimp only; split <;> simp
    | oneOrMore e =>
      refine bind_ne (ih e _ _ _) fun ⟨b, q, st'⟩ => ?_
      dsimp only; split
      · simp
      · exact NoBorrow.loop (ih e) _ _ _ _
    | zeroOrMore e => exact NoBorrow.loop (ih e) _ _ _ _
    | orderedChoice a b =>
      refine bind_ne (ih a _ _ _) fun ⟨b', q, st'⟩ => ?_
      dsimp only; split
      · simp
      · refine bind_ne (ih b _ _ _) fun ⟨b', q, st'⟩ => ?_
        dsimp only; split <;> simp
    | sequence a b =>
      refine bind_ne (ih a _ _ _) fun ⟨b', q, st'⟩ => ?_
      dsimp only; split
      · refine bind_ne (ih b _ _ _) fun ⟨b', q, st'⟩ => ?_
        dsimp only; split <;> simp
      · simp
    | terminal c => simp [eval, liftPure]
    | stringTerminal d => simp [eval, liftPure]
    | matchRange lo hi => simp [eval, liftPure]
    | varName r => exact NoBorrow.varName (ih _) r _ _ _
    | varNameLR inv r => exact NoBorrow.varNameLR (ih _) n inv r _ _ _
    | inlined r => exact ih _ _ _ _
    | hooked name e => exact NoBorrow.hook (ih e) _ _ _

theorem addNode_ne (t : Publisher R) (r : R) (a b : Nat) (x : Bool) : t.addNode r a b x ≠ .panic .borrow := by
  unfold Publisher.addNode; split <;> simp

theorem pconnect_ne (t : Publisher R) (a b : Nat) : t.connect a b ≠ .panic .borrow := by
  unfold Publisher.connect
  split
  · simp
  · exact modify_ne _ _ _

theorem getNode_ne (t : Publisher R) (i : Nat) : t.getNode i ≠ .panic .borrow := by
  unfold Publisher.getNode Out.ofOption; split <;> simp

theorem kernel_ne (self : Publisher R) : ∀ n t p i, self.clearFalseKernel n t p i ≠ .panic .borrow
  | 0, t, p, i => by simp [Publisher.clearFalseKernel]
  | n + 1, t, p, i => by
    unfold Publisher.clearFalseKernel
    refine bind_ne (getNode_ne _ _) fun node => ?_
    split
    · refine bind_ne (addNode_ne _ _ _ _ _) fun x => bind_ne (pconnect_ne _ _ _) fun t => ?_
      exact fold_ne (fun t i => kernel_ne self n t x.1 i) _ _
    · simp
where
  fold_ne {f : Publisher R → Nat → Out (Publisher R)} (hf : ∀ t i, f t i ≠ .panic .borrow) : ∀ (l : List Nat) t, l.foldlM f t ≠ .panic .borrow
    | [], t => by simp
    | a :: l, t => bind_ne (hf t a) fun t' => fold_ne hf l t'

theorem parse_noBorrow (P : Parser R U) (src : Source) (n : Nat) : parse P src n ≠ .panic .borrow := by
  unfold parse
  refine bind_ne (eval_noBorrow P src n _ _ _ _) fun x => bind_ne ?_ (by simp)
  unfold Publisher.clearFalse
  refine bind_ne (getNode_ne _ _) fun node => ?_
  split
  · refine bind_ne (addNode_ne _ _ _ _ _) fun x => ?_
    exact kernel_ne.fold_ne (fun t i => kernel_ne _ n t 0 i) _ _
  · simp

end PP.NB
