import Verif.Lemmas.Reach
import Verif.Lemmas.Fuel

/-! # Steps that never run out of fuel; good call states -/
set_option linter.unusedSectionVars false
namespace PP
variable {R U : Type} [DecidableEq R]

theorem Out.bind_no_oof {α β : Type} {x : Out α} {f : α → Out β} (hx : x ≠ .oof)
    (hf : ∀ a, x = .ok a → f a ≠ .oof) : (x >>= f) ≠ .oof := by
  cases x with
  | oof => exact absurd rfl hx
  | panic p => simp
  | ok a => exact hf a rfl

theorem modify_no_oof (p : Publisher R) (k : Nat) (g : Node R → Node R) : p.modify k g ≠ .oof := by
  unfold Publisher.modify; split <;> simp

theorem connect_no_oof (st : St R U) (a b : Nat) : st.connect a b ≠ .oof := by
  refine Out.bind_no_oof ?_ (by simp)
  unfold Publisher.connect
  split
  · simp
  · exact modify_no_oof _ _ _

theorem connectIf_no_oof (st : St R U) (a b : Nat) : st.connectIfNotConnected a b ≠ .oof :=
  Out.bind_no_oof (modify_no_oof _ _ _) (by simp)

theorem reserve_no_oof (st : St R U) (r : R) : st.reserve r ≠ .oof := by
  refine Out.bind_no_oof ?_ (by simp)
  unfold Publisher.addNode; split <;> simp

theorem updateEntry_no_oof (st : St R U) (k : Nat) (b : Bool) (p q : Nat) : st.updateEntry k b p q ≠ .oof :=
  Out.bind_no_oof (modify_no_oof _ _ _) fun _ _ => Out.bind_no_oof (modify_no_oof _ _ _) fun _ _ =>
    Out.bind_no_oof (modify_no_oof _ _ _) (by simp)

theorem reinit_no_oof (st : St R U) (r : R) (p : Nat) : st.reinitializeEvalSet r p ≠ .oof := by
  refine Out.bind_no_oof ?_ (by simp)
  unfold Cache.reinitializeEvalSet; split <;> simp

theorem remove_no_oof (st : St R U) (h : R × Nat) (r : R) : st.removeFromEvalSet h r ≠ .oof := by
  refine Out.bind_no_oof ?_ (by simp)
  unfold Cache.removeFromEvalSet; split <;> simp

/-- A state in which a call with this parent key is legitimate. -/
def Good (lr : Prop) (P : Parser R U) (src : Source) (parent : Nat) (st : St R U) : Prop :=
  ∃ D, Inv lr P.body src D st ∧ ¬ D parent ∧ parent < st.pub.nodes.length

variable {lr : Prop} {P : Parser R U} {src : Source}

theorem Good.reserve {parent : Nat} {st : St R U} (h : Good lr P src parent st) {r : R} {k st'}
    (hr : st.reserve r = .ok (k, st')) : Good lr P src k st' := by
  obtain ⟨D, hi, hk, hl⟩ := h
  rcases reserve_cases st r with h | h
  · rw [h] at hr; cases hr
  · rw [h] at hr
    injection hr with hr
    obtain ⟨rfl, rfl⟩ := Prod.mk.inj hr
    exact ⟨D, hi.reserve r, fun h => by have := hi.bound _ h; omega, by simp⟩

/-- Calls keep states good and obey the run relation. -/
theorem Good.next (hh : P.HooksOK src) (hbody : ∀ r, lr ∨ (P.body r).LRFree) {parent : Nat} {st : St R U}
    (h : Good lr P src parent st) {n : Nat} {e : Expr R} (he : lr ∨ e.LRFree) {p b q st'}
    (hc : eval P src n e parent p st = .ok (b, q, st')) :
    Good lr P src parent st' ∧ ∃ ts, Run lr P.body src e p b q ts := by
  obtain ⟨D, hi, hk, hl⟩ := h
  have := eval_ctr P src hh hbody n e he D st parent p hi hk hl
  rw [hc] at this
  obtain ⟨D', ks, ts, h1, h2, h3, h4, h5, h6⟩ := this
  refine ⟨⟨D', h1, fun h => ?_, Nat.lt_of_lt_of_le hl h2.len⟩, ts, h6⟩
  rcases h2.fresh _ h with h | h
  · exact hk h
  · omega

theorem good_new : Good lr P src 0 (St.new P.grammar P.userInit) :=
  ⟨_, inv_new _ _, id, by simp [St.new, Publisher.new]⟩

theorem Expr.Plain.lrFree {e : Expr R} (h : e.Plain) : e.LRFree := by
  induction e <;> simp_all [Expr.Plain, Expr.LRFree]

/-- The answer of a memoised rule call is the memo entry or the body's answer. -/
theorem varName_no_oof {n : Nat} {r : R} {parent p : Nat} {st : St R U} (hg : Good lr P src parent st)
    (h : ∀ parent st, Good lr P src parent st → eval P src n (P.body r) parent p st ≠ .oof) :
    eval P src (n + 1) (.varName r) parent p st ≠ .oof := by
  simp only [eval, varNameKernel]
  split
  · exact Out.bind_no_oof (connect_no_oof _ _ _) (by simp)
  · refine Out.bind_no_oof (reserve_no_oof _ _) ?_
    rintro ⟨ck, st1⟩ h1
    refine Out.bind_no_oof (h _ _ (hg.reserve h1)) ?_
    rintro ⟨b, q, st2⟩ _
    exact Out.bind_no_oof (updateEntry_no_oof _ _ _ _ _) fun _ _ =>
      Out.bind_no_oof (connect_no_oof _ _ _) (by simp)

end PP
