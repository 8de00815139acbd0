import Verif.Lemmas.Clear

/-! # What a whole parse returns -/
set_option linter.unusedSectionVars false
namespace PP
variable {R U : Type} [DecidableEq R] {lr : Prop}

/-- From the fresh state, through any expression, below the root. -/
theorem eval_new_post (P : Parser R U) (src : Source) (hh : P.HooksOK src) (hbody : ∀ r, lr ∨ (P.body r).LRFree)
    (n : Nat) (e : Expr R) (he : lr ∨ e.LRFree) (p : Nat) :
    Post lr P.body src (fun _ => False) (St.new P.grammar P.userInit) 0 (Run lr P.body src e p)
      (eval P src n e 0 p (St.new P.grammar P.userInit)) :=
  eval_ctr P src hh hbody n e he _ _ 0 p (inv_new _ _) id (by simp [St.new, Publisher.new])

/-- The root after a run from the fresh state. -/
theorem eval_new_root (P : Parser R U) (src : Source) (hh : P.HooksOK src) (hbody : ∀ r, lr ∨ (P.body r).LRFree)
    {n : Nat} {e : Expr R} (he : lr ∨ e.LRFree) {p b q} {st : St R U}
    (h : eval P src n e 0 p (St.new P.grammar P.userInit) = .ok (b, q, st)) :
    ∃ ks ts, Run lr P.body src e p b q ts ∧ st.pub.nodes[0]? = some ⟨0, P.grammar, 0, 0, true, ks⟩ ∧
      UnfL st.pub.nodes ks ts := by
  have := eval_new_post P src hh hbody n e he p
  rw [h] at this
  obtain ⟨D', ks, ts, h1, h2, h3, h4, h5, h6⟩ := this
  exact ⟨ks, ts, h6, by simpa using h2.par ⟨0, P.grammar, 0, 0, true, []⟩ rfl, h5⟩

/-- A successful `parse`. -/
theorem parse_spec (P : Parser R U) (src : Source) (hh : P.HooksOK src) (hbody : ∀ r, lr ∨ (P.body r).LRFree)
    {n : Nat} {b q} {t : Publisher R} (h : parse P src n = .ok (b, q, t)) :
    ∃ ts, Run lr P.body src (.varName P.grammar) 0 b q ts ∧ Cleaned P.grammar t (Tree.prune.pruneL ts) := by
  unfold parse at h
  rw [Out.bind_eq_ok] at h
  obtain ⟨⟨b', q', st⟩, h1, h2⟩ := h
  simp only at h2
  rw [Out.bind_eq_ok] at h2
  obtain ⟨t', h3, h4⟩ := h2
  injection h4 with h4
  obtain ⟨rfl, rfl, rfl⟩ : b' = b ∧ q' = q ∧ t' = t := by simpa using h4
  obtain ⟨ks, ts, hr, h0, hu⟩ := eval_new_root P src hh hbody (e := .varName P.grammar) (Or.inr trivial) h1
  refine ⟨ts, hr, ?_⟩
  obtain ⟨N, hN⟩ := clearFalse_spec P.grammar st.pub h0 rfl hu
  have := (hN n).2
  rw [h3] at this
  exact this

/-- The panics of `parse`. -/
theorem parse_panic (P : Parser R U) (src : Source) (hh : P.HooksOK src) (hbody : ∀ r, lr ∨ (P.body r).LRFree)
    {n : Nat} {x : Panic} (h : parse P src n = .panic x) : x = .keyOverflow ∨ x = .user := by
  unfold parse at h
  have hp := eval_new_post P src hh hbody n (.varName P.grammar) (Or.inr trivial) 0
  generalize hx : eval P src n (.varName P.grammar) 0 0 (St.new P.grammar P.userInit) = y at h hp
  cases y with
  | oof => cases h
  | panic z => simp at h; subst h; exact hp
  | ok a =>
    obtain ⟨b, q, st⟩ := a
    simp only [Out.bind_ok] at h
    obtain ⟨ks, ts, hr, h0, hu⟩ := eval_new_root P src hh hbody (e := .varName P.grammar) (Or.inr trivial) hx
    obtain ⟨N, hN⟩ := clearFalse_spec P.grammar st.pub h0 rfl hu
    have h2 := (hN n).2
    generalize hz : st.pub.clearFalse P.grammar n = z at h h2
    cases z with
    | oof => cases h
    | panic w => simp at h; subst h; exact Or.inl h2
    | ok t => cases h

end PP
