import Verif.Lemmas.Gen.Front

/-! # The generator's reader stops after the longest written grammar -/
namespace PP.Gen
section
variable {src : Source} {p q : Nat} {s t : Bytes}

theorem Ok.toPeg {e : Expr Dsl} {ts} (h : Ok src e p q ts) : Peg Dsl.body src e p true q := by
  obtain ⟨us, h, _⟩ := h
  exact h.peg

theorem dsl_total (e : Expr Dsl) (he : e.Plain) (hl : NoEmptyLoop Dsl.body e) (p : Nat) : ∃ b q, Peg Dsl.body src e p b q :=
  C07_peg_is_total Dsl.body src dsl_plain wf_dsl e he hl p

theorem peg_star_true {e : Expr Dsl} {b} (h : Peg Dsl.body src (.zeroOrMore e) p b q) : b = true := by
  cases h <;> rfl

/-- Leading white space of `t`. -/
theorem ws_split (t : Bytes) : ∃ w s, t = w ++ s ∧ IsWs w ∧ Hd s fun c => ¬ WsByte c := by
  induction t with
  | nil => exact ⟨[], [], rfl, fun _ h => by simp at h, .nil⟩
  | cons c t ih =>
    by_cases hc : c = 32 ∨ c = 10 ∨ c = 13 ∨ c = 9
    · obtain ⟨w, s, rfl, hw, hs⟩ := ih
      refine ⟨c :: w, s, rfl, ?_, hs⟩
      intro d hd
      rcases List.mem_cons.mp hd with rfl | hd
      · exact hc
      · exact hw d hd
    · exact ⟨[], c :: t, rfl, fun _ h => by simp at h, .cons (by simpa [WsByte] using hc)⟩

theorem IsWs.append {w w' : Bytes} (h : IsWs w) (h' : IsWs w') : IsWs (w ++ w') := by
  intro c hc
  rcases List.mem_append.mp hc with hc | hc
  · exact h c hc
  · exact h' c hc

theorem star_ge {r : Dsl} (hl : NoEmptyLoop Dsl.body (.zeroOrMore (.varName r))) (p : Nat) :
    ∃ q, p ≤ q ∧ Peg Dsl.body src (.zeroOrMore (.varName r)) p true q := by
  obtain ⟨b, q, h⟩ := dsl_total (src := src) (.zeroOrMore (.varName r)) trivial hl p
  have := peg_star_true h
  subst this
  exact ⟨q, by have := h.bounds.2; omega, h⟩

theorem comments_ge {cs : List DComment} (hc : ∀ c ∈ cs, c.WF) (h : Rem src p (commentsText cs ++ t)) :
    ∃ q, p + (commentsText cs).length ≤ q ∧ Peg Dsl.body src (.zeroOrMore (.varName .r_comment)) p true q := by
  have hl : NoEmptyLoop Dsl.body (.zeroOrMore (.varName .r_comment)) := (wf_dsl.noLoop .r_rule).2
  induction cs generalizing p with
  | nil => exact star_ge hl p
  | cons c cs ih =>
    have h : Rem src p (c.text ++ (commentsText cs ++ t)) := by simpa [commentsText] using h
    cases cs with
    | nil =>
      obtain ⟨w, s, rfl, hw, hs⟩ := ws_split t
      have hc' : DComment.WF ⟨c.body, c.w ++ w⟩ := ⟨(hc c (by simp)).1, (hc c (by simp)).2.append hw⟩
      have h : Rem src p (DComment.text ⟨c.body, c.w ++ w⟩ ++ s) := by simpa [DComment.text, commentsText] using h
      have a1 := (ok_comment hc' h hs).toPeg
      obtain ⟨q, hq, a2⟩ := star_ge (src := src) hl (p + (DComment.text ⟨c.body, c.w ++ w⟩).length)
      exact ⟨q, by simp [commentsText, DComment.text] at hq ⊢; omega, .star_step a1 a2⟩
    | cons d ds =>
      have a1 := (ok_comment (hc c (by simp)) h (.cons (by simp [WsByte]))).toPeg
      obtain ⟨q, hq, a2⟩ := ih (fun x hx => hc x (by simp [hx])) h.skip
      exact ⟨q, by simp [commentsText] at hq ⊢; omega, .star_step a1 a2⟩

theorem rule_ge {r : DRule} (hr : r.WF) (h : Rem src p (r.text ++ t)) :
    ∃ q, p + r.text.length ≤ q ∧ Peg Dsl.body src (.varName .r_rule) p true q := by
  obtain ⟨hn, hsep, hrhs, hw, hcs⟩ := hr
  have e : p + (r.name.length + 2) + r.sep.text.length + 1 + r.rhs.lead.length + r.rhs.strip.text.length + 1 + r.w.length
      + (commentsText r.comments).length = p + r.text.length := by
    rw [r.text_eq]; simp only [List.length_append, List.length_cons]; omega
  rw [r.text_eq] at h
  have h : Rem src p (60 :: (r.name ++ 62 :: (r.sep.text ++ 61 :: (r.rhs.lead ++ (r.rhs.strip.text ++
    59 :: (r.w ++ (commentsText r.comments ++ t))))))) := by simpa using h
  have a1 := ok_lhs hn hsep h
  have r1 := h.tail.skip.tail.skip
  rw [show p + 1 + r.name.length + 1 + r.sep.text.length = p + (r.name.length + 2) + r.sep.text.length by omega] at r1
  have a2 : Ok src (.inlined .r_assignment) _ _ [] := .inl (x := .r_assignment) (.term r1)
  have r2 := r1.tail
  have a3 := ok_ws hrhs.strip.1 r2 (DRhs.strip_start hrhs)
  have r3 := r2.skip
  have a4 := ok_rhs _ hrhs.strip.2 _ _ r3 (.cons (by simp [FollowR]))
  have r4 := r3.skip
  have a5 := ws_empty r4 (.cons (by simp [WsByte]))
  have a6 : Ok src (.inlined .r_end_rule) _ _ [] := .inl (x := .r_end_rule) (.term r4)
  have r6 := r4.tail
  have pre := (Ok.seq (.seq (.seq (.seq (.seq a1 a2) a3) a4) a5) a6).toPeg
  cases hcm : r.comments with
  | nil =>
    rw [hcm] at r6 e
    have r6 : Rem src _ (r.w ++ t) := r6
    obtain ⟨w, s, rfl, hw', hs⟩ := ws_split t
    have a7 := (ok_ws (hw.append hw') (by simpa using r6) hs).toPeg
    obtain ⟨q, hq, a8⟩ := star_ge (src := src) (r := .r_comment) (wf_dsl.noLoop .r_rule).2 _
    exact ⟨q, by simp [commentsText] at e hq; omega, .ref (.seq_ok (.seq_ok pre a7) a8)⟩
  | cons c cs =>
    rw [hcm] at r6 e hcs
    have a7 := (ok_ws hw r6 (.cons (by simp [WsByte]))).toPeg
    obtain ⟨q, hq, a8⟩ := comments_ge hcs r6.skip
    exact ⟨q, by omega, .ref (.seq_ok (.seq_ok pre a7) a8)⟩

theorem rules_ge {g : DGrammar} (hg : g.WF) (h : Rem src p (g.text ++ t)) :
    ∃ q, p + g.text.length ≤ q ∧ Peg Dsl.body src (.zeroOrMore (.varName .r_rule)) p true q := by
  have hl : NoEmptyLoop Dsl.body (.zeroOrMore (.varName .r_rule)) := (wf_dsl.noLoop .r_grammar).1
  induction g generalizing p with
  | nil => exact star_ge hl p
  | cons r g ih =>
    have h : Rem src p (r.text ++ (DGrammar.text g ++ t)) := by simpa [DGrammar.text] using h
    cases g with
    | nil =>
      obtain ⟨k, hk, a1⟩ := rule_ge (hg r (by simp)) h
      obtain ⟨q, hq, a2⟩ := star_ge (src := src) hl k
      exact ⟨q, by simp [DGrammar.text]; omega, .star_step a1 a2⟩
    | cons r' g =>
      have a1 := (ok_rule (hg r (by simp)) h (.cons rfl)).toPeg
      obtain ⟨q, hq, a2⟩ := ih (fun x hx => hg x (by simp [hx])) h.skip
      exact ⟨q, by simp [DGrammar.text] at hq ⊢; omega, .star_step a1 a2⟩

/-- The start rule stops after the longest prefix that is a written grammar. -/
theorem stops_after_longest {src : Bytes} (hsm : src.length < 4294967296) {b q} (h : Peg Dsl.body ⟨src⟩ (Dsl.body .r_grammar) 0 b q) :
    (∃ g : DGrammar, g.WF ∧ g.text = src.take q) ∧ ∀ g : DGrammar, g.WF → ∀ t, src = g.text ++ t → g.text.length ≤ q := by
  constructor
  · cases b with
    | true =>
      obtain ⟨g, hg, _, t, e, h3, _⟩ := grammar_inv (src := ⟨src⟩) hsm h
      refine ⟨g, hg, ?_⟩
      simp only [List.drop_zero, Nat.zero_add] at e h3
      rw [h3, e]; simp
    | false =>
      have := h.bounds.1 rfl
      subst this
      exact ⟨[], fun _ h => by simp at h, by simp [DGrammar.text]⟩
  · intro g hg t e
    cases g with
    | nil => simp [DGrammar.text]
    | cons r g =>
      have hr : Rem ⟨src⟩ 0 (DGrammar.text (r :: g) ++ t) := ⟨hsm, Nat.zero_le _, by simpa using e⟩
      obtain ⟨k, hk, a⟩ := rules_ge hg hr
      have hpos : 0 < (DGrammar.text (r :: g)).length := by simp [DGrammar.text, DRule.text]
      cases a with
      | star_stop => omega
      | star_step a1 a2 =>
        obtain ⟨b', q', hw⟩ := dsl_total (src := ⟨src⟩) (.optional (.inlined .r_whitespace)) trivial trivial k
        have e : b' = true := by cases hw <;> rfl
        subst e
        have := hw.bounds.2
        obtain ⟨_, rfl⟩ := h.det (.seq_ok (.plus_ok a1 a2) hw)
        omega

end
end PP.Gen
