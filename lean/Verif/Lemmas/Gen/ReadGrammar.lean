import Verif.Lemmas.Gen.Read

/-! # Reading rules and whole grammar files -/
namespace PP.Gen
section
variable {src : Source} {p q : Nat} {s : Bytes}

theorem reads_notHash : Reads src (.subexpression (.sequence (.notPredicate (.terminal 35)) (.varName .r_ascii)))
    (· ≠ 35) (fun p => [.node .r_ascii (some (p, p + 1)) []]) := by
  constructor
  · intro p c s h hc
    exact .sub (.seq (ts := []) (.not (.term h (by simpa using hc))) (reads_ascii.1 _ _ _ h trivial))
  · intro p s h hs
    match s, h, hs with
    | [], h, hs => exact .sub (.seq2 (ts := []) (.not (.term h (by simp))) (reads_ascii.2 _ _ h .nil))
    | x :: s, h, hs =>
      have : x = 35 := Classical.not_not.mp (hs x rfl)
      subst this
      exact .sub (.seq1 (.not (.term h)))

theorem ok_comment {c : DComment} (hc : c.WF) (h : Rem src p (c.text ++ s)) (hs : Hd s fun c => ¬ WsByte c) :
    Ok src (.varName .r_comment) p (p + c.text.length) [c.tree p] := by
  have h : Rem src p (35 :: (c.body ++ 35 :: (c.w ++ s))) := by simpa [DComment.text] using h
  have a1 := ws_empty h (.cons (by simp [WsByte]))
  have a2 := Ok.term h
  have a3 := reads_notHash.star (w := c.body) hc.1 h.tail (.cons (by simp))
  have r3 := h.tail.skip
  have a4 := Ok.term r3
  have a5 := ok_ws hc.2 r3.tail hs
  have all := Ok.ref (x := .r_comment) (by omega) (.seq (.seq (.seq (.seq a1 a2) a3) a4) a5)
  rw [flatMap_leaves] at all
  have e : p + 1 + c.body.length + 1 + c.w.length = p + c.text.length := by
    simp only [DComment.text, List.length_append, List.length_cons]; omega
  rw [e] at all
  exact all.cast rfl (by simp [DComment.tree])

theorem bad_comment (h : Rem src p s) (hs : Hd s fun c => ¬ WsByte c ∧ c ≠ 35) : Bad src (.varName .r_comment) p [] :=
  .ref (.seq1 (.seq1 (.seq1 (.seq2 (ts := []) (ws_empty h (hs.mono fun _ h => h.1)) (.term h (hs.mono fun _ h => h.2).ne)))))

theorem comments_start {cs : List DComment} (hs : Hd s fun c => ¬ WsByte c) : Hd (commentsText cs ++ s) fun c => ¬ WsByte c := by
  cases cs with
  | nil => exact hs
  | cons c cs => exact .cons (by simp [WsByte])

theorem ok_comments {cs : List DComment} (hc : ∀ c ∈ cs, c.WF) (h : Rem src p (commentsText cs ++ s))
    (hs : Hd s fun c => ¬ WsByte c ∧ c ≠ 35) :
    Ok src (.zeroOrMore (.varName .r_comment)) p (p + (commentsText cs).length) (commentsTree p cs) := by
  induction cs generalizing p with
  | nil => exact .starNil (bad_comment h hs)
  | cons c cs ih =>
    have h : Rem src p (c.text ++ (commentsText cs ++ s)) := by simpa [commentsText] using h
    have a1 := ok_comment (hc c (by simp)) h (comments_start (hs.mono fun _ h => h.1))
    exact (Ok.starCons a1 (ih (fun d hd => hc d (by simp [hd])) h.skip)).cast (by simp [commentsText]; omega)
      (by simp [commentsTree])

theorem ok_inline (h : Rem src p (inlineText ++ s)) :
    Ok src (.varName .r_semantic_instructions) p (p + 6)
      [.node .r_semantic_instructions (some (p, p + 6)) [.node .r_inline (some (p, p + 6)) []]] :=
  .ref (x := .r_semantic_instructions) (by omega) (.ref (x := .r_inline) (by omega) (Ok.string h))

theorem bad_inline (h : Rem src p s) (hs : Hd s (· ≠ 73)) : Bad src (.varName .r_semantic_instructions) p [] := by
  refine .ref (ts := []) (.ref (x := .r_inline) (ts := []) (.string h ?_))
  intro e
  cases s with
  | nil => simp at e
  | cons c s => simp at e; exact hs c rfl e.1

/-- `<name>`, optionally followed by `Inline`, up to `=`. -/
theorem ok_lhs {r : DRule} (hn : IsName r.name) (hsep : r.sep.WF)
    (h : Rem src p (60 :: (r.name ++ 62 :: (r.sep.text ++ 61 :: s)))) :
    Ok src (.sequence (.varName .r_lhs) (.inlined .r_whitespace)) p (p + (r.name.length + 2) + r.sep.text.length)
      [r.lhsTree p] := by
  have a1 := ok_decl hn h
  have r1 : Rem src (p + (r.name.length + 2)) (r.sep.text ++ 61 :: s) := by
    have := h.tail.skip.tail
    rwa [show p + 1 + r.name.length + 1 = p + (r.name.length + 2) by omega] at this
  unfold DRule.lhsTree
  cases hr : r.sep with
  | plain w =>
    rw [hr] at r1 hsep
    have hw : IsWs w := hsep
    have r1 : Rem src (p + (r.name.length + 2)) (w ++ 61 :: s) := r1
    have a2 := ok_ws hw r1 (.cons (by simp [WsByte]))
    have b : Bad src (.subexpression (.sequence (.sequence (.inlined
      .r_whitespace) (.varName .r_semantic_instructions)) (.inlined .r_whitespace))) (p + (r.name.length + 2)) [] :=
      .sub (.seq1 (.seq2 (ts := []) a2 (bad_inline r1.skip (.cons (by simp)))))
    have l := Ok.ref (x := .r_lhs) (by omega) (.seq a1 (.optNone b))
    exact (Ok.seq l a2).cast (by simp [DSep.text]) (by simp)
  | inline w w' =>
    rw [hr] at r1 hsep
    have hw : IsWs w ∧ IsWs w' := hsep
    have r1 : Rem src (p + (r.name.length + 2)) (w ++ (inlineText ++ (w' ++ 61 :: s))) := by
      simpa [DSep.text] using r1
    have a2 := ok_ws hw.1 r1 (.cons (by simp [WsByte]))
    have a3 := ok_inline r1.skip
    have a4 := ok_ws hw.2 r1.skip.skip (.cons (by simp [WsByte]))
    have a5 := ws_empty r1.skip.skip.skip (.cons (by simp [WsByte]))
    have e : p + (r.name.length + 2) + w.length + inlineText.length + w'.length
        = p + (r.name.length + 2) + (DSep.inline w w').text.length := by
      simp [DSep.text]; omega
    have l := Ok.ref (x := .r_lhs) (by simp [inlineText]; omega) (.seq a1 (.opt (.sub (.seq (.seq a2 a3) a4))))
    rw [e] at l a5
    exact (Ok.seq l a5).cast rfl (by simp)

theorem DRhs.text_strip (r : DRhs) : r.text = r.lead ++ r.strip.text := by cases r <;> simp [DRhs.text, DRhs.lead, DRhs.strip]
theorem DRhs.WF.strip {r : DRhs} (h : r.WF) : IsWs r.lead ∧ r.strip.WF := by
  cases r with
  | atom w a => exact ⟨h.1, fun _ h => by simp at h, h.2⟩
  | chain o w a as => exact ⟨h.1, fun _ h => by simp at h, h.2⟩
theorem DRhs.strip_start {r : DRhs} (h : r.WF) : Hd (r.strip.text ++ s) fun c => ¬ WsByte c := by
  cases r with
  | atom w a => exact DAtom.start h.2
  | chain o w a as => simp only [DRhs.strip, DRhs.text, List.nil_append, List.append_assoc]; exact DAtom.start h.2.1

theorem DRule.text_eq (r : DRule) : r.text = 60 :: (r.name ++ 62 :: (r.sep.text ++ 61 :: (r.rhs.lead ++ (r.rhs.strip.text ++
    59 :: (r.w ++ commentsText r.comments))))) := by
  unfold DRule.text; rw [r.rhs.text_strip]; simp

theorem ok_rule {r : DRule} (hr : r.WF) (h : Rem src p (r.text ++ s)) (hs : Hd s (· = 60)) :
    Ok src (.varName .r_rule) p (p + r.text.length) [r.tree p] := by
  obtain ⟨hn, hsep, hrhs, hw, hcs⟩ := hr
  have hs' : Hd s fun c => ¬ WsByte c ∧ c ≠ 35 := hs.mono fun c hc => by subst hc; simp [WsByte]
  rw [r.text_eq] at h
  have h : Rem src p (60 :: (r.name ++ 62 :: (r.sep.text ++ 61 :: (r.rhs.lead ++ (r.rhs.strip.text ++
    59 :: (r.w ++ (commentsText r.comments ++ s))))))) := by simpa using h
  have a1 := ok_lhs hn hsep h
  have r1 := h.tail.skip.tail.skip
  rw [show p + 1 + r.name.length + 1 + r.sep.text.length = p + (r.name.length + 2) + r.sep.text.length by omega] at r1
  have a2 : Ok src (.inlined .r_assignment) _ _ [] := .inl (x := .r_assignment) (.term r1)
  have r2 := r1.tail
  have a3 := ok_ws hrhs.strip.1 r2 (DRhs.strip_start hrhs)
  have r3 := r2.skip
  have a4 := ok_rhs _ hrhs.strip.2 _ _ r3 (.cons (by simp [FollowR]))
  have r4 := r3.skip
  have a5 := ws_empty r4 (.cons (by simp [WsByte]))
  have a6 : Ok src (.inlined .r_end_rule) _ _ [] := .inl (x := .r_end_rule) (.term r4)
  have r6 := r4.tail
  have a7 := ok_ws hw r6 (comments_start (hs'.mono fun _ h => h.1))
  have r7 := r6.skip
  have a8 := ok_comments hcs r7 hs'
  have all := Ok.ref (x := .r_rule) (by omega) (.seq (.seq (.seq (.seq (.seq (.seq (.seq a1 a2) a3) a4) a5) a6) a7) a8)
  have e : p + (r.name.length + 2) + r.sep.text.length + 1 + r.rhs.lead.length + r.rhs.strip.text.length + 1 + r.w.length
      + (commentsText r.comments).length = p + r.text.length := by
    rw [r.text_eq]; simp only [List.length_append, List.length_cons]; omega
  rw [e] at all
  exact all.cast rfl (by simp [DRule.tree, DRule.rhsStart])

theorem bad_rule (h : Rem src p s) (hs : Hd s (· ≠ 60)) : Bad src (.varName .r_rule) p [] :=
  .ref (.seq1 (.seq1 (.seq1 (.seq1 (.seq1 (.seq1 (.seq1 (.seq1 (.ref (x := .r_lhs) (.seq1 (.ref (x := .r_var_name_decl)
    (.seq1 (.seq1 (.inl (x := .r_left_angle_bracket) (.term h hs.ne)))))))))))))))

theorem DGrammar.start (g : DGrammar) : Hd g.text (· = 60) := by
  cases g with
  | nil => exact .nil
  | cons r rs => exact .cons rfl

theorem ok_rules {g : DGrammar} (hg : g.WF) (h : Rem src p g.text) :
    Ok src (.zeroOrMore (.varName .r_rule)) p (p + g.text.length) (g.trees p) := by
  induction g generalizing p with
  | nil => exact .starNil (bad_rule h .nil)
  | cons r rs ih =>
    have h : Rem src p (r.text ++ DGrammar.text rs) := h
    have a1 := ok_rule (hg r (by simp)) h (DGrammar.start rs)
    exact (Ok.starCons a1 (ih (fun d hd => hg d (by simp [hd])) h.skip)).cast (by simp [DGrammar.text]; omega)
      (by simp [DGrammar.trees])

/-- Every written grammar of at least one rule is read to the end, and the surviving trees are those written. -/
theorem ok_grammar {g : DGrammar} (hg : g.WF) (hne : g ≠ []) (hlen : g.text.length < 4294967296) (hsrc : src.bytes = g.text) :
    Ok src (Dsl.body .r_grammar) 0 g.text.length (g.trees 0) := by
  have h : Rem src 0 g.text := ⟨by rw [hsrc]; exact hlen, by omega, by rw [hsrc]; rfl⟩
  cases g with
  | nil => exact absurd rfl hne
  | cons r rs =>
    have h : Rem src 0 (r.text ++ DGrammar.text rs) := h
    have a1 := ok_rule (hg r (by simp)) h (DGrammar.start rs)
    have a2 := ok_rules (g := rs) (fun d hd => hg d (by simp [hd])) h.skip
    have hend : Rem src (0 + r.text.length + (DGrammar.text rs).length) [] := by
      have h : Rem src 0 ((r.text ++ DGrammar.text rs) ++ []) := by simpa using h
      have := h.skip
      simpa [Nat.add_assoc] using this
    have a3 := ws_empty hend .nil
    exact (Ok.seq (.plus a1 a2) (.opt a3)).cast (by simp [DGrammar.text]) (by simp [DGrammar.trees])

end
end PP.Gen
