import Verif.Lemmas.Gen.Lex

/-! # Reading expressions, rules and grammars of the DSL: every written grammar is read back -/
namespace PP.Gen

/-- What may follow a nucleus, an atom, a right-hand side. -/
def FollowN (c : UInt8) : Prop := c = 43 ∨ c = 42 ∨ c = 63 ∨ c = 44 ∨ c = 47 ∨ c = 41 ∨ c = 59
def FollowA (c : UInt8) : Prop := c = 44 ∨ c = 47 ∨ c = 41 ∨ c = 59
def FollowR (c : UInt8) : Prop := c = 41 ∨ c = 59

theorem FollowA.n {c : UInt8} (h : FollowA c) : FollowN c := by
  rcases h with rfl | rfl | rfl | rfl <;> simp [FollowN]
theorem FollowR.a {c : UInt8} (h : FollowR c) : FollowA c := by
  rcases h with rfl | rfl <;> simp [FollowA]
theorem FollowN.notWs {c : UInt8} (h : FollowN c) : ¬ WsByte c := by
  rcases h with rfl | rfl | rfl | rfl | rfl | rfl | rfl <;> simp [WsByte]

/-- What a core (without leading white space) starts with. -/
def StartC (c : UInt8) : Prop := c = 91 ∨ IsLetter c ∨ c = 40 ∨ c = 39 ∨ c = 34 ∨ IsDigit c ∨ c = 60

theorem toNat_eq {c d : UInt8} (h : c.toNat = d.toNat) : c = d := UInt8.toNat_inj.mp h

theorem IsLetter.toNat {c : UInt8} (h : IsLetter c) : 65 ≤ c.toNat ∧ c.toNat ≤ 122 := by
  unfold IsLetter at h; omega

macro "byte_ne" h:term : tactic => `(tactic| (intro hh; subst hh; revert $h:term; decide))

theorem StartC.cases {c : UInt8} (h : StartC c) : c.toNat = 91 ∨ (65 ≤ c.toNat ∧ c.toNat ≤ 90) ∨
    (97 ≤ c.toNat ∧ c.toNat ≤ 122) ∨ c.toNat = 40 ∨ c.toNat = 39 ∨ c.toNat = 34 ∨ (48 ≤ c.toNat ∧ c.toNat ≤ 57) ∨
    c.toNat = 60 := by
  rcases h with rfl | h | rfl | rfl | rfl | h | rfl
  · simp
  · unfold IsLetter at h; omega
  · simp
  · simp
  · simp
  · unfold IsDigit at h; omega
  · simp

theorem StartC.notWs {c : UInt8} (h : StartC c) : ¬ WsByte c := by
  have := h.cases
  rintro (rfl | rfl | rfl | rfl) <;> simp at this

theorem StartC.ne {c d : UInt8} (h : StartC c) (hd : d = 38 ∨ d = 33) : c ≠ d := by
  have := h.cases
  rintro rfl
  rcases hd with rfl | rfl <;> simp at this

section
variable {src : Source} {p q : Nat} {s : Bytes}

theorem Hd.append {w s : Bytes} {P : UInt8 → Prop} (hw : ∀ c ∈ w, P c) (hs : Hd s P) : Hd (w ++ s) P := by
  cases w with
  | nil => exact hs
  | cons c w => exact .cons (hw c (by simp))

theorem ws_empty (h : Rem src p s) (hs : Hd s fun c => ¬ WsByte c) : Ok src (.inlined .r_whitespace) p p [] :=
  ok_ws (w := []) (fun _ h => by simp at h) h hs

theorem bad_range (h : Rem src p s) (hs : Hd s fun c => ¬ WsByte c ∧ c ≠ 91) :
    Bad src (.varName .r_orderedchoicematchrange) p [] :=
  .ref (.seq1 (.seq1 (.seq1 (.seq1 (.seq1 (.seq1 (.seq1 (.seq1 (.seq2 (ts := []) (ws_empty h (hs.mono fun _ h => h.1))
    (.term h (hs.mono fun _ h => h.2).ne))))))))))
theorem bad_hook (h : Rem src p s) (hs : Hd s fun c => ¬ IsLetter c) : Bad src (.varName .r_hooked_call) p [] :=
  .ref (.seq1 (.seq1 (.seq1 (bad_name h hs))))
theorem bad_sub (h : Rem src p s) (hs : Hd s (· ≠ 40)) : Bad src (.varName .r_subexpression) p [] :=
  .ref (.seq1 (.seq1 (.inl (x := .r_left_bracket) (.term h hs.ne))))

/-- The choice inside `Nucleus`. -/
def coreExpr : Expr Dsl :=
  .subexpression (.orderedChoice (.orderedChoice (.orderedChoice (.orderedChoice (.orderedChoice
    (.varName .r_orderedchoicematchrange) (.varName .r_hooked_call)) (.varName .r_subexpression)) (.varName
    .r_terminal)) (.varName .r_stringterminal)) (.varName .r_var_name_ref))

theorem ok_nuc_of {w : Bytes} {ts} (hw : IsWs w) (hpq : p ≠ q) (h1 : Ok src coreExpr p q ts) (h : Rem src q (w ++ s))
    (hs : Hd s FollowN) : Ok src (.varName .r_nucleus) p (q + w.length) [.node .r_nucleus (some (p, q + w.length)) ts] := by
  by_cases hh : p = q + w.length
  · -- cannot happen for real cores: the end is not before the start
    exfalso
    obtain ⟨us, h1, -⟩ := h1
    have : p ≤ q := by
      have key : ∀ {e : Expr Dsl} {p b q us}, PegT Dsl.body src e p b q us → p ≤ q := by
        intro e p b q us h
        induction h <;> omega
      exact key h1
    omega
  · exact (Ok.ref (x := .r_nucleus) hh (.seq h1 (ok_ws hw h (hs.mono fun _ h => h.notWs)))).cast rfl (by simp)

theorem ok_core_range {w0 w1 w2 w : Bytes} {lo hi : DBound} (h0 : IsWs w0) (h1 : IsWs w1) (hlo : lo.WF) (hhi : hi.WF)
    (h2 : IsWs w2) (hw : IsWs w) (h : Rem src p ((DCore.range w0 w1 lo hi w2).text ++ (w ++ s)))
    (hs : Hd s FollowN) :
    Ok src coreExpr p (p + ((DCore.range w0 w1 lo hi w2).text.length + w.length))
      [DCore.tree p w (.range w0 w1 lo hi w2)] := by
  have h : Rem src p (w0 ++ 91 :: (w1 ++ (lo.text ++ 46 :: 46 :: (hi.text ++ (w2 ++ 93 :: (w ++ s)))))) := by
    simpa [DCore.text] using h
  have nws : ∀ b : DBound, b.WF → ∀ t, Hd (b.text ++ t) fun c => ¬ WsByte c := by
    intro b hb t
    cases b with
    | term t => cases t <;> exact .cons (by simp [WsByte])
    | int ds =>
      exact (intHead (s := t) hb).mono fun c hc => by
        rintro (rfl | rfl | rfl | rfl) <;> simp at hc
    | hex ds => exact .cons (by simp [WsByte])
  have a1 := ok_ws h0 h (.cons (by simp [WsByte]))
  have h' := h.skip
  have a2 := Ok.term h'
  have h'' := h'.tail
  have a3 := ok_ws h1 h'' (nws lo hlo _)
  have r3 := h''.skip
  have a4 := ok_bound hlo r3 (.cons (by simp [IsHexDigit]))
  have r4 := r3.skip
  have a5 := Ok.term r4
  have r5 := r4.tail
  have a6 := Ok.term r5
  have r6 := r5.tail
  have a7 := ok_bound hhi r6 (Hd.append (fun c hc => by
    rcases h2 c hc with rfl | rfl | rfl | rfl <;> simp [IsHexDigit]) (.cons (by simp [IsHexDigit])))
  have r7 := r6.skip
  have a8 := ok_ws h2 r7 (.cons (by simp [WsByte]))
  have r8 := r7.skip
  have a9 := Ok.term r8
  have r9 := r8.tail
  have a10 := ok_ws hw r9 (hs.mono fun _ h => h.notWs)
  have all := Ok.ref (x := .r_orderedchoicematchrange) (by omega)
    (.seq (.seq (.seq (.seq (.seq (.seq (.seq (.seq (.seq a1 a2) a3) a4) a5) a6) a7) a8) a9) a10)
  have e : p + w0.length + 1 + w1.length + lo.text.length + 1 + 1 + hi.text.length + w2.length + 1 + w.length
    = p + ((DCore.range w0 w1 lo hi w2).text.length + w.length) := by
    simp only [DCore.text, List.length_append, List.length_cons, List.length_nil]; omega
  refine .sub (.left (.left (.left (.left (.left (all.cast e ?_))))))
  rw [e]
  simp [DCore.tree]

theorem ok_core_hook {nm : Bytes} {r : DRhs} (hn : IsName nm) (h : Rem src p ((DCore.hook nm r).text ++ s))
    (ih : Ok src (.varName .r_rhs) (p + nm.length + 1) (p + nm.length + 1 + r.text.length) [r.tree (p + nm.length + 1)]) :
    Ok src coreExpr p (p + (DCore.hook nm r).text.length) [DCore.tree p [] (.hook nm r)] := by
  have h : Rem src p (nm ++ 40 :: (r.text ++ 41 :: s)) := by simpa [DCore.text] using h
  have hd : Hd (nm ++ 40 :: (r.text ++ 41 :: s)) IsLetter := by
    cases nm with
    | nil => cases hn
    | cons c nm => exact .cons hn.1
  have b1 : Bad src (.varName .r_orderedchoicematchrange) p [] := bad_range h (hd.mono fun c hc => by
    have := hc.toNat
    constructor
    · rintro (rfl | rfl | rfl | rfl) <;> simp at this
    · rintro rfl; simp [IsLetter] at hc)
  have a1 := ok_name hn h (.cons (by simp [NameByte, IsLetter]))
  have r1 := h.skip
  have a2 : Ok src (.inlined .r_left_bracket) _ _ [] := .inl (x := .r_left_bracket) (.term r1)
  have r2 := r1.tail.skip
  have a3 : Ok src (.inlined .r_right_bracket) _ _ [] := .inl (x := .r_right_bracket) (.term r2)
  have all := Ok.ref (x := .r_hooked_call) (by omega) (.seq (.seq (.seq a1 a2) ih) a3)
  have e : p + nm.length + 1 + r.text.length + 1 = p + (DCore.hook nm r).text.length := by
    simp only [DCore.text, List.length_append, List.length_cons, List.length_nil]; omega
  refine .sub (.left (.left (.left (.left (.right (ts := []) b1 (all.cast e ?_))))))
  simp [DCore.tree, e]

theorem ok_core_sub {r : DRhs} (h : Rem src p ((DCore.sub r).text ++ s))
    (ih : Ok src (.varName .r_rhs) (p + 1) (p + 1 + r.text.length) [r.tree (p + 1)]) :
    Ok src coreExpr p (p + (DCore.sub r).text.length) [DCore.tree p [] (.sub r)] := by
  have h : Rem src p (40 :: (r.text ++ 41 :: s)) := by simpa [DCore.text] using h
  have b1 : Bad src (.varName .r_orderedchoicematchrange) p [] := bad_range h (.cons (by simp [WsByte]))
  have b2 := bad_hook h (.cons (by simp [IsLetter]))
  have a2 : Ok src (.inlined .r_left_bracket) _ _ [] := .inl (x := .r_left_bracket) (.term h)
  have r2 := h.tail.skip
  have a3 : Ok src (.inlined .r_right_bracket) _ _ [] := .inl (x := .r_right_bracket) (.term r2)
  have all := Ok.ref (x := .r_subexpression) (by omega) (.seq (.seq a2 ih) a3)
  have e : p + 1 + r.text.length + 1 = p + (DCore.sub r).text.length := by
    simp only [DCore.text, List.length_append, List.length_cons, List.length_nil]; omega
  refine .sub (.left (.left (.left (.right (ts := []) (.choice (ts := []) b1 b2) (all.cast e ?_)))))
  simp [DCore.tree, e]

theorem ok_core_term {t : DTerm} (ht : t.WF) (h : Rem src p (t.text ++ s)) (hs : Hd s (· ≠ 39)) :
    Ok src coreExpr p (p + (DCore.term t).text.length) [DCore.tree p [] (.term t)] := by
  have hd : Hd (t.text ++ s) (· = 39) := by cases t <;> exact .cons rfl
  have b1 : Bad src (.varName .r_orderedchoicematchrange) p [] := bad_range h (hd.mono fun c hc => by
    subst hc; simp [WsByte])
  have b2 := bad_hook h (hd.mono fun c hc => by subst hc; simp [IsLetter])
  have b3 := bad_sub h (hd.mono fun c hc => by subst hc; simp)
  exact .sub (.left (.left (.right (ts := []) (.choice (ts := []) (.choice (ts := []) b1 b2) b3)
    ((ok_terminal ht h hs).cast (by simp [DCore.text]) (by simp [DCore.tree])))))

theorem ok_core_str {t : DStr} (ht : t.WF) (h : Rem src p (t.text ++ s)) (hs : Hd s fun c => ¬ IsHexDigit c) :
    Ok src coreExpr p (p + (DCore.str t).text.length) [DCore.tree p [] (.str t)] := by
  have hd : Hd (t.text ++ s) (fun c => c.toNat = 34 ∨ 48 ≤ c.toNat ∧ c.toNat ≤ 57) := by
    cases t with
    | quoted t => exact .cons (by simp)
    | hex t => exact .cons (by simp)
    | int t => exact (intHead (s := s) ht).mono fun c hc => by omega
  have b1 : Bad src (.varName .r_orderedchoicematchrange) p [] := bad_range h (hd.mono fun c hc => by
    constructor
    · rintro (rfl | rfl | rfl | rfl) <;> simp at hc
    · rintro rfl; simp at hc)
  have b2 := bad_hook h (hd.mono fun c hc => by unfold IsLetter; omega)
  have b3 := bad_sub h (hd.mono fun c hc => by rintro rfl; simp at hc)
  have b4 := bad_terminal h (hd.mono fun c hc => by rintro rfl; simp at hc)
  exact .sub (.left (.right (ts := []) (.choice (ts := []) (.choice (ts := []) (.choice (ts := []) b1 b2) b3) b4)
    ((ok_string ht h hs).cast (by simp [DCore.text]) (by simp [DCore.tree]))))

theorem ok_core_ref {nm : Bytes} (hn : IsName nm) (h : Rem src p ((DCore.ref nm).text ++ s)) :
    Ok src coreExpr p (p + (DCore.ref nm).text.length) [DCore.tree p [] (.ref nm)] := by
  have h : Rem src p (60 :: (nm ++ 62 :: s)) := by simpa [DCore.text] using h
  have b1 : Bad src (.varName .r_orderedchoicematchrange) p [] := bad_range h (.cons (by simp [WsByte]))
  have b2 := bad_hook h (.cons (by simp [IsLetter]))
  have b3 := bad_sub h (.cons (by simp))
  have b4 := bad_terminal h (.cons (by simp))
  have b5 := bad_string h (.cons (by simp [IsDigit]))
  exact .sub (.right (ts := []) (.choice (ts := []) (.choice (ts := []) (.choice (ts := []) (.choice (ts := []) b1 b2) b3) b4) b5)
    ((ok_vref hn h).cast (by simp [DCore.text]) (by simp [DCore.tree])))

theorem DCore.tree_ws {c : DCore} (h : ∀ w0 w1 lo hi w2, c ≠ .range w0 w1 lo hi w2) (w w' : Bytes) :
    c.tree p w = c.tree p w' := by
  cases c with
  | range => exact absurd rfl (h _ _ _ _ _)
  | _ => simp [DCore.tree]

theorem DCore.start {c : DCore} (hc : c.WF) (hl : c.lead = []) : Hd (c.text ++ s) StartC := by
  cases c with
  | range w0 w1 lo hi w2 =>
    simp only [DCore.lead] at hl; subst hl
    exact .cons (by simp [StartC])
  | hook nm r =>
    cases nm with
    | nil => exact hc.1.elim
    | cons c nm => exact .cons (Or.inr (Or.inl hc.1.1))
  | sub r => exact .cons (by simp [StartC])
  | term t => cases t <;> exact .cons (by simp [StartC])
  | str t =>
    cases t with
    | quoted t => exact .cons (by simp [StartC])
    | hex t => exact .cons (by simp [StartC, IsDigit])
    | int t =>
      exact (intHead (s := s) hc).mono fun c hc =>
        Or.inr (Or.inr (Or.inr (Or.inr (Or.inr (Or.inl ⟨by omega, hc.2⟩)))))
  | ref nm => exact .cons (by simp [StartC])

theorem DNuc.start {n : DNuc} (hn : n.WF) (hl : n.lead = []) : Hd (n.text ++ s) StartC := by
  cases n with
  | mk c w =>
    simp only [DNuc.text, List.append_assoc]
    exact DCore.start hn.1 hl

/-- What an atom starts with. -/
theorem DAtom.start {a : DAtom} (ha : a.WF) : Hd (a.text ++ s) fun c => ¬ WsByte c := by
  cases a with
  | plain n => exact (DNuc.start ha.1 ha.2).mono fun c hc => hc.notWs
  | pre o n => cases o <;> exact .cons (by simp [WsByte, PreOp.byte])
  | post o n w =>
    simp only [DAtom.text, List.append_assoc]
    exact (DNuc.start ha.1 ha.2.1).mono fun c hc => hc.notWs

theorem bad_pre (o : PreOp) (h : Rem src p s) (hs : Hd s (· ≠ o.byte)) : Bad src (.varName o.rule) p [] := by
  cases o
  · exact .ref (x := .r_and_predicate) (.seq1 (.inl (x := .r_ampersand) (.term h hs.ne)))
  · exact .ref (x := .r_not_predicate) (.seq1 (.inl (x := .r_exclamation_mark) (.term h hs.ne)))

theorem ok_pre {t} (o : PreOp) (h : Rem src p (o.byte :: s)) (hpq : p < q) (ih : Ok src (.varName .r_nucleus) (p + 1) q [t]) :
    Ok src (.varName o.rule) p q [.node o.rule (some (p, q)) [t]] := by
  cases o
  · exact .ref (x := .r_and_predicate) (by omega) (.seq (ts := []) (.inl (x := .r_ampersand) (.term h)) ih)
  · exact .ref (x := .r_not_predicate) (by omega) (.seq (ts := []) (.inl (x := .r_exclamation_mark) (.term h)) ih)

theorem post_body (o : PostOp) : ∃ y, Dsl.body o.rule = .sequence (.sequence (.varName .r_nucleus) (.inlined .r_whitespace))
    (.inlined y) ∧ Dsl.body y = .terminal o.byte := by
  cases o
  · exact ⟨.r_plus, rfl, rfl⟩
  · exact ⟨.r_star, rfl, rfl⟩
  · exact ⟨.r_question_mark, rfl, rfl⟩

theorem bad_post {t} (o : PostOp) (ih : Ok src (.varName .r_nucleus) p q t) (h : Rem src q s)
    (hs : Hd s fun c => ¬ WsByte c ∧ c ≠ o.byte) : Bad src (.varName o.rule) p [] := by
  obtain ⟨y, hb, hy⟩ := post_body o
  refine .ref (ts := t) ?_
  rw [hb]
  refine (Bad.seq2 (.seq ih (ws_empty h (hs.mono fun _ h => h.1))) (.inl (ts := []) ?_)).cast (by simp)
  rw [hy]
  exact .term h (hs.mono fun _ h => h.2).ne

theorem ok_post {t} (o : PostOp) (hpq : p ≤ q) (ih : Ok src (.varName .r_nucleus) p q [t]) (h : Rem src q (o.byte :: s)) :
    Ok src (.varName o.rule) p (q + 1) [.node o.rule (some (p, q + 1)) [t]] := by
  obtain ⟨y, hb, hy⟩ := post_body o
  refine .ref (by omega) ?_
  rw [hb]
  have hw : ¬ WsByte o.byte := by cases o <;> simp [PostOp.byte, WsByte]
  refine (Ok.seq (.seq ih (ws_empty h (.cons hw))) (.inl (ts := []) ?_)).cast rfl (by simp)
  rw [hy]
  exact .term h

/-- The choice inside `Atom`. -/
def atomExpr : Expr Dsl := .subexpression (.orderedChoice (.orderedChoice (.orderedChoice (.orderedChoice (.orderedChoice
    (.varName .r_and_predicate) (.varName .r_not_predicate)) (.varName .r_one_or_more)) (.varName
    .r_zero_or_more)) (.varName .r_optional)) (.varName .r_nucleus))

theorem ok_atom_of {w : Bytes} {ts} (hw : IsWs w) (hpq : p < q) (h1 : Ok src atomExpr p q ts) (h : Rem src q (w ++ s))
    (hs : Hd s FollowA) : Ok src (.varName .r_atom) p (q + w.length) [.node .r_atom (some (p, q + w.length)) ts] :=
  (Ok.ref (x := .r_atom) (by omega) (.seq h1 (ok_ws hw h (hs.mono fun _ h => h.n.notWs)))).cast rfl (by simp)

theorem ok_atom_plain {n : DNuc} (hl : 0 < n.text.length) (h : Rem src p (n.text ++ s))
    (hst : Hd (n.text ++ s) StartC)
    (ih : Ok src (.varName .r_nucleus) p (p + n.text.length) [n.tree p]) (hs : Hd s FollowA) :
    Ok src (.varName .r_atom) p (p + (DAtom.plain n).text.length) [(DAtom.plain n).tree p] := by
  have b1 := bad_pre .and h (hst.mono fun c hc => hc.ne (by simp [PreOp.byte]))
  have b2 := bad_pre .not h (hst.mono fun c hc => hc.ne (by simp [PreOp.byte]))
  have hb : ∀ o : PostOp, Bad src (.varName o.rule) p [] := fun o => bad_post o ih h.skip (hs.mono fun c hc =>
    ⟨hc.n.notWs, by rcases hc with rfl | rfl | rfl | rfl <;> cases o <;> decide⟩)
  exact (ok_atom_of (w := []) (s := s) (fun _ h => by simp at h) (by omega) (.sub (.right (ts := []) (.choice (ts := []) (.choice (ts := [])
    (.choice (ts := []) (.choice (ts := []) b1 b2) (hb .plus)) (hb .star)) (hb .opt)) ih)) h.skip hs).cast
    (by simp [DAtom.text]) (by simp [DAtom.tree])

theorem ok_atom_pre {o : PreOp} {n : DNuc} (h : Rem src p ((DAtom.pre o n).text ++ s))
    (ih : Ok src (.varName .r_nucleus) (p + 1) (p + 1 + n.text.length) [n.tree (p + 1)]) (hs : Hd s FollowA) :
    Ok src (.varName .r_atom) p (p + (DAtom.pre o n).text.length) [(DAtom.pre o n).tree p] := by
  have h : Rem src p (o.byte :: (n.text ++ s)) := h
  have a := ok_pre o h (by omega) ih
  have e : p + 1 + n.text.length = p + (n.text.length + 1) := by omega
  have c : Ok src atomExpr p (p + 1 + n.text.length) [.node o.rule (some (p, p + 1 + n.text.length)) [n.tree (p + 1)]] := by
    cases o
    · exact .sub (.left (.left (.left (.left (.left a)))))
    · exact .sub (.left (.left (.left (.left (.right (ts := []) (bad_pre .and h (.cons (by decide))) a)))))
  exact (ok_atom_of (w := []) (s := s) (fun _ h => by simp at h) (by omega) c h.tail.skip hs).cast
    (by simp [DAtom.text]; omega) (by simp [DAtom.tree, e])

theorem ok_atom_post {o : PostOp} {n : DNuc} {w : Bytes} (hw : IsWs w)
    (h : Rem src p ((DAtom.post o n w).text ++ s)) (hst : ∀ t, Hd (n.text ++ t) StartC)
    (ih : Ok src (.varName .r_nucleus) p (p + n.text.length) [n.tree p]) (hs : Hd s FollowA) :
    Ok src (.varName .r_atom) p (p + (DAtom.post o n w).text.length) [(DAtom.post o n w).tree p] := by
  have h : Rem src p (n.text ++ o.byte :: (w ++ s)) := by simpa [DAtom.text] using h
  have b1 := bad_pre .and h ((hst _).mono fun c hc => hc.ne (by simp [PreOp.byte]))
  have b2 := bad_pre .not h ((hst _).mono fun c hc => hc.ne (by simp [PreOp.byte]))
  have a := ok_post o (by omega) ih h.skip
  have hb : ∀ o' : PostOp, o' ≠ o → Bad src (.varName o'.rule) p [] := fun o' ho => bad_post o' ih h.skip
    (.cons (by cases o <;> cases o' <;> simp [WsByte, PostOp.byte] at *))
  have c : Ok src atomExpr p (p + n.text.length + 1) [.node o.rule (some (p, p + n.text.length + 1)) [n.tree p]] := by
    cases o
    · exact .sub (.left (.left (.left (.right (ts := []) (.choice (ts := []) b1 b2) a))))
    · exact .sub (.left (.left (.right (ts := []) (.choice (ts := []) (.choice (ts := []) b1 b2) (hb .plus (by simp))) a)))
    · exact .sub (.left (.right (ts := []) (.choice (ts := []) (.choice (ts := []) (.choice (ts := []) b1 b2)
        (hb .plus (by simp))) (hb .star (by simp))) a))
  have r := h.skip.tail
  have e : p + n.text.length + 1 = p + (n.text.length + 1) := by omega
  have e' : p + n.text.length + 1 + w.length = p + (n.text.length + (w.length + 1)) := by omega
  exact (ok_atom_of hw (by omega) c r hs).cast
    (by simp [DAtom.text]; omega) (by simp [DAtom.tree, e]; omega)

/-- The repeated item of a chain. -/
def itemExpr : ChainOp → Expr Dsl
  | .seq => .subexpression (.sequence (.sequence (.inlined .r_comma) (.inlined .r_whitespace)) (.varName .r_atom))
  | .choice => .subexpression (.sequence (.sequence (.sequence (.inlined .r_whitespace) (.inlined .r_backslash)) (.inlined
    .r_whitespace)) (.varName .r_atom))
def sepRule : ChainOp → Dsl
  | .seq => .r_comma
  | .choice => .r_backslash
theorem sep_body (o : ChainOp) : Dsl.body (sepRule o) = .terminal o.byte := by cases o <;> rfl
theorem chain_body (o : ChainOp) : Dsl.body o.rule = .sequence (.sequence (.sequence (.sequence (.sequence (.varName .r_atom)
    (.inlined .r_whitespace)) (.inlined (sepRule o))) (.inlined .r_whitespace)) (.varName .r_atom))
    (.zeroOrMore (itemExpr o)) := by cases o <;> rfl

theorem sep_notWs (o : ChainOp) : ¬ WsByte o.byte := by cases o <;> simp [WsByte, ChainOp.byte]

theorem ok_sep (o : ChainOp) (h : Rem src p (o.byte :: s)) : Ok src (.inlined (sepRule o)) p (p + 1) [] := by
  refine .inl ?_; rw [sep_body]; exact .term h
theorem bad_sep (o : ChainOp) (h : Rem src p s) (hs : Hd s (· ≠ o.byte)) : Bad src (.inlined (sepRule o)) p [] := by
  refine .inl ?_; rw [sep_body]; exact .term h hs.ne

theorem ok_item {t} (o : ChainOp) {w : Bytes} (hw : IsWs w) (h : Rem src p (o.byte :: (w ++ s)))
    (hs : Hd s fun c => ¬ WsByte c) (ih : Ok src (.varName .r_atom) (p + 1 + w.length) q [t]) : Ok src (itemExpr o) p q [t] := by
  have a := ok_ws hw h.tail hs
  cases o
  · exact .sub (.seq (ts := []) (.seq (ts := []) (ok_sep .seq h) a) ih)
  · exact .sub (.seq (ts := []) (.seq (ts := []) (.seq (ts := []) (ws_empty h (.cons (sep_notWs .choice)))
      (ok_sep .choice h)) a) ih)

theorem bad_item (o : ChainOp) (h : Rem src p s) (hs : Hd s fun c => ¬ WsByte c ∧ c ≠ o.byte) : Bad src (itemExpr o) p [] := by
  cases o
  · exact .sub (.seq1 (.seq1 (bad_sep .seq h (hs.mono fun _ h => h.2))))
  · exact .sub (.seq1 (.seq1 (.seq2 (ts := []) (ws_empty h (hs.mono fun _ h => h.1))
      (bad_sep .choice h (hs.mono fun _ h => h.2)))))

theorem ok_chain {ta tb ts : List (Tree Dsl)} {q2 q3 : Nat} {s2 s3 : Bytes} (o : ChainOp) {w : Bytes} (hw : IsWs w) (hpq : p ≠ q3)
    (a1 : Ok src (.varName .r_atom) p q ta) (h : Rem src q (o.byte :: (w ++ s2))) (hs : Hd s2 fun c => ¬ WsByte c)
    (a2 : Ok src (.varName .r_atom) (q + 1 + w.length) q2 tb)
    (a3 : Ok src (.zeroOrMore (itemExpr o)) q2 q3 ts) (_ : Rem src q3 s3) :
    Ok src (.varName o.rule) p q3 [.node o.rule (some (p, q3)) (ta ++ tb ++ ts)] := by
  refine .ref hpq ?_
  rw [chain_body]
  refine (Ok.seq (.seq (.seq (.seq (.seq a1 (ws_empty h (.cons (sep_notWs o)))) (ok_sep o h)) (ok_ws hw h.tail hs)) a2) a3).cast
    rfl (by simp)

theorem bad_chain {ta : List (Tree Dsl)} (o : ChainOp) (a1 : Ok src (.varName .r_atom) p q ta) (h : Rem src q s)
    (hs : Hd s fun c => ¬ WsByte c ∧ c ≠ o.byte) : Bad src (.varName o.rule) p [] := by
  refine .ref (ts := ta) ?_
  rw [chain_body]
  exact .seq1 (.seq1 (.seq1 ((Bad.seq2 (.seq a1 (ws_empty h (hs.mono fun _ h => h.1)))
    (bad_sep o h (hs.mono fun _ h => h.2))).cast (by simp))))

def rhsChoice : Expr Dsl := .subexpression (.orderedChoice (.orderedChoice (.varName .r_sequence)
    (.varName .r_ordered_choice)) (.varName .r_atom))

theorem ok_rhs_of {w : Bytes} {ts} (hw : IsWs w) (h : Rem src p (w ++ s)) (hs : Hd s fun c => ¬ WsByte c) (hpq : p < q)
    (h1 : Ok src rhsChoice (p + w.length) q ts) :
    Ok src (.varName .r_rhs) p q [.node .r_rhs (some (p, q)) ts] :=
  .ref (x := .r_rhs) (by omega) (.seq (ts := []) (ok_ws hw h hs) h1)

theorem DNuc.pos {n : DNuc} (hn : n.WF) : 0 < n.text.length := by
  cases n with
  | mk c w =>
    have : 0 < c.text.length := by
      have hn := hn.1
      cases c with
      | range => simp [DCore.text]; omega
      | hook => simp [DCore.text]; omega
      | sub => simp [DCore.text]
      | term t => cases t <;> simp [DCore.text, DTerm.text]
      | str t =>
        cases t with
        | quoted => simp [DCore.text, DStr.text]
        | hex => simp [DCore.text, DStr.text, hexText]
        | int ds => cases ds with
          | nil => exact hn.elim
          | cons => simp [DCore.text, DStr.text]
      | ref => simp [DCore.text]
    simp [DNuc.text]; omega

theorem DAtom.pos {a : DAtom} (ha : a.WF) : 0 < a.text.length := by
  cases a with
  | plain n => exact DNuc.pos ha.1
  | pre o n => simp [DAtom.text]
  | post o n w => simp [DAtom.text]; omega

theorem Hd.append_cons {w s : Bytes} {P : UInt8 → Prop} (h : ∀ c ∈ w, P c) (hs : Hd s P) : Hd (w ++ s) P := Hd.append h hs

theorem follow_afterCore {w : Bytes} (hw : IsWs w) (hs : Hd s FollowN) : Hd (w ++ s) fun c => c ≠ 39 ∧ ¬ IsHexDigit c :=
  Hd.append (fun c hc => by rcases hw c hc with rfl | rfl | rfl | rfl <;> simp [IsHexDigit])
    (hs.mono fun c hc => by rcases hc with rfl | rfl | rfl | rfl | rfl | rfl | rfl <;> simp [IsHexDigit])

theorem sepFollowA (o : ChainOp) : FollowA o.byte := by cases o <;> simp [FollowA, ChainOp.byte]

theorem DAtoms.start (o : ChainOp) (as : DAtoms) : Hd (as.text o ++ s) FollowA := by
  cases as <;> exact .cons (sepFollowA o)

mutual
theorem ok_rhs : ∀ (r : DRhs), r.WF → ∀ p s, Rem src p (r.text ++ s) → Hd s FollowR →
    Ok src (.varName .r_rhs) p (p + r.text.length) [r.tree p]
  | .atom w a, hw, p, s, h, hs => by
    have h : Rem src p (w ++ (a.text ++ s)) := by simpa [DRhs.text] using h
    have ih := ok_atom a hw.2 _ _ h.skip (hs.mono fun _ h => h.a)
    have hr := h.skip.skip
    have hb : ∀ o : ChainOp, Bad src (.varName o.rule) (p + w.length) [] := fun o => bad_chain o ih hr (hs.mono fun c hc =>
      ⟨hc.a.n.notWs, by rcases hc with rfl | rfl <;> cases o <;> decide⟩)
    have hp := DAtom.pos hw.2
    have e : p + w.length + a.text.length = p + (w.length + a.text.length) := by omega
    refine (ok_rhs_of hw.1 h (DAtom.start hw.2) (by omega) (.sub (.right (ts := []) (.choice (ts := []) (hb .seq) (hb .choice)) ih))).cast ?_ ?_
    · simp [DRhs.text]; omega
    · simp [DRhs.text, DRhs.tree, e]
  | .chain o w a as, hw, p, s, h, hs => by
    have h : Rem src p (w ++ (a.text ++ (as.text o ++ s))) := by simpa [DRhs.text] using h
    have ih := ok_atom a hw.2.1 _ _ h.skip (DAtoms.start o as)
    have hr := h.skip.skip
    have hp := DAtom.pos hw.2.1
    have e : p + w.length + a.text.length + (as.text o).length = p + (w.length + (a.text.length + (as.text o).length)) := by omega
    have hch : Ok src (.varName o.rule) (p + w.length) (p + (w.length + (a.text.length + (as.text o).length)))
        [.node o.rule (some (p + w.length, p + (w.length + (a.text.length + (as.text o).length))))
          (a.tree (p + w.length) :: as.trees o (p + w.length + a.text.length))] := by
      cases as with
      | one w2 a2 =>
        have hr' : Rem src (p + w.length + a.text.length) (o.byte :: (w2 ++ (a2.text ++ s))) := by
          simpa [DAtoms.text] using hr
        have hwf : IsWs w2 ∧ a2.WF := hw.2.2
        have ih2 := ok_atom a2 hwf.2 _ _ hr'.tail.skip (hs.mono fun _ h => h.a)
        have hend := hr'.tail.skip.skip
        have st : Ok src (.zeroOrMore (itemExpr o)) _ _ [] := .starNil (bad_item o hend (hs.mono fun c hc =>
          ⟨hc.a.n.notWs, by rcases hc with rfl | rfl <;> cases o <;> decide⟩))
        refine (ok_chain o hwf.1 (by omega) ih hr' (DAtom.start hwf.2) ih2 st hend).cast ?_ ?_
        · simp [DAtoms.text]; omega
        · simp [DAtoms.text, DAtoms.trees]; omega
      | cons w2 a2 as =>
        have hr' : Rem src (p + w.length + a.text.length) (o.byte :: (w2 ++ (a2.text ++ (as.text o ++ s)))) := by
          simpa [DAtoms.text] using hr
        have hwf : IsWs w2 ∧ a2.WF ∧ as.WF := hw.2.2
        have ih2 := ok_atom a2 hwf.2.1 _ _ hr'.tail.skip (DAtoms.start o as)
        have st := ok_atoms as hwf.2.2 o _ _ hr'.tail.skip.skip hs
        refine (ok_chain o hwf.1 (by omega) ih hr' (DAtom.start hwf.2.1) ih2 st hr'.tail.skip.skip.skip).cast ?_ ?_
        · simp [DAtoms.text]; omega
        · simp [DAtoms.text, DAtoms.trees]; omega
    have hall : Ok src rhsChoice (p + w.length) (p + (w.length + (a.text.length + (as.text o).length)))
        [.node o.rule (some (p + w.length, p + (w.length + (a.text.length + (as.text o).length))))
          (a.tree (p + w.length) :: as.trees o (p + w.length + a.text.length))] := by
      cases o
      · exact .sub (.left (.left hch))
      · have hb : Bad src (.varName ChainOp.seq.rule) (p + w.length) [] := bad_chain .seq ih hr (by
          cases as <;> exact .cons (by simp [WsByte, ChainOp.byte]))
        exact .sub (.left (.right (ts := []) hb hch))
    refine (ok_rhs_of hw.1 h (DAtom.start hw.2.1) (by omega) hall).cast ?_ ?_
    · simp [DRhs.text]
    · simp [DRhs.text, DRhs.tree]
theorem ok_atoms : ∀ (as : DAtoms), as.WF → ∀ o p s, Rem src p (as.text o ++ s) → Hd s FollowR →
    Ok src (.zeroOrMore (itemExpr o)) p (p + (as.text o).length) (as.trees o p)
  | .one w a, hw, o, p, s, h, hs => by
    have h : Rem src p (o.byte :: (w ++ (a.text ++ s))) := by simpa [DAtoms.text] using h
    have ih := ok_atom a hw.2 _ _ h.tail.skip (hs.mono fun _ h => h.a)
    have hend := h.tail.skip.skip
    have st : Ok src (.zeroOrMore (itemExpr o)) _ _ [] := .starNil (bad_item o hend (hs.mono fun c hc =>
      ⟨hc.a.n.notWs, by rcases hc with rfl | rfl <;> cases o <;> decide⟩))
    refine (Ok.starCons (ok_item o hw.1 h (DAtom.start hw.2) ih) st).cast ?_ ?_
    · simp [DAtoms.text]; omega
    · simp [DAtoms.trees]
  | .cons w a as, hw, o, p, s, h, hs => by
    have h : Rem src p (o.byte :: (w ++ (a.text ++ (as.text o ++ s)))) := by simpa [DAtoms.text] using h
    have ih := ok_atom a hw.2.1 _ _ h.tail.skip (DAtoms.start o as)
    have st := ok_atoms as hw.2.2 o _ _ h.tail.skip.skip hs
    refine (Ok.starCons (ok_item o hw.1 h (DAtom.start hw.2.1) ih) st).cast ?_ ?_
    · simp [DAtoms.text]; omega
    · simp [DAtoms.trees]
theorem ok_atom : ∀ (a : DAtom), a.WF → ∀ p s, Rem src p (a.text ++ s) → Hd s FollowA →
    Ok src (.varName .r_atom) p (p + a.text.length) [a.tree p]
  | .plain n, hw, p, s, h, hs => by
    have h : Rem src p (n.text ++ s) := h
    exact ok_atom_plain (DNuc.pos hw.1) h (DNuc.start hw.1 hw.2) (ok_nuc n hw.1 _ _ h (hs.mono fun _ h => h.n)) hs
  | .pre o n, hw, p, s, h, hs => by
    have h' : Rem src p (o.byte :: (n.text ++ s)) := h
    exact ok_atom_pre h (ok_nuc n hw _ _ h'.tail (hs.mono fun _ h => h.n)) hs
  | .post o n w, hw, p, s, h, hs => by
    have h' : Rem src p (n.text ++ o.byte :: (w ++ s)) := by simpa [DAtom.text] using h
    exact ok_atom_post hw.2.2 h (fun t => DNuc.start hw.1 hw.2.1) (ok_nuc n hw.1 _ _ h' (.cons (by
      cases o <;> simp [FollowN, PostOp.byte]))) hs
theorem ok_nuc : ∀ (n : DNuc), n.WF → ∀ p s, Rem src p (n.text ++ s) → Hd s FollowN →
    Ok src (.varName .r_nucleus) p (p + n.text.length) [n.tree p]
  | .mk c w, hw, p, s, h, hs => by
    have h : Rem src p (c.text ++ (w ++ s)) := by simpa [DNuc.text] using h
    have hp : 0 < (DNuc.mk c w).text.length := DNuc.pos hw
    have hcw : IsWs w := hw.2
    have hgo : ∀ c' : DCore, c' = c → (∀ w0 w1 lo hi w2, c' ≠ .range w0 w1 lo hi w2) →
        Ok src coreExpr p (p + c'.text.length) [c'.tree p []] → Ok src (.varName .r_nucleus) p (p + (DNuc.mk c w).text.length) [(DNuc.mk c w).tree p] := by
      intro c' hc hne hok
      subst hc
      by_cases h0 : c'.text.length = 0
      · exfalso
        have := DNuc.pos (n := .mk c' []) ⟨hw.1, fun _ h => by simp at h⟩
        simp [DNuc.text] at this
        omega
      · refine (ok_nuc_of hcw (by omega) hok h.skip hs).cast (by simp [DNuc.text]; omega) ?_
        simp [DNuc.tree, DNuc.text, DCore.tree_ws hne [] w, Nat.add_assoc]
    cases c with
    | range w0 w1 lo hi w2 =>
      obtain ⟨h0, h1, hlo, hhi, h2⟩ : IsWs w0 ∧ IsWs w1 ∧ lo.WF ∧ hi.WF ∧ IsWs w2 := hw.1
      have hok := ok_core_range h0 h1 hlo hhi h2 hcw h hs
      have hr : Rem src (p + ((DCore.range w0 w1 lo hi w2).text.length + w.length)) s := by
        have := h.skip.skip
        rwa [Nat.add_assoc] at this
      have e : p + ((DCore.range w0 w1 lo hi w2).text.length + w.length) = p + (DNuc.mk (.range w0 w1 lo hi w2) w).text.length := by
        simp [DNuc.text]
      refine (ok_nuc_of (w := []) (s := s) (fun _ h => by simp at h) (by omega) hok hr hs).cast (by simpa using e) ?_
      simp [DNuc.tree, DNuc.text]
    | hook nm r =>
      have hwf : IsName nm ∧ r.WF := hw.1
      have h' : Rem src p (nm ++ 40 :: (r.text ++ 41 :: (w ++ s))) := by simpa [DCore.text] using h
      exact hgo _ rfl (by simp) (ok_core_hook hwf.1 h (ok_rhs r hwf.2 _ _ h'.skip.tail (.cons (by simp [FollowR]))))
    | sub r =>
      have hwf : r.WF := hw.1
      have h' : Rem src p (40 :: (r.text ++ 41 :: (w ++ s))) := by simpa [DCore.text] using h
      exact hgo _ rfl (by simp) (ok_core_sub h (ok_rhs r hwf _ _ h'.tail (.cons (by simp [FollowR]))))
    | term t => exact hgo _ rfl (by simp) (ok_core_term hw.1 h ((follow_afterCore hcw hs).mono fun _ h => h.1))
    | str t => exact hgo _ rfl (by simp) (ok_core_str hw.1 h ((follow_afterCore hcw hs).mono fun _ h => h.2))
    | ref nm => exact hgo _ rfl (by simp) (ok_core_ref hw.1 h)
end

end
end PP.Gen
