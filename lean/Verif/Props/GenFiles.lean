import Verif.Props.Generator
import Verif.Props.Kernels
import Verif.Lemmas.Gen.Longest

/-! # The generator: C33, C34, C35, C37 -/
namespace PP.Gen

section
variable {g : DGrammar} {ord : HashOrd}

theorem never_code_of_panics (hw : g.WF) (hsm : g.text.length < 82000000)
    (h : g.Dangling ∨ (∃ r ∈ g, r.rhs.Panics) ∨ ∃ r ∈ g, ∃ k ∈ r.comments, k.Panics) (n : Nat) (res : GenResult) :
    generateParser ord n g.text ≠ .ok res := by
  intro h1
  obtain ⟨N, hN⟩ := (C53_generator_panics_iff hw hsm ord).2.mpr h
  obtain ⟨e, he⟩ := hN N (Nat.le_refl _)
  have := (gen_conv hw hsm ord).eq (n := n) (by rw [h1]; simp)
  have h2 := (gen_conv hw hsm ord).eq (n := N) (by rw [he]; simp)
  rw [h1] at this; rw [he, ← this] at h2; cases h2

/-! ## C33: the empty terminal -/

/-- C33: a rule `<X> = '';` becomes a function for the sequence of two double-quote terminals ... -/
theorem C33_empty_terminal_code (hw : g.WF) (hsm : g.text.length < 82000000) {n : Nat} {c : GeneratedCode}
    (h : generateParser ord n g.text = .ok (.code c)) {i : Nat} {r : DRule} (hr : g[i]? = some r) {w w' : Bytes}
    (he : r.rhs = .atom w (.plain (.mk (.term .eps) w'))) :
    ∃ k, c.rules[i]? = some k ∧ execLines .empty k.lines = some (.sequence (.terminal 34) (.terminal 34)) := by
  obtain ⟨refs, _, _, h3⟩ := denotes_grammar hw hsm h
  obtain ⟨k, h4, _, h5⟩ := h3 i r hr
  exact ⟨k, h4, by rw [h5, he]; rfl⟩

/-- ... which matches exactly the two bytes `""`, so that it never succeeds without consuming, ... -/
theorem C33_empty_terminal_matches_two_quotes {R U : Type} [DecidableEq R] (P : Parser R U) (src : Source) {k p : Nat}
    {st : St R U} {b q st'} (h : Returns P src (.sequence (.terminal 34) (.terminal 34)) k p st b q st') :
    (b = true ↔ p + 1 < src.len ∧ src.bytes[p]? = some 34 ∧ src.bytes[p + 1]? = some 34) ∧ (b = true → q = p + 2) := by
  have key : ∀ p, (terminalKernel src p 34) = if p < src.len ∧ src.bytes[p]? = some 34 then (true, p + 1) else (false, p) := by
    intro p
    unfold terminalKernel Source.getChar
    by_cases h : p < src.len <;> simp [h]
  obtain ⟨n, h⟩ := h
  match n, h with
  | n + 2, h =>
    have h : sequenceKernel (liftPure fun p => terminalKernel src p 34) (liftPure fun p => terminalKernel src p 34) k p st = .ok (b, q, st') := h
    simp only [sequenceKernel, liftPure, key, Out.bind_ok] at h
    by_cases h1 : p < src.len ∧ src.bytes[p]? = some 34
    · by_cases h2 : p + 1 < src.len ∧ src.bytes[p + 1]? = some 34
      · simp [h1, h2] at h
        obtain ⟨rfl, rfl, _⟩ := h
        simp [h1, h2]
      · simp only [if_pos h1, if_neg h2] at h
        simp at h
        obtain ⟨rfl, rfl, _⟩ := h
        refine ⟨⟨fun h => by simp at h, fun h => absurd ⟨h.1, h.2.2⟩ h2⟩, fun h => by simp at h⟩
    · simp only [if_neg h1] at h
      simp at h
      obtain ⟨rfl, rfl, _⟩ := h
      refine ⟨⟨fun h => by simp at h, fun h => absurd ⟨by omega, h.2.1⟩ h1⟩, fun h => by simp at h⟩

/-- ... whereas what is written should match the empty string at every position of every source. -/
theorem C33_written_meaning_matches_empty (refs : Refs) (w w' : Bytes) (body : Bytes → Expr Bytes) (src : Source) (p : Nat) :
    ∃ e, (DRhs.atom w (.plain (.mk (.term .eps) w'))).meaning written refs = some e ∧ Peg body src e p true p :=
  ⟨.stringTerminal [], rfl, .string_ok (d := []) (Or.inl rfl) (by simp [Source.slice])⟩

/-! ## C34: range bounds -/

/-- C34: bounds given by an ASCII character or by a hexadecimal literal below 2^32 are emitted exactly: a rule made of one
range becomes a function that succeeds at `p` exactly on a byte between the bounds as written, and consumes it. -/
theorem C34_bounds_exact (hw : g.WF) (hsm : g.text.length < 82000000) {n : Nat} {c : GeneratedCode}
    (h : generateParser ord n g.text = .ok (.code c)) {i : Nat} {r : DRule} (hr : g[i]? = some r) {w w0 w1 w2 w' : Bytes}
    {lo hi : DBound} (he : r.rhs = .atom w (.plain (.mk (.range w0 w1 lo hi w2) w'))) (hlo : lo.Faithful) (hhi : hi.Faithful) :
    ∃ k e a b, c.rules[i]? = some k ∧ execLines .empty k.lines = some e ∧ lo.meaning = some a ∧ hi.meaning = some b ∧
      ∀ (U : Type) (P : Parser Bytes U) (src : Source) (key p : Nat) (st : St Bytes U), ∃ m q, Returns P src e key p st m q st ∧
        (m = true ↔ p < src.len ∧ ∃ x : UInt8, src.bytes[p]? = some x ∧ a ≤ x.toNat ∧ x.toNat ≤ b) ∧ (m = true → q = p + 1) := by
  obtain ⟨refs, _, _, h3⟩ := denotes_grammar hw hsm h
  obtain ⟨k, h4, _, h5⟩ := h3 i r hr
  have key : ∀ {d : DBound}, d.Faithful → ∃ a, d.emitted = some a ∧ d.meaning = some a := by
    intro d hd
    match d, hd with
    | .term (.chr c), _ => exact ⟨_, rfl, rfl⟩
    | .hex ds, _ => exact ⟨_, rfl, rfl⟩
  obtain ⟨a, ha, ha'⟩ := key hlo
  obtain ⟨b, hb, hb'⟩ := key hhi
  refine ⟨k, .matchRange a b, a, b, h4, ?_, ha', hb', fun U P src key p st => ?_⟩
  · rw [h5, he]
    have ha : emitted.bound lo = some a := ha
    have hb : emitted.bound hi = some b := hb
    simp [DRhs.meaning, DAtom.meaning, DNuc.meaning, DCore.meaning, ha, hb]
  · obtain ⟨m, q, hret⟩ := C13_terminals_return (P := P) (src := src) (.matchRange a b) (Or.inr (Or.inr ⟨a, b, rfl⟩)) key p st
    refine ⟨m, q, hret, ?_⟩
    rcases (C13_range.mp hret).2 with ⟨rfl, rfl, hr⟩ | ⟨rfl, rfl, hr⟩
    · exact ⟨⟨fun _ => hr, fun _ => rfl⟩, fun _ => rfl⟩
    · exact ⟨⟨fun h => (by simp at h), fun h => absurd h hr⟩, fun h => by simp at h⟩

/-- C34: an escaped bound (`'\n'`, `'\r'`, `'\t'`) is emitted as the backslash, 92, which is not the code of the character. -/
theorem C34_escaped_bound_is_backslash (hw : g.WF) (hsm : g.text.length < 82000000) {n : Nat} {c : GeneratedCode}
    (h : generateParser ord n g.text = .ok (.code c)) {i : Nat} {r : DRule} (hr : g[i]? = some r) {w w0 w1 w2 w' : Bytes}
    {x : UInt8} {hi : DBound} (he : r.rhs = .atom w (.plain (.mk (.range w0 w1 (.term (.esc x)) hi w2) w'))) (hhi : hi.Faithful) :
    ∃ k b, c.rules[i]? = some k ∧ hi.meaning = some b ∧ execLines .empty k.lines = some (.matchRange 92 b) ∧
      (DBound.term (.esc x)).meaning ≠ some 92 := by
  obtain ⟨refs, _, _, h3⟩ := denotes_grammar hw hsm h
  obtain ⟨k, h4, _, h5⟩ := h3 i r hr
  have key : ∀ {d : DBound}, d.Faithful → ∃ a, d.emitted = some a ∧ d.meaning = some a := by
    intro d hd
    match d, hd with
    | .term (.chr c), _ => exact ⟨_, rfl, rfl⟩
    | .hex ds, _ => exact ⟨_, rfl, rfl⟩
  obtain ⟨b, hb, hb'⟩ := key hhi
  refine ⟨k, b, h4, hb', ?_, ?_⟩
  · rw [h5, he]
    have hb : emitted.bound hi = some b := hb
    have ha : emitted.bound (.term (.esc x)) = some 92 := rfl
    simp [DRhs.meaning, DAtom.meaning, DNuc.meaning, DCore.meaning, ha, hb]
  · simp only [DBound.meaning, escMeaning]
    split
    · simp
    · split <;> simp

/-- C34: with a bound `''` or a decimal bound the generator never returns. -/
theorem C34_empty_or_decimal_bound_panics (hw : g.WF) (hsm : g.text.length < 82000000) {r : DRule} (hr : r ∈ g)
    {w w0 w1 w2 w' : Bytes} {lo hi : DBound} (he : r.rhs = .atom w (.plain (.mk (.range w0 w1 lo hi w2) w')))
    (hb : ∃ d, (d = lo ∨ d = hi) ∧ (d = .term .eps ∨ ∃ ds, d = .int ds)) :
    (∀ n res, generateParser ord n g.text ≠ .ok res) ∧ ∃ N, ∀ n, N ≤ n → ∃ e, generateParser ord n g.text = .panic e := by
  have hp : g.Dangling ∨ (∃ r ∈ g, r.rhs.Panics) ∨ ∃ r ∈ g, ∃ k ∈ r.comments, k.Panics := by
    refine Or.inr (Or.inl ⟨r, hr, ?_⟩)
    rw [he]
    show lo.Panics ∨ hi.Panics
    obtain ⟨d, hd, h⟩ := hb
    have : d.Panics := by
      rcases h with rfl | ⟨ds, rfl⟩ <;> trivial
    rcases hd with rfl | rfl
    · exact Or.inl this
    · exact Or.inr this
  exact ⟨never_code_of_panics hw hsm hp, (C53_generator_panics_iff hw hsm ord).2.mpr hp⟩

/-! ## C35: accepted and rejected files -/

/-- C35: the generator rejects exactly the files that are not written grammars. -/
theorem C35_rejects_iff_not_a_grammar {src : Bytes} (hsm : src.length < 82000000) (ord : HashOrd) :
    (∃ N l, ∀ n, N ≤ n → generateParser ord n src = .ok (.syntaxError l)) ↔ ¬ ∃ g : DGrammar, g.WF ∧ g.text = src := by
  constructor
  · rintro ⟨N, l, h⟩ ⟨g, hw, rfl⟩
    have h1 := (gen_conv hw hsm ord).eq (n := N) (by rw [h N (Nat.le_refl _)]; simp)
    rw [h N (Nat.le_refl _)] at h1
    exact output_not_error h1.symm
  · intro hn
    rcases generator_cases hsm with ⟨b, q, hp, _, hq⟩ | h
    · obtain ⟨_, _, N, hN⟩ := generator_rejects ord hsm hp hq
      exact ⟨N, _, hN⟩
    · exact absurd h hn

/-- C35: the line reported is the one where the longest prefix of the file that is a written grammar ends. -/
theorem C35_error_line {src : Bytes} (hsm : src.length < 82000000) {n l : Nat} (h : generateParser ord n src = .ok (.syntaxError l)) :
    ∃ g t, g.WF ∧ src = DGrammar.text g ++ t ∧ t ≠ [] ∧ l = 1 + (DGrammar.text g).count 10 ∧
      ∀ g' t', DGrammar.WF g' → src = DGrammar.text g' ++ t' → (DGrammar.text g').length ≤ (DGrammar.text g).length := by
  rcases generator_cases hsm with ⟨b, q, hp, hle, hq⟩ | ⟨g, hw, rfl⟩
  · have h1 := (generator_rejects ord hsm hp hq).eq (n := n) (by rw [h]; simp)
    have h1 : generateParser ord n src = _ := h1
    rw [h] at h1
    injection h1 with h1
    injection h1 with h1
    obtain ⟨⟨g, hg, e⟩, hmax⟩ := stops_after_longest (by omega) hp
    refine ⟨g, src.drop q, hg, by rw [e, List.take_append_drop], ?_, by rw [e]; exact h1, ?_⟩
    · intro h; have := congrArg List.length h; simp at this; omega
    · intro g' t' hg' e'
      rw [e]
      have := hmax g' hg' t' e'
      simp; omega
  · have h1 := (gen_conv hw hsm ord).eq (n := n) (by rw [h]; simp)
    rw [h] at h1
    exact absurd h1.symm output_not_error

/-- C35: the generator always comes to an end. -/
theorem C35_generator_terminates {src : Bytes} (hsm : src.length < 82000000) (ord : HashOrd) :
    ∃ N res, res ≠ .oof ∧ ∀ n, N ≤ n → generateParser ord n src = res := by
  rcases generator_cases hsm with ⟨b, q, hp, hle, hq⟩ | ⟨g, hw, rfl⟩
  · obtain ⟨h1, _, N, hN⟩ := generator_rejects ord hsm hp hq
    exact ⟨N, _, h1, hN⟩
  · obtain ⟨h1, _, N, hN⟩ := gen_conv hw hsm ord
    exact ⟨N, _, h1, hN⟩

/-- C35: the empty file is accepted (no rules, no variants), although the DSL's own `parse` fails on it. -/
theorem C35_empty_file_is_accepted (ord : HashOrd) :
    (∃ N, ∀ n, N ≤ n → generateParser ord n [] = .ok (.code ⟨[], [], 0, []⟩)) ∧
    ∃ N, ∀ n, N ≤ n → ∃ t, parse dslParser ⟨[]⟩ n = .ok (false, 0, t) := by
  have hw : DGrammar.WF [] := fun _ h => by simp at h
  constructor
  · obtain ⟨_, _, N, hN⟩ := gen_conv (g := []) hw (by decide) ord
    refine ⟨N, fun n hn => ?_⟩
    rw [show ([] : Bytes) = DGrammar.text [] from rfl, show generateParser ord n (DGrammar.text []) = _ from hN n hn]
    have hd : ¬ DGrammar.Dangling [] := by
      rintro ⟨x, y, ⟨r, hr, _⟩, _⟩
      simp [DGrammar.lookup] at hr
    unfold DGrammar.output
    rw [if_neg hd]
    have h0 : variantsOf (DGrammar.symbols []) = [] := by
      have : (DGrammar.symbols []).names = [] := by
        rw [List.eq_nil_iff_forall_not_mem]
        intro x hx
        obtain ⟨r, hr, _⟩ := (symbols_mem []).mp hx
        cases hr
      unfold variantsOf; rw [this]; rfl
    rw [h0]; rfl
  · have h0 : (match parse dslParser ⟨[]⟩ 60 with | .ok (b, q, _) => b = false && q = 0 | _ => false) = true := by decide +kernel
    refine ⟨60, fun n hn => ?_⟩
    cases h : parse dslParser ⟨[]⟩ 60 with
    | oof => rw [h] at h0; cases h0
    | panic e => rw [h] at h0; cases h0
    | ok x =>
      obtain ⟨b, q, t⟩ := x
      rw [h] at h0
      simp only [Bool.and_eq_true, decide_eq_true_eq] at h0
      obtain ⟨rfl, rfl⟩ := h0
      exact ⟨t, by rw [parse_mono hn (by rw [h]; simp)]; exact h⟩

/-! ## C37: comments -/

/-- C37: a rule's function carries the last comment after the rule, each line without the white space around it; no comment
if there is none. -/
theorem C37_comment_text (hw : g.WF) (hsm : g.text.length < 82000000) {n : Nat} {c : GeneratedCode}
    (h : generateParser ord n g.text = .ok (.code c)) {i : Nat} {r : DRule} (hr : g[i]? = some r) :
    ∃ k, c.rules[i]? = some k ∧ (r.comments = [] → k.comment = none) ∧
      ∀ d, r.comments.getLast? = some d → ∃ ls out, LinesOf d.body ls ∧ k.comment = some out ∧ out.length = ls.length ∧
        ∀ (j : Nat) l l', ls[j]? = some l → out[j]? = some l' → Trimmed IsSpace l l' := by
  obtain ⟨_, h2, _, _⟩ := output_ok (gen_code hw hsm h)
  obtain ⟨_, hget⟩ := h2.get
  obtain ⟨k, hs, hk, hcode⟩ := hget i r hr
  have key : ∀ (cs : List DComment) a o, commentsLines a cs = .ok o → (cs = [] → o = a) ∧ ∀ d, cs.getLast? = some d → ∃ ls, d.lines = .ok ls ∧ o = some ls := by
    intro cs
    induction cs with
    | nil => intro a o h; injection h with h; subst h; simp
    | cons c cs ih =>
      intro a o h
      obtain ⟨l, h1, h2⟩ := Out.bind_eq_ok.mp h
      obtain ⟨i1, i2⟩ := ih _ _ h2
      refine ⟨by simp, fun d hd => ?_⟩
      cases cs with
      | nil => simp at hd; subst hd; exact ⟨l, h1, i1 rfl⟩
      | cons c' cs => exact i2 d (by simpa using hd)
  obtain ⟨k1, k2⟩ := key _ _ _ hcode.comment
  refine ⟨k, hk, k1, fun d hd => ?_⟩
  obtain ⟨ls, h1, h2⟩ := k2 d hd
  have : ls = (splitLines d.body).map trim := by
    unfold DComment.lines at h1
    split at h1
    · cases h1
    · split at h1
      · cases h1
      · injection h1 with h1; exact h1.symm
  subst this
  refine ⟨splitLines d.body, _, splitLines_lines _, h2, by simp, fun j l l' hl hl' => ?_⟩
  rw [List.getElem?_map, hl] at hl'
  injection hl' with hl'
  subst hl'
  exact trim_trimmed l

/-- C37: a grammar with an empty comment `##` is never turned into code: the generator panics. -/
theorem C37_empty_comment_panics (hw : g.WF) (hsm : g.text.length < 82000000) {r : DRule} (hr : r ∈ g) {d : DComment}
    (hd : d ∈ r.comments) (he : d.body = []) :
    (∀ n res, generateParser ord n g.text ≠ .ok res) ∧ ∃ N, ∀ n, N ≤ n → ∃ e, generateParser ord n g.text = .panic e := by
  have hp : g.Dangling ∨ (∃ r ∈ g, r.rhs.Panics) ∨ ∃ r ∈ g, ∃ k ∈ r.comments, k.Panics :=
    Or.inr (Or.inr ⟨r, hr, d, hd, Or.inl he⟩)
  exact ⟨never_code_of_panics hw hsm hp, (C53_generator_panics_iff hw hsm ord).2.mpr hp⟩

/-! ## Cases that meet the hypotheses -/

/-- `<A>=rhs;` and one comment -/
def oneRule (r : DRhs) (cs : List DComment) : DGrammar := [⟨nm "A", .plain [], r, [], cs⟩]

theorem oneRule_wf {r : DRhs} {cs} (hr : r.WF) (hc : ∀ c ∈ cs, c.WF) : (oneRule r cs).WF := by
  intro x hx
  simp only [oneRule, List.mem_singleton] at hx
  subst hx
  exact ⟨isName_of (c := 65) (cs := []) (by decide) (by decide), isWs_of [] (by decide), hr, isWs_of [] (by decide), hc⟩

theorem oneRule_code {r : DRhs} {cs} (hr : r.WF) (hc : ∀ c ∈ cs, c.WF) (hsm : (oneRule r cs).text.length < 82000000)
    (hl : r.lefts = []) (hp : ¬ r.Panics) (hcp : ∀ c ∈ cs, ¬ c.Panics) (ord : HashOrd) :
    ∃ n c, generateParser ord n (oneRule r cs).text = .ok (.code c) := by
  obtain ⟨N, hN⟩ := (C53_generator_panics_iff (oneRule_wf hr hc) hsm ord).1.mpr (by
    rintro (⟨x, y, ⟨r', h1, h2⟩, _⟩ | ⟨r', h1, h2⟩ | ⟨r', h1, k, h2, h3⟩)
    · have : r' ∈ oneRule r cs := by
        unfold DGrammar.lookup at h1
        simpa using List.mem_of_find?_eq_some h1
      simp only [oneRule, List.mem_singleton] at this
      subst this
      rw [show (DRule.mk (nm "A") (.plain []) r [] cs).rhs = r from rfl, hl] at h2
      cases h2
    · simp only [oneRule, List.mem_singleton] at h1
      subst h1; exact hp h2
    · simp only [oneRule, List.mem_singleton] at h1
      subst h1; exact hcp k h2 h3)
  obtain ⟨c, hc⟩ := hN N (Nat.le_refl _)
  exact ⟨N, c, hc⟩

/-- `<A>='';` (C33) -/
example : ∃ n c, generateParser .id n (oneRule (.atom [] (.plain (.mk (.term .eps) []))) []).text = .ok (.code c) ∧
    (oneRule (.atom [] (.plain (.mk (.term .eps) []))) []).text = bytesOf "<A>='';" := by
  obtain ⟨n, c, h⟩ := oneRule_code (r := .atom [] (.plain (.mk (.term .eps) []))) (cs := [])
    ⟨isWs_of _ (by decide), ⟨trivial, isWs_of _ (by decide)⟩, rfl⟩ (by simp) (by decide +kernel) rfl (fun h => h) (by simp) .id
  exact ⟨n, c, h, by decide +kernel⟩

def rangeRhs (lo hi : DBound) : DRhs := .atom [] (.plain (.mk (.range [] [] lo hi []) []))
theorem rangeRhs_wf {lo hi : DBound} (h : lo.WF) (h' : hi.WF) : (rangeRhs lo hi).WF :=
  ⟨isWs_of _ (by decide), ⟨⟨isWs_of _ (by decide), isWs_of _ (by decide), h, h', isWs_of _ (by decide)⟩, isWs_of _ (by decide)⟩, rfl⟩

/-- `<A>=['a'..0x7A];` (C34, faithful) -/
example : (∃ n c, generateParser .id n (oneRule (rangeRhs (.term (.chr 97)) (.hex [55, 65])) []).text = .ok (.code c)) ∧
    (DBound.term (.chr 97)).Faithful ∧ (DBound.hex [55, 65]).Faithful := by
  refine ⟨oneRule_code (rangeRhs_wf (lo := .term (.chr 97)) (hi := .hex [55, 65]) trivial ⟨by simp, ?_⟩) (by simp) (by decide +kernel) rfl ?_ (by simp) .id, ?_, ?_⟩
  · intro d hd
    simp only [List.mem_cons, List.not_mem_nil, or_false] at hd
    rcases hd with rfl | rfl <;> simp [IsHexDigit]
  · rintro (h | h)
    · exact absurd h (by simp [DBound.Panics, IsCont])
    · exact absurd h (by simp [DBound.Panics, hexValue])
  · show (97 : UInt8) < 128; decide
  · show hexValue [55, 65] < 4294967296; decide

/-- `<A>=['\\n'..'z'];` (C34, escaped) -/
example : ∃ n c, generateParser .id n (oneRule (rangeRhs (.term (.esc 110)) (.term (.chr 122))) []).text = .ok (.code c) := by
  refine oneRule_code (rangeRhs_wf (lo := .term (.esc 110)) (hi := .term (.chr 122)) (Or.inl rfl) trivial) (by simp) (by decide +kernel) rfl ?_ (by simp) .id
  rintro (h | h)
  · exact h
  · exact absurd h (by simp [DBound.Panics, IsCont])

/-- `<A>=[''..'z'];` (C34, panic) and `<A>='x';##` (C37, panic) are written grammars. -/
example : (oneRule (rangeRhs (.term .eps) (.term (.chr 122))) []).WF ∧
    (oneRule (.atom [] (chrA 120)) [⟨[], []⟩]).WF :=
  ⟨oneRule_wf (rangeRhs_wf trivial trivial) (by simp),
   oneRule_wf ⟨isWs_of _ (by decide), ⟨trivial, isWs_of _ (by decide)⟩, rfl⟩ (by
     intro c hc; simp at hc; subst hc; exact ⟨by simp, isWs_of _ (by decide)⟩)⟩

/-- `<A>` alone is rejected in line 1 (C35): the longest written grammar at its start is the empty one. -/
example : ¬ ∃ g : DGrammar, g.WF ∧ g.text = bytesOf "<A>" := by
  rintro ⟨g, hw, e⟩
  have h59 : ∀ r : DRule, (59 : UInt8) ∈ r.text := by
    intro r; simp [DRule.text]
  cases g with
  | nil => exact absurd e (by decide)
  | cons r g =>
    have : (59 : UInt8) ∈ bytesOf "<A>" := by rw [← e]; exact List.mem_append_left _ (h59 r)
    exact absurd this (by decide)

end
end PP.Gen
