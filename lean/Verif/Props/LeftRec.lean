import Verif.Lemmas.DirectLR
import Verif.Lemmas.PlainLR
import Verif.Props.Termination

/-! # Left recursion: C22, C23, C47, C48 -/
set_option linter.unusedSectionVars false
namespace PP
variable {R U : Type} [DecidableEq R]

/-! ## C22: direct left recursion is iteration -/

theorem StOK.new {P : Parser R U} {src : Source} {lr : R → Option (LRDecl R)} :
    StOK P src lr [] (St.new P.grammar P.userInit) ∧ (St.new P.grammar P.userInit).cache.active = none := by
  refine ⟨⟨?_, ?_, ?_, ?_⟩, rfl⟩ <;> simp [St.new, Cache.new]

theorem Reached.stOK {P : Parser R U} {src : Source} {lr : R → Option (LRDecl R)} (hD : DirectLR P.body lr) {k : Nat}
    {st : St R U} (h : Reached P src (Expr.RefsOK lr) k st) : StOK P src lr [] st ∧ st.cache.active = none := by
  induction h with
  | init => exact StOK.new
  | @call k st n e p b q st' _ he hc ih =>
    obtain ⟨_, h2, h3⟩ := claim_all hD n e [] k p st b q st' he ih.1 (by simp [Safe])
      (fun A pa ha => by rw [ih.2] at ha; cases ha) hc
    exact ⟨h2, h3.active.trans ih.2⟩
  | node _ hr ih =>
    have c := (reserve_eqs hr).1
    exact ⟨ih.1.of_cache c, by rw [c]; exact ih.2⟩

/-- C22: in a grammar whose left recursion is direct (`DirectLR`: rules `A = (A, b) / a`, see Spec/Iterate.lean), whatever
the parser returns, from any reachable state, is the PEG result of the grammar in which each such rule reads `A = a b*`. -/
theorem C22_direct_left_recursion_is_iteration (P : Parser R U) (src : Source) (lr : R → Option (LRDecl R))
    (hD : DirectLR P.body lr) {k : Nat} {st : St R U} (hr : Reached P src (Expr.RefsOK lr) k st) {e : Expr R}
    (he : e.RefsOK lr) {n p : Nat} {b : Bool} {q : Nat} {st' : St R U}
    (h : eval P src n e k p st = .ok (b, q, st')) : Peg (iterBody P.body lr) src e.deLR p b q := by
  obtain ⟨h1, h2⟩ := hr.stOK hD
  exact (claim_all hD n e [] k p st b q st' he h1 (by simp [Safe]) (fun A pa ha => by rw [h2] at ha; cases ha) h).1

/-- C22 for the entry point `parse`. -/
theorem C22_parse_is_iteration (P : Parser R U) (src : Source) (lr : R → Option (LRDecl R)) (hD : DirectLR P.body lr)
    (hg : lr P.grammar = none) {n : Nat} {b : Bool} {q : Nat} {t : Publisher R} (h : parse P src n = .ok (b, q, t)) :
    Peg (iterBody P.body lr) src (.varName P.grammar) 0 b q := by
  unfold parse at h
  rw [Out.bind_eq_ok] at h
  obtain ⟨⟨b', q', st⟩, h1, h2⟩ := h
  rw [Out.bind_eq_ok] at h2
  obtain ⟨t', _, h4⟩ := h2
  simp at h4
  obtain ⟨rfl, rfl, rfl⟩ := h4
  exact C22_direct_left_recursion_is_iteration P src lr hD .init (e := .varName P.grammar) hg h1

/-- C22, completeness: if moreover the grammar is well-formed, every call terminates, and it returns the iterative result
unless the 32-bit node keys run out. -/
theorem C22_iteration_is_computed (P : Parser R U) (src : Source) (hh : P.HooksOK src) (hc : P.HooksCalm src)
    (lr : R → Option (LRDecl R)) (hD : DirectLR P.body lr) (rules : List R) (hrules : ∀ r, r ∈ rules)
    (hwf : WellFormed P.body) {e : Expr R} (he : e.RefsOK lr) (hl : NoEmptyLoop P.body e) {p : Nat} {b : Bool} {q : Nat}
    (hp : Peg (iterBody P.body lr) src e.deLR p b q) :
    ∃ N, ∀ n, N ≤ n → ∀ k st, Reached P src (Expr.RefsOK lr) k st →
      (∃ st', eval P src n e k p st = .ok (b, q, st')) ∨ eval P src n e k p st = .panic .keyOverflow := by
  obtain ⟨N, hN⟩ := C07_calls_terminate P src hh rules hrules hwf hl p
  refine ⟨N, fun n hn k st hr => ?_⟩
  have hr' : Reached P src Expr.Any k st := by
    clear hN
    induction hr with
    | init => exact .init
    | call _ _ h ih => exact .call ih trivial h
    | node _ h ih => exact .node ih h
  rcases hN n hn k st hr' with ⟨b', q', st', h⟩ | h | h
  · obtain ⟨rfl, rfl⟩ := (C22_direct_left_recursion_is_iteration P src lr hD hr he h).det hp
    exact Or.inl ⟨st', h⟩
  · exact Or.inr h
  · exact absurd h (eval_noUser P src hc n e k p st)

/-- C22, read off for a single rule `A = (A, b) / a`: the call succeeds iff `a` does, and then ends where repeating `b` after
`a` ends. -/
theorem C22_left_recursive_call (P : Parser R U) (src : Source) (lr : R → Option (LRDecl R)) (hD : DirectLR P.body lr)
    {k : Nat} {st : St R U} (hr : Reached P src (Expr.RefsOK lr) k st) {A : R} {d : LRDecl R} (hd : lr A = some d)
    {n p : Nat} {b : Bool} {q : Nat} {st' : St R U}
    (h : eval P src n (.varNameLR d.involved A) k p st = .ok (b, q, st')) :
    (b = true → ∃ s, Peg (iterBody P.body lr) src d.first.deLR p true s ∧
      Peg (iterBody P.body lr) src (.zeroOrMore d.tail.deLR) s true q) ∧
    (b = false → Peg (iterBody P.body lr) src d.first.deLR p false p) := by
  have hp := C22_direct_left_recursion_is_iteration P src lr hD hr (e := .varNameLR d.involved A) ⟨d, hd, rfl⟩ h
  refine ⟨fun hb => ?_, fun hb => ?_⟩
  · subst hb; exact Peg.lr_inv hd hp
  · subst hb
    cases hp with
    | ref hp =>
      rw [iterBody_lr hd] at hp
      cases hp with
      | seq_fail1 h1 => have := h1.bounds.1 rfl; subst this; exact h1
      | seq_fail2 _ h2 => cases h2

/-- C22 for `A = (A, b) / a` where `a` and `b` use no left recursion but may match empty (`PlainLR`, Spec/PlainLR.lean): after
any history of such calls, a call of `A` at `p` succeeds iff `a` consumes something at `p`, and then ends where repeating `b` for
as long as it advances ends. -/
theorem C22_over_plain_rules (P : Parser R U) (src : Source) {S : R → Prop} {inv : List R} {A : R} {a b : Expr R}
    (hL : PlainLR P.body S inv A a b) {k : Nat} {st : St R U}
    (hr : Reached P src (fun e => e.Over S ∨ e = .varNameLR inv A) k st) {n p : Nat} {m : Bool} {q : Nat} {st' : St R U}
    (h : eval P src n (.varNameLR inv A) k p st = .ok (m, q, st')) :
    (m = true ↔ ∃ s, Peg P.body src a p true s ∧ p < s) ∧
    (m = true → ∃ s, Peg P.body src a p true s ∧ p < s ∧ Advance P.body src b s q) ∧ (m = false → q = p) := by
  have key : SOK P src S st ∧ st.cache.active = none ∧ AOK P src A a b st := by
    clear h
    induction hr with
    | init => refine ⟨?_, rfl, ?_⟩ <;> intro <;> simp [St.new, Cache.new]
    | call _ he hc ih =>
      obtain ⟨i1, i2, i3⟩ := ih
      rcases he with he | rfl
      · obtain ⟨_, g2, g3⟩ := sclaim_all hL.closed _ _ _ _ _ _ _ _ he i1 hc
        refine ⟨g2, g3.active.trans i2, fun p b q k hm => i3 p b q k ?_⟩
        rw [← g3.memo A p hL.notS]; exact hm
      · exact (plainLR_call hL i1 i2 i3 hc).2
    | node _ hr ih =>
      have c := (reserve_eqs hr).1
      obtain ⟨i1, i2, i3⟩ := ih
      exact ⟨i1.of_cache c, by rw [c]; exact i2, by unfold AOK; rw [c]; exact i3⟩
  obtain ⟨g, _⟩ := plainLR_call hL key.1 key.2.1 key.2.2 h
  cases m with
  | true =>
    obtain ⟨s, h1, h2, h3⟩ := g
    exact ⟨by simpa using ⟨s, h1, h2⟩, fun _ => ⟨s, h1, h2, h3⟩, by simp⟩
  | false =>
    refine ⟨⟨by simp, fun ⟨s, h1, h2⟩ => ?_⟩, by simp, fun _ => g.1⟩
    rcases g.2 with h | h
    · exact (h.det h1).1
    · have := (h.det h1).2; omega

/-- `A = (A, 'x'?) / '1'`: the tail may match empty. -/
def optTail : Parser Unit Unit :=
  Parser.plain (fun _ => .orderedChoice (.sequence (.varNameLR [()] ()) (.optional (.terminal 120))) (.terminal 49)) ()

/-- It meets the hypothesis (no rule but `A`), and on "1xx!" it returns at 3, where `'x'?` stops advancing. -/
example : PlainLR optTail.body (fun _ => False) [()] () (.terminal 49) (.optional (.terminal 120)) ∧
    (eval optTail ⟨bytesOf "1xx!"⟩ 40 (.varNameLR [()] ()) 0 0 (St.new () ())).view = some (true, 3) :=
  ⟨⟨fun _ h => h.elim, id, by simp, trivial, trivial, _, rfl, .base⟩, by decide +kernel⟩

/-! ### Instances: examples 5, 6 and 10, and a grammar in which `expr` occurs again inside itself -/

/-- Example 5: `expr = (expr, '-', num) / num`. -/
def ex5LR : Ex5 → Option (LRDecl Ex5)
  | .r_expr => some ⟨[.r_expr], .varName .r_num, .sequence (.terminal 45) (.varName .r_num)⟩
  | _ => none

/-- Example 6: `term = (term,'+',fact) / (term,'-',fact) / fact`, `fact = (fact,'*',num) / (fact,'/',num) / num`. -/
def ex6LR : Ex6 → Option (LRDecl Ex6)
  | .r_term => some ⟨[.r_term], .varNameLR [.r_fact] .r_fact, .orderedChoice
      (.sequence (.terminal 43) (.varNameLR [.r_fact] .r_fact)) (.sequence (.terminal 45) (.varNameLR [.r_fact] .r_fact))⟩
  | .r_fact => some ⟨[.r_fact], .varName .r_num, .orderedChoice
      (.sequence (.terminal 42) (.varName .r_num)) (.sequence (.terminal 47) (.varName .r_num))⟩
  | _ => none

/-- Example 10: `lr = (lr, '1') / '1'`. -/
def ex10LR : Ex10 → Option (LRDecl Ex10)
  | .r_lr => some ⟨[.r_lr], .terminal 49, .terminal 49⟩
  | _ => none

/-- Decidable sufficient condition for the side conditions of `DirectLR`. -/
theorem DirectLR.ofCert {body : R → Expr R} {lr : R → Option (LRDecl R)} {rules : List R} (hall : ∀ r, r ∈ rules)
    (shape : ∀ r d, lr r = some d → r ∈ d.involved ∧ ∃ e, body r = .orderedChoice e d.first ∧
      HeadTail d.involved r e d.tail)
    (refsFirst : ∀ r d, lr r = some d → d.first.RefsOK lr ∧ d.tail.RefsOK lr)
    (refs : ∀ r, lr r = none → (body r).RefsOK lr)
    (tab : R → R → Bool)
    (htab : ∀ r d, lr r = some d → (∀ x, tab r x = true →
        (body x).callsIn (tab r) (fun B => !d.involved.contains B) = true) ∧
      d.first.callsIn (tab r) (fun B => !d.involved.contains B) = true ∧
      d.tail.callsIn (tab r) (fun B => !d.involved.contains B) = true)
    {nul : R → Bool} {rank : R → Nat} (hcert : certOK (iterBody body lr) rules nul rank = true)
    (hfirst : ∀ r d, lr r = some d → d.first.deLR.nullIn nul = false) : DirectLR body lr := by
  refine ⟨shape, refsFirst, refs, ?_, ?_, .ofCert hall hcert⟩
  · intro r d hd B hB
    obtain ⟨h1, h2, h3⟩ := htab r d hd
    have : (!d.involved.contains B) = true := by
      rcases hB with hB | hB
      · exact hB.ok h1 h2
      · exact hB.ok h1 h3
    simpa using this
  · intro r d hd hm
    have hn : ∀ r, (iterBody body lr r).nullIn nul = true → nul r = true := fun r h => by
      have := List.all_eq_true.mp hcert r (hall r)
      simpa [h] using (Bool.and_eq_true_iff.mp this).1
    have := hm.nullIn hn
    rw [hfirst r d hd] at this
    cases this

theorem direct_ex5 : DirectLR Ex5.body ex5LR := by
  refine .ofCert Ex5.mem_all ?_ ?_ ?_ (fun _ x => x == .r_num) ?_ (nul := fun _ => false)
    (rank := fun | .r_num => 0 | .r_expr => 1 | .r_grammar => 2) (by decide) ?_
  · intro r d hd
    cases r <;> simp only [ex5LR, reduceCtorEq, Option.some.injEq] at hd
    subst hd
    exact ⟨by simp, _, rfl, .sub (.seq .base)⟩
  · intro r d hd
    cases r <;> simp only [ex5LR, reduceCtorEq, Option.some.injEq] at hd
    subst hd
    simp [Expr.RefsOK, ex5LR]
  · intro r hd
    cases r <;> simp [Expr.RefsOK, ex5LR, Ex5.body] at hd ⊢
  · intro r d hd
    cases r <;> simp only [ex5LR, reduceCtorEq, Option.some.injEq] at hd
    subst hd
    refine ⟨fun x hx => ?_, by decide, by decide⟩
    cases x <;> first | rfl | cases hx
  · intro r d hd
    cases r <;> simp only [ex5LR, reduceCtorEq, Option.some.injEq] at hd
    subst hd
    rfl

theorem direct_ex6 : DirectLR Ex6.body ex6LR := by
  refine .ofCert Ex6.mem_all ?_ ?_ ?_ (fun _ x => x == .r_num) ?_ (nul := fun _ => false)
    (rank := fun | .r_num => 0 | .r_fact => 1 | .r_term => 2 | .r_grammar => 3) (by decide) ?_
  · intro r d hd
    cases r <;> simp only [ex6LR, reduceCtorEq, Option.some.injEq] at hd
    all_goals
      subst hd
      exact ⟨by simp, _, rfl, .choice (.sub (.seq .base)) (.sub (.seq .base))⟩
  · intro r d hd
    cases r <;> simp only [ex6LR, reduceCtorEq, Option.some.injEq] at hd
    all_goals
      subst hd
      simp [Expr.RefsOK, ex6LR]
  · intro r hd
    cases r <;> simp [Expr.RefsOK, ex6LR, Ex6.body] at hd ⊢
  · intro r d hd
    cases r <;> simp only [ex6LR, reduceCtorEq, Option.some.injEq] at hd
    all_goals
      subst hd
      refine ⟨fun x hx => ?_, by decide, by decide⟩
      cases x <;> first | rfl | cases hx
  · intro r d hd
    cases r <;> simp only [ex6LR, reduceCtorEq, Option.some.injEq] at hd
    all_goals
      subst hd
      rfl

theorem direct_ex10 : DirectLR Ex10.body ex10LR := by
  refine .ofCert Ex10.mem_all ?_ ?_ ?_ (fun _ _ => false) ?_ (nul := fun _ => false)
    (rank := fun | .r_rr => 0 | .r_lr => 0 | .r_grammar => 1) (by decide) ?_
  · intro r d hd
    cases r <;> simp only [ex10LR, reduceCtorEq, Option.some.injEq] at hd
    subst hd
    exact ⟨by simp, _, rfl, .sub .base⟩
  · intro r d hd
    cases r <;> simp only [ex10LR, reduceCtorEq, Option.some.injEq] at hd
    subst hd
    simp [Expr.RefsOK]
  · intro r hd
    cases r <;> simp [Expr.RefsOK, ex10LR, Ex10.body] at hd ⊢
  · intro r d hd
    cases r <;> simp only [ex10LR, reduceCtorEq, Option.some.injEq] at hd
    subst hd
    exact ⟨fun x hx => (by cases hx), by decide, by decide⟩
  · intro r d hd
    cases r <;> simp only [ex10LR, reduceCtorEq, Option.some.injEq] at hd
    subst hd
    rfl

/-- C22 for example 6, on every source: term and factor rules parse as `fact (('+'/'-') fact)*` and `num (('*'/'/') num)*`. -/
theorem C22_example6 (src : Source) {n : Nat} {b : Bool} {q : Nat} {t : Publisher Ex6}
    (h : parse ex6Parser src n = .ok (b, q, t)) : Peg (iterBody Ex6.body ex6LR) src (.varName .r_grammar) 0 b q :=
  C22_parse_is_iteration ex6Parser src ex6LR direct_ex6 rfl h

/-- The hypotheses are met by a real run: "1*2+3-4*5" is consumed entirely. -/
example : (match parse ex6Parser ⟨bytesOf "1*2+3-4*5"⟩ 60 with | .ok (b, q, _) => some (b, q) | _ => none)
    = some (true, 9) := by decide +kernel

/-! ## C47: example 5 -/

/-- Byte `p` of the source is a decimal digit. -/
def DigitAt (src : Source) (p : Nat) : Prop :=
  ∃ c : UInt8, p < src.len ∧ src.bytes[p]? = some c ∧ 48 ≤ c.toNat ∧ c.toNat ≤ 57

/-- Bytes `p`, `p + 1` of the source are a minus sign and a digit. -/
def MinusDigitAt (src : Source) (p : Nat) : Prop := (p < src.len ∧ src.bytes[p]? = some 45) ∧ DigitAt src (p + 1)

theorem ex5_num {src : Source} {p b q} (h : Peg (iterBody Ex5.body ex5LR) src (.varName .r_num) p b q) :
    (b = true ∧ q = p + 1 ∧ DigitAt src p) ∨ (b = false ∧ ¬ DigitAt src p) := by
  cases h with
  | ref h =>
    have h : Peg (iterBody Ex5.body ex5LR) src (.matchRange 48 57) p b q := h
    cases h with
    | range_ok h1 h2 h3 h4 => exact Or.inl ⟨rfl, rfl, _, h1, h2, h3, h4⟩
    | range_fail hf => exact Or.inr ⟨rfl, hf⟩

theorem ex5_tail {src : Source} {p b q}
    (h : Peg (iterBody Ex5.body ex5LR) src (.sequence (.terminal 45) (.varName .r_num)) p b q) :
    (b = true ∧ q = p + 2 ∧ MinusDigitAt src p) ∨ (b = false ∧ ¬ MinusDigitAt src p) := by
  cases h with
  | seq_ok h1 h2 =>
    cases h1 with
    | terminal_ok g1 g2 =>
      rcases ex5_num h2 with ⟨_, h, h'⟩ | ⟨h, _⟩
      · exact Or.inl ⟨rfl, by omega, ⟨g1, g2⟩, h'⟩
      · cases h
  | seq_fail1 h1 =>
    cases h1 with
    | terminal_fail g => exact Or.inr ⟨rfl, fun h => g h.1⟩
  | seq_fail2 h1 h2 =>
    cases h1 with
    | terminal_ok g1 g2 =>
      rcases ex5_num h2 with ⟨h, _⟩ | ⟨_, h'⟩
      · cases h
      · exact Or.inr ⟨rfl, fun h => h' h.2⟩

theorem ex5_star {src : Source} {p b q}
    (h : Peg (iterBody Ex5.body ex5LR) src (.zeroOrMore (.sequence (.terminal 45) (.varName .r_num))) p b q) :
    ∃ k, q = p + 2 * k ∧ (∀ i, i < k → MinusDigitAt src (p + 2 * i)) ∧ ¬ MinusDigitAt src (p + 2 * k) := by
  generalize he : Expr.zeroOrMore (.sequence (.terminal 45) (.varName Ex5.r_num)) = e at h
  induction h with
  | star_stop h1 =>
    cases he
    rcases ex5_tail h1 with ⟨h, _⟩ | ⟨_, h⟩
    · cases h
    · exact ⟨0, by omega, by omega, h⟩
  | @star_step e p q r h1 _ _ ih =>
    cases he
    rcases ex5_tail h1 with ⟨_, rfl, h⟩ | ⟨h, _⟩
    · obtain ⟨k, h3, h4, h5⟩ := ih rfl
      refine ⟨k + 1, by omega, fun i hi => ?_, by rw [show p + 2 * (k + 1) = p + 2 + 2 * k by omega]; exact h5⟩
      cases i with
      | zero => exact h
      | succ i => have := h4 i (by omega); rw [show p + 2 * (i + 1) = p + 2 + 2 * i by omega]; exact this
    · cases h
  | _ => cases he

/-- C47: example 5's parser, on every source, succeeds exactly if the source starts with a digit, and then consumes the digit
and the longest run of minus-digit pairs following it. -/
theorem C47_example5_consumes (src : Source) {n : Nat} {b : Bool} {q : Nat} {t : Publisher Ex5}
    (h : parse ex5Parser src n = .ok (b, q, t)) :
    (b = true ↔ DigitAt src 0) ∧ (b = false → q = 0) ∧
    (b = true → ∃ k, q = 1 + 2 * k ∧ (∀ i, i < k → MinusDigitAt src (1 + 2 * i)) ∧ ¬ MinusDigitAt src (1 + 2 * k)) := by
  have hp := C22_parse_is_iteration ex5Parser src ex5LR direct_ex5 rfl h
  have hq := hp.bounds.1
  cases hp with
  | ref hp =>
    have hp : Peg (iterBody Ex5.body ex5LR) src (.varName .r_expr) 0 b q := hp
    cases hp with
    | ref hp =>
      have hp : Peg (iterBody Ex5.body ex5LR) src (.sequence (.varName .r_num)
        (.zeroOrMore (.sequence (.terminal 45) (.varName .r_num)))) 0 b q := hp
      cases hp with
      | seq_ok h1 h2 =>
        rcases ex5_num h1 with ⟨_, rfl, h⟩ | ⟨h, _⟩
        · refine ⟨by simpa using h, by simp, fun _ => ?_⟩
          exact ex5_star h2
        · cases h
      | seq_fail1 h1 =>
        rcases ex5_num h1 with ⟨h, _⟩ | ⟨_, h⟩
        · cases h
        · exact ⟨by simpa using h, fun _ => rfl, by simp⟩
      | seq_fail2 h1 h2 => cases h2

/-- C47: and it always terminates, with that answer unless the node keys run out. -/
theorem C47_example5_terminates (src : Source) : ∃ N, ∀ n, N ≤ n →
    (∃ b q t, parse ex5Parser src n = .ok (b, q, t)) ∨ parse ex5Parser src n = .panic .keyOverflow :=
  C07_plain_parse_terminates Ex5.body .r_grammar src Ex5.all Ex5.mem_all wf_ex5

example : (match parse ex5Parser ⟨bytesOf "7-1-2x"⟩ 60 with | .ok (b, q, _) => some (b, q) | _ => none)
    = some (true, 5) := by decide +kernel

/-! ## C48: example 10 -/

/-- Byte `p` of the source is the character '1'. -/
def OneAt (src : Source) (p : Nat) : Prop := p < src.len ∧ src.bytes[p]? = some 49

/-- `q` is the end of the longest run of '1's starting at `p`. -/
def OnesEnd (src : Source) (p q : Nat) : Prop :=
  ∃ k, q = p + k ∧ (∀ i, i < k → OneAt src (p + i)) ∧ ¬ OneAt src (p + k)

theorem OnesEnd.step {src : Source} {p q : Nat} (h : OneAt src p) (h' : OnesEnd src (p + 1) q) : OnesEnd src p q := by
  obtain ⟨k, h1, h2, h3⟩ := h'
  refine ⟨k + 1, by omega, fun i hi => ?_, by rw [show p + (k + 1) = p + 1 + k by omega]; exact h3⟩
  cases i with
  | zero => exact h
  | succ i => have := h2 i (by omega); rw [show p + (i + 1) = p + 1 + i by omega]; exact this

theorem OnesEnd.unique {src : Source} {p q q' : Nat} (h : OnesEnd src p q) (h' : OnesEnd src p q') : q = q' := by
  obtain ⟨k, rfl, h2, h3⟩ := h
  obtain ⟨k', rfl, h2', h3'⟩ := h'
  rcases Nat.lt_trichotomy k k' with h | h | h
  · exact absurd (h2' k h) h3
  · omega
  · exact absurd (h2 k' h) h3'

theorem peg_one {body : Ex10 → Expr Ex10} {src : Source} {p b q} (h : Peg body src (.terminal 49) p b q) :
    (b = true ∧ q = p + 1 ∧ OneAt src p) ∨ (b = false ∧ q = p ∧ ¬ OneAt src p) := by
  cases h with
  | terminal_ok h1 h2 => exact Or.inl ⟨rfl, rfl, h1, h2⟩
  | terminal_fail h => exact Or.inr ⟨rfl, rfl, h⟩

/-- The right-recursive rule of example 10, as a PEG: by induction on the distance to the end. -/
theorem ex10_rr {src : Source} : ∀ m p b q, src.len - p ≤ m →
    Peg (iterBody Ex10.body ex10LR) src (.varName .r_rr) p b q → (b = true ↔ OneAt src p) ∧ OnesEnd src p q := by
  intro m
  induction m with
  | zero =>
    intro p b q hm h
    have hno : ¬ OneAt src p := fun h => by have := h.1; omega
    cases h with
    | ref h =>
      have h : Peg (iterBody Ex10.body ex10LR) src (.orderedChoice (.subexpression (.sequence (.terminal 49)
        (.varName .r_rr))) (.terminal 49)) p b q := h
      cases h with
      | choice_left h1 =>
        cases h1 with
        | sub_ok h1 =>
          cases h1 with
          | seq_ok h1 _ => rcases peg_one h1 with ⟨_, _, h⟩ | ⟨h, _⟩; exact absurd h hno; cases h
      | choice_right _ h2 => rcases peg_one h2 with ⟨_, _, h⟩ | ⟨h, _⟩; exact absurd h hno; cases h
      | choice_fail _ h2 => exact ⟨by simp [hno], 0, rfl, by omega, hno⟩
  | succ m ih =>
    intro p b q hm h
    cases h with
    | ref h =>
      have h : Peg (iterBody Ex10.body ex10LR) src (.orderedChoice (.subexpression (.sequence (.terminal 49)
        (.varName .r_rr))) (.terminal 49)) p b q := h
      have fail : ∀ q', Peg (iterBody Ex10.body ex10LR) src (.subexpression (.sequence (.terminal 49)
          (.varName .r_rr))) p false q' → OneAt src p → ¬ OneAt src (p + 1) := by
        intro q' h1 hone
        cases h1 with
        | sub_fail h1 =>
          cases h1 with
          | seq_fail1 h1 => rcases peg_one h1 with ⟨h, _⟩ | ⟨_, _, h⟩; cases h; exact absurd hone h
          | seq_fail2 h1 h2 =>
            rcases peg_one h1 with ⟨_, rfl, _⟩ | ⟨h, _⟩
            · have := (ih _ _ _ (by have := hone.1; omega) h2).1
              intro h; exact absurd (this.mpr h) (by simp)
            · cases h
      cases h with
      | choice_left h1 =>
        cases h1 with
        | sub_ok h1 =>
          cases h1 with
          | seq_ok h1 h2 =>
            rcases peg_one h1 with ⟨_, rfl, h⟩ | ⟨h, _⟩
            · have := ih _ _ _ (by have := h.1; omega) h2
              exact ⟨by simp [h], .step h this.2⟩
            · cases h
      | choice_right h1 h2 =>
        rcases peg_one h2 with ⟨_, rfl, ho⟩ | ⟨hx, _⟩
        · exact ⟨by simp [ho], 1, rfl, fun i hi => by rw [show p + i = p by omega]; exact ho, fail _ h1 ho⟩
        · cases hx
      | choice_fail h1 h2 =>
        rcases peg_one h2 with ⟨h, _⟩ | ⟨_, _, h⟩
        · cases h
        · exact ⟨by simp [h], 0, rfl, by omega, h⟩

theorem ex10_star {src : Source} {p b q}
    (h : Peg (iterBody Ex10.body ex10LR) src (.zeroOrMore (.terminal 49)) p b q) : OnesEnd src p q := by
  generalize he : Expr.zeroOrMore (.terminal 49) = e at h
  induction h with
  | star_stop h1 =>
    cases he
    rcases peg_one h1 with ⟨h, _⟩ | ⟨_, _, h⟩
    · cases h
    · exact ⟨0, rfl, by omega, h⟩
  | star_step h1 _ _ ih =>
    cases he
    rcases peg_one h1 with ⟨_, rfl, h⟩ | ⟨h, _⟩
    · exact .step h (ih rfl)
    · cases h
  | _ => cases he

theorem ex10_lr {src : Source} {p b q} (h : Peg (iterBody Ex10.body ex10LR) src (.varName .r_lr) p b q) :
    (b = true ↔ OneAt src p) ∧ OnesEnd src p q := by
  cases h with
  | ref h =>
    have h : Peg (iterBody Ex10.body ex10LR) src (.sequence (.terminal 49) (.zeroOrMore (.terminal 49))) p b q := h
    cases h with
    | seq_ok h1 h2 =>
      rcases peg_one h1 with ⟨_, rfl, h⟩ | ⟨h, _⟩
      · exact ⟨by simp [h], .step h (ex10_star h2)⟩
      · cases h
    | seq_fail1 h1 =>
      rcases peg_one h1 with ⟨h, _⟩ | ⟨_, _, h⟩
      · cases h
      · exact ⟨by simp [h], 0, rfl, by omega, h⟩
    | seq_fail2 _ h2 => cases h2

/-- The two rules of example 10 as closures. -/
def ex10RR : Expr Ex10 := .varName .r_rr
/-- See `ex10RR`. -/
def ex10LRRef : Expr Ex10 := .varNameLR [.r_lr] .r_lr

/-- C48: called at any position of any source, after any history of calls, the right-recursive and the left-recursive rule
of example 10 each succeed iff there is a '1' there, and stop after the longest run of '1's. -/
theorem C48_longest_run (src : Source) {k : Nat} {st : St Ex10 Unit}
    (hr : Reached ex10Parser src (Expr.RefsOK ex10LR) k st) {e : Expr Ex10} (he : e = ex10RR ∨ e = ex10LRRef)
    {n p : Nat} {b : Bool} {q : Nat} {st' : St Ex10 Unit} (h : eval ex10Parser src n e k p st = .ok (b, q, st')) :
    (b = true ↔ OneAt src p) ∧ OnesEnd src p q := by
  rcases he with rfl | rfl
  · have := C22_direct_left_recursion_is_iteration ex10Parser src ex10LR direct_ex10 hr (e := ex10RR) rfl h
    exact ex10_rr _ p b q (Nat.le_refl _) this
  · have := C22_direct_left_recursion_is_iteration ex10Parser src ex10LR direct_ex10 hr (e := ex10LRRef) ⟨_, rfl, rfl⟩ h
    exact ex10_lr this

/-- C48: hence the two rules agree, wherever and in whatever order they are called. -/
theorem C48_right_and_left_recursion_agree (src : Source) {k k' : Nat} {st st2 : St Ex10 Unit}
    (hr : Reached ex10Parser src (Expr.RefsOK ex10LR) k st) (hr2 : Reached ex10Parser src (Expr.RefsOK ex10LR) k' st2)
    {n n' p : Nat} {b b' : Bool} {q q' : Nat} {s s' : St Ex10 Unit}
    (h : eval ex10Parser src n ex10RR k p st = .ok (b, q, s)) (h' : eval ex10Parser src n' ex10LRRef k' p st2 = .ok (b', q', s')) :
    b = b' ∧ q = q' := by
  obtain ⟨h1, h2⟩ := C48_longest_run src hr (Or.inl rfl) h
  obtain ⟨h1', h2'⟩ := C48_longest_run src hr2 (Or.inr rfl) h'
  refine ⟨?_, h2.unique h2'⟩
  cases b <;> cases b' <;> simp_all

/-- Both calls really return, from any reachable state, unless the node keys run out. -/
theorem C48_terminates (src : Source) (e : Expr Ex10) (he : e = ex10RR ∨ e = ex10LRRef) (p : Nat) :
    ∃ N, ∀ n, N ≤ n → ∀ k st, Reached ex10Parser src Expr.Any k st →
      (∃ b q st', eval ex10Parser src n e k p st = .ok (b, q, st')) ∨
      eval ex10Parser src n e k p st = .panic .keyOverflow := by
  obtain ⟨N, hN⟩ := C07_calls_terminate ex10Parser src (plain_hooksOK _ _ _) Ex10.all Ex10.mem_all wf_ex10 (e := e)
    (by rcases he with rfl | rfl <;> trivial) p
  refine ⟨N, fun n hn k st hr => ?_⟩
  rcases hN n hn k st hr with h | h | h
  · exact Or.inl h
  · exact Or.inr h
  · exact absurd h (eval_noUser ex10Parser src (fun _ _ _ => .ret) n e k p st)

example : (eval ex10Parser ⟨bytesOf "0111x"⟩ 40 ex10LRRef 0 1 (St.new .r_grammar ())).view = some (true, 4) ∧
    (eval ex10Parser ⟨bytesOf "0111x"⟩ 40 ex10RR 0 1 (St.new .r_grammar ())).view = some (true, 4) := by decide +kernel

end PP
