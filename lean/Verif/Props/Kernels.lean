import Verif.Props.Peg
import Verif.Spec.Returns

/-! # The combinators: C10 - C14

Stated for every grammar (left recursive, with hooks, ...), every expression, every state and every position. -/
set_option linter.unusedSectionVars false
namespace PP
variable {R U : Type} [DecidableEq R] {P : Parser R U} {src : Source}

theorem Returns.det {e : Expr R} {k p : Nat} {st : St R U} {b b' q q' st1 st2} (h : Returns P src e k p st b q st1)
    (h' : Returns P src e k p st b' q' st2) : b = b' ∧ q = q' ∧ st1 = st2 := by
  obtain ⟨n, h⟩ := h
  obtain ⟨m, h'⟩ := h'
  have h1 := eval_mono (m := max n m) (Nat.le_max_left _ _) (by rw [h]; simp)
  have h2 := eval_mono (m := max n m) (Nat.le_max_right _ _) (by rw [h']; simp)
  rw [h1, h, h'] at h2
  simpa using h2

theorem eval_up {n m : Nat} (hnm : n ≤ m) {e : Expr R} {k p : Nat} {st : St R U} {x} (h : eval P src n e k p st = .ok x) :
    eval P src m e k p st = .ok x := by
  rw [eval_mono hnm (by rw [h]; simp), h]

/-- C10: `&e` never moves and succeeds iff `e` does. -/
theorem C10_and_predicate {e : Expr R} {k p : Nat} {st : St R U} {b q st'} :
    Returns P src (.andPredicate e) k p st b q st' ↔ q = p ∧ ∃ q', Returns P src e k p st b q' st' := by
  constructor
  · rintro ⟨n, h⟩
    cases n with
    | zero => cases h
    | succ n =>
      simp only [eval, andPredicateKernel, Out.bind_eq_ok] at h
      obtain ⟨⟨b', q', st1⟩, h1, h2⟩ := h
      cases b' <;> simp at h2 <;> obtain ⟨rfl, rfl, rfl⟩ := h2 <;> exact ⟨rfl, q', n, h1⟩
  · rintro ⟨rfl, q', n, h⟩
    refine ⟨n + 1, ?_⟩
    simp only [eval, andPredicateKernel, h, Out.bind_ok]
    cases b <;> rfl

/-- C10: `!e` never moves and succeeds iff `e` fails. -/
theorem C10_not_predicate {e : Expr R} {k p : Nat} {st : St R U} {b q st'} :
    Returns P src (.notPredicate e) k p st b q st' ↔ q = p ∧ ∃ q', Returns P src e k p st (!b) q' st' := by
  constructor
  · rintro ⟨n, h⟩
    cases n with
    | zero => cases h
    | succ n =>
      simp only [eval, notPredicateKernel, Out.bind_eq_ok] at h
      obtain ⟨⟨b', q', st1⟩, h1, h2⟩ := h
      cases b' <;> simp at h2 <;> obtain ⟨rfl, rfl, rfl⟩ := h2 <;> exact ⟨rfl, q', n, h1⟩
  · rintro ⟨rfl, q', n, h⟩
    refine ⟨n + 1, ?_⟩
    simp only [eval, notPredicateKernel, h, Out.bind_ok]
    cases b <;> rfl

/-! ## C11 -/

theorem repeatLoop_matches {n : Nat} {e : Expr R} {k : Nat} : ∀ m p (st : St R U) b q st',
    repeatLoop (eval P src n e) k m p st = .ok (b, q, st') →
    b = true ∧ ∃ st1 q', Matches P src e k p st q st1 ∧ Returns P src e k q st1 false q' st' := by
  intro m
  induction m with
  | zero => intro p st b q st' h; cases h
  | succ m ih =>
    intro p st b q st' h
    simp only [repeatLoop, Out.bind_eq_ok] at h
    obtain ⟨⟨b', q', st1⟩, h1, h2⟩ := h
    cases b' with
    | false =>
      simp at h2
      obtain ⟨rfl, rfl, rfl⟩ := h2
      exact ⟨rfl, st, q', .nil, n, h1⟩
    | true =>
      obtain ⟨hb, st2, q2, h3, h4⟩ := ih _ _ _ _ _ (by simpa using h2)
      exact ⟨hb, st2, q2, .cons ⟨n, h1⟩ h3, h4⟩

theorem matches_repeatLoop {e : Expr R} {k p : Nat} {st : St R U} {q st1} (h : Matches P src e k p st q st1) {q' st'}
    (hf : Returns P src e k q st1 false q' st') :
    ∃ N, ∀ n, N ≤ n → ∀ m, N ≤ m → repeatLoop (eval P src n e) k m p st = .ok (true, q, st') := by
  induction h with
  | nil =>
    obtain ⟨N, hN⟩ := hf
    refine ⟨N + 1, fun n hn m hm => ?_⟩
    obtain ⟨m', rfl⟩ : ∃ m', m = m' + 1 := ⟨m - 1, by omega⟩
    simp [repeatLoop, eval_up (by omega : N ≤ n) hN]
  | cons h1 _ ih =>
    obtain ⟨N1, hN1⟩ := h1
    obtain ⟨N2, hN2⟩ := ih hf
    refine ⟨max N1 N2 + 1, fun n hn m hm => ?_⟩
    obtain ⟨m', rfl⟩ : ∃ m', m = m' + 1 := ⟨m - 1, by omega⟩
    simp [repeatLoop, eval_up (by omega : N1 ≤ n) hN1]
    exact hN2 n (by omega) m' (by omega)

/-- C11: `e*` returns exactly when greedy repetition comes to an end; it then succeeds, at the position where `e` first
fails. -/
theorem C11_zero_or_more_is_greedy {e : Expr R} {k p : Nat} {st : St R U} {b q st'} :
    Returns P src (.zeroOrMore e) k p st b q st' ↔
      b = true ∧ ∃ st1 q', Matches P src e k p st q st1 ∧ Returns P src e k q st1 false q' st' := by
  constructor
  · rintro ⟨n, h⟩
    cases n with
    | zero => cases h
    | succ n => exact repeatLoop_matches _ _ _ _ _ _ h
  · rintro ⟨rfl, st1, q', h1, h2⟩
    obtain ⟨N, hN⟩ := matches_repeatLoop h1 h2
    exact ⟨N + 1, hN N (Nat.le_refl _) N (Nat.le_refl _)⟩

/-- C11: `e+` fails in place iff `e` fails at the start; otherwise it is greedy repetition. -/
theorem C11_one_or_more_is_greedy {e : Expr R} {k p : Nat} {st : St R U} {b q st'} :
    Returns P src (.oneOrMore e) k p st b q st' ↔
      (b = false ∧ q = p ∧ ∃ q', Returns P src e k p st false q' st') ∨
      (b = true ∧ ∃ m st0, Returns P src e k p st true m st0 ∧
        ∃ st1 q', Matches P src e k m st0 q st1 ∧ Returns P src e k q st1 false q' st') := by
  constructor
  · rintro ⟨n, h⟩
    cases n with
    | zero => cases h
    | succ n =>
      simp only [eval, oneOrMoreKernel, Out.bind_eq_ok] at h
      obtain ⟨⟨b', q', st1⟩, h1, h2⟩ := h
      cases b' with
      | false =>
        simp at h2
        obtain ⟨rfl, rfl, rfl⟩ := h2
        exact Or.inl ⟨rfl, rfl, q', n, h1⟩
      | true =>
        obtain ⟨hb, st2, q2, h3, h4⟩ := repeatLoop_matches _ _ _ _ _ _ (by simpa using h2)
        exact Or.inr ⟨hb, q', st1, ⟨n, h1⟩, st2, q2, h3, h4⟩
  · rintro (⟨rfl, rfl, q', n, h⟩ | ⟨rfl, m, st0, ⟨n, h⟩, st1, q', h1, h2⟩)
    · exact ⟨n + 1, by simp [eval, oneOrMoreKernel, h]⟩
    · obtain ⟨N, hN⟩ := matches_repeatLoop h1 h2
      refine ⟨max n N + 1, ?_⟩
      simp only [eval, oneOrMoreKernel, eval_up (by omega : n ≤ max n N) h]
      exact hN _ (by omega) _ (by omega)

/-- C11: the end of a greedy repetition is unique (so the two characterisations determine the answer). -/
theorem C11_greedy_end_unique {e : Expr R} {k p : Nat} {st : St R U} {q q' st1 st1' f f' st2 st2'}
    (h : Matches P src e k p st q st1) (hf : Returns P src e k q st1 false f st2)
    (h' : Matches P src e k p st q' st1') (hf' : Returns P src e k q' st1' false f' st2') : q = q' ∧ st2 = st2' := by
  have a := (C11_zero_or_more_is_greedy (b := true)).mpr ⟨rfl, _, _, h, hf⟩
  have b := (C11_zero_or_more_is_greedy (b := true)).mpr ⟨rfl, _, _, h', hf'⟩
  exact (a.det b).2

/-! ## C12 -/

theorem repeatLoop_stuck {f : PFn R U} {k p : Nat} (I : St R U → Prop)
    (h : ∀ st, I st → ∃ st', f k p st = .ok (true, p, st') ∧ I st') : ∀ m st, I st → repeatLoop f k m p st = .oof := by
  intro m
  induction m with
  | zero => intro st _; rfl
  | succ m ih =>
    intro st hi
    obtain ⟨st', h1, h2⟩ := h st hi
    simp [repeatLoop, h1]
    exact ih st' h2

/-- C12 in general: once `e` matches at `p` without consuming, in every state satisfying some invariant `I` that it keeps,
`e*` and `e+` never return there. -/
theorem C12_empty_repetition_never_returns {e : Expr R} {k p : Nat} (I : St R U → Prop)
    (h : ∀ st, I st → ∃ st', Returns P src e k p st true p st' ∧ I st') {st : St R U} (hi : I st) (b : Bool) (q : Nat)
    (st' : St R U) :
    ¬ Returns P src (.zeroOrMore e) k p st b q st' ∧ ¬ Returns P src (.oneOrMore e) k p st b q st' := by
  have stuck : ∀ r st, I st → ∀ {q st1 f st2}, Matches P src e k r st q st1 → r = p →
      ¬ Returns P src e k q st1 false f st2 := by
    intro r st hi q st1 f st2 hm
    induction hm with
    | nil =>
      rintro rfl hf
      obtain ⟨st', h1, _⟩ := h _ hi
      have := (h1.det hf).1
      cases this
    | @cons p0 st0 m stm q stq hm _ ih =>
      rintro rfl
      obtain ⟨st', h1, h2⟩ := h _ hi
      obtain ⟨_, rfl, rfl⟩ := h1.det hm
      exact ih h2 rfl
  constructor
  · rw [C11_zero_or_more_is_greedy]
    rintro ⟨_, st1, q', h1, h2⟩
    exact stuck p st hi h1 rfl h2
  · rw [C11_one_or_more_is_greedy]
    rintro (⟨_, _, q', h1⟩ | ⟨_, m, st0, h0, st1, q', h1, h2⟩)
    · obtain ⟨st', h2, _⟩ := h _ hi
      cases (h2.det h1).1
    · obtain ⟨st', h3, h4⟩ := h _ hi
      obtain ⟨_, rfl, rfl⟩ := h3.det h0
      exact stuck _ _ h4 h1 rfl h2

theorem Peg.no_star {body : R → Expr R} {e : Expr R} {p : Nat} (h : Peg body src e p true p) :
    ∀ {b q}, ¬ Peg body src (.zeroOrMore e) p b q := by
  intro b q hs
  generalize hx : Expr.zeroOrMore e = x at hs
  induction hs with
  | star_stop h1 _ => injection hx with hx; subst hx; cases (h.det h1).1
  | star_step h1 _ _ ih =>
    injection hx with hx; subst hx
    obtain ⟨_, rfl⟩ := h.det h1
    exact ih h rfl
  | _ => cases hx

/-- C12 for grammars without left recursion: if `e` matches the empty string at `p` (in PEG terms), then `e*` and `e+`
return at `p` in no reachable state. -/
theorem C12_plain_empty_repetition_never_returns (body : R → Expr R) (g : R) (src : Source)
    (hb : ∀ r, (body r).Plain) {e : Expr R} (he : e.Plain) {p : Nat} (h : Peg body src e p true p) {k : Nat}
    {st : St R Unit} (hr : Reached (.plain body g) src Expr.Plain k st) (b : Bool) (q : Nat) (st' : St R Unit) :
    ¬ Returns (.plain body g) src (.zeroOrMore e) k p st b q st' ∧
    ¬ Returns (.plain body g) src (.oneOrMore e) k p st b q st' := by
  constructor
  · rintro ⟨n, hc⟩
    exact h.no_star (C04_memoised_agrees_with_peg body g src hb hr (e := .zeroOrMore e) he hc)
  · rintro ⟨n, hc⟩
    have := C04_memoised_agrees_with_peg body g src hb hr (e := .oneOrMore e) he hc
    cases this with
    | plus_ok h1 h2 =>
      obtain ⟨_, rfl⟩ := h.det h1
      exact h.no_star h2
    | plus_fail h1 => cases (h.det h1).1

/-- C12, the instance named in the property: `('x'?)*` hangs on every source, from every position. -/
theorem C12_optional_in_star_hangs (c : UInt8) (k p : Nat) (st : St R U) (n : Nat) :
    eval P src n (.zeroOrMore (.optional (.terminal c))) k p st = .oof := by
  have key : ∀ n m p (st : St R U), repeatLoop (eval P src n (.optional (.terminal c))) k m p st = .oof := by
    intro n m
    induction m with
    | zero => intro p st; rfl
    | succ m ih =>
      intro p st
      simp only [repeatLoop]
      match n with
      | 0 => rfl
      | 1 => rfl
      | n + 2 =>
        have : ∃ q, eval P src (n + 2) (.optional (.terminal c)) k p st = .ok (true, q, st) := by
          simp only [eval, optionalKernel, liftPure, Out.bind_ok]
          cases (terminalKernel src p c).1 <;> simp
        obtain ⟨q, hq⟩ := this
        simp only [hq, Out.bind_ok]
        simpa using ih q st
  cases n with
  | zero => rfl
  | succ n => exact key n n p st

/-! ## C13 -/

/-- C13: a terminal. -/
theorem C13_terminal {c : UInt8} {k p : Nat} {st : St R U} {b q st'} :
    Returns P src (.terminal c) k p st b q st' ↔ st' = st ∧
      ((b = true ∧ q = p + 1 ∧ p < src.len ∧ src.bytes[p]? = some c) ∨
       (b = false ∧ q = p ∧ ¬ (p < src.len ∧ src.bytes[p]? = some c))) := by
  have hn : ∀ n, eval P src (n + 1) (.terminal c) k p st =
      .ok ((terminalKernel src p c).1, (terminalKernel src p c).2, st) := fun _ => rfl
  have ht : terminalKernel src p c = if p < src.len ∧ src.bytes[p]? = some c then (true, p + 1) else (false, p) := by
    unfold terminalKernel Source.getChar
    by_cases h : p < src.len <;> simp [h]
  have : Returns P src (.terminal c) k p st b q st' ↔
      (terminalKernel src p c).1 = b ∧ (terminalKernel src p c).2 = q ∧ st = st' := by
    constructor
    · rintro ⟨n, h⟩
      cases n with
      | zero => cases h
      | succ n => rw [hn] at h; simpa using h
    · rintro ⟨h1, h2, h3⟩
      exact ⟨1, by rw [hn 0, h1, h2, h3]⟩
  rw [this, ht]
  split <;> grind

/-- C13: a range. -/
theorem C13_range {lo hi : Nat} {k p : Nat} {st : St R U} {b q st'} :
    Returns P src (.matchRange lo hi) k p st b q st' ↔ st' = st ∧
      ((b = true ∧ q = p + 1 ∧ p < src.len ∧ ∃ c : UInt8, src.bytes[p]? = some c ∧ lo ≤ c.toNat ∧ c.toNat ≤ hi) ∨
       (b = false ∧ q = p ∧ ¬ (p < src.len ∧ ∃ c : UInt8, src.bytes[p]? = some c ∧ lo ≤ c.toNat ∧ c.toNat ≤ hi))) := by
  have hn : ∀ n, eval P src (n + 1) (.matchRange lo hi) k p st =
      .ok ((matchRangeKernel src p lo hi).1, (matchRangeKernel src p lo hi).2, st) := fun _ => rfl
  have : Returns P src (.matchRange lo hi) k p st b q st' ↔
      (matchRangeKernel src p lo hi).1 = b ∧ (matchRangeKernel src p lo hi).2 = q ∧ st = st' := by
    constructor
    · rintro ⟨n, h⟩
      cases n with
      | zero => cases h
      | succ n => rw [hn] at h; simpa using h
    · rintro ⟨h1, h2, h3⟩
      exact ⟨1, by rw [hn 0, h1, h2, h3]⟩
  rw [this]
  unfold matchRangeKernel Source.getChar
  by_cases h : p < src.len
  · simp only [h, if_true]
    cases hc : src.bytes[p]? with
    | none => simp; grind
    | some c =>
      simp only [Option.some.injEq, true_and, exists_eq_left']
      split <;> grind
  · simp [h]; grind

theorem stringTerminalLoop_spec (src : Source) (pos : Nat) : ∀ (d : List UInt8) (p : Nat),
    stringTerminalLoop src pos p d =
      if (d = [] ∨ p + d.length ≤ src.len) ∧ src.slice p (p + d.length) = d then (true, p + d.length) else (false, pos) := by
  have hlen : src.len ≤ src.bytes.length := Nat.mod_le _ _
  intro d
  induction d with
  | nil => intro p; simp [stringTerminalLoop, Source.slice]
  | cons c cs ih =>
    intro p
    simp only [stringTerminalLoop, Source.getChar]
    by_cases hp : p < src.len
    · rw [if_pos hp]
      have hb : p < src.bytes.length := by omega
      rw [List.getElem?_eq_getElem hb]
      have hs : src.slice p (p + (c :: cs).length) = src.bytes[p] :: src.slice (p + 1) (p + 1 + cs.length) := by
        simp only [Source.slice, List.length_cons]
        rw [List.drop_eq_getElem_cons hb, show p + (cs.length + 1) - p = cs.length + 1 by omega,
          show p + 1 + cs.length - (p + 1) = cs.length by omega]
        rfl
      rw [hs]
      simp only [ih, List.length_cons, List.cons.injEq, reduceCtorEq, false_or]
      by_cases hc : c = src.bytes[p]
      · simp only [hc, if_true, true_and]
        have : (cs = [] ∨ p + 1 + cs.length ≤ src.len) ↔ p + (cs.length + 1) ≤ src.len := by
          constructor
          · rintro (rfl | h)
            · simp; omega
            · omega
          · intro h; exact Or.inr (by omega)
        simp only [this]
        simp only [show p + 1 + cs.length = p + (cs.length + 1) by omega]
      · rw [if_neg hc, if_neg]
        rintro ⟨_, h, _⟩
        exact hc h.symm
    · rw [if_neg hp]
      rw [if_neg]
      rintro ⟨h, _⟩
      rcases h with h | h
      · cases h
      · simp at h; omega

/-- C13: a string terminal matches its whole byte string, or fails in place. -/
theorem C13_string {d : List UInt8} {k p : Nat} {st : St R U} {b q st'} :
    Returns P src (.stringTerminal d) k p st b q st' ↔ st' = st ∧
      ((b = true ∧ q = p + d.length ∧ (d = [] ∨ p + d.length ≤ src.len) ∧ src.slice p (p + d.length) = d) ∨
       (b = false ∧ q = p ∧ ¬ ((d = [] ∨ p + d.length ≤ src.len) ∧ src.slice p (p + d.length) = d))) := by
  have hn : ∀ n, eval P src (n + 1) (.stringTerminal d) k p st =
      .ok ((stringTerminalKernel src p d).1, (stringTerminalKernel src p d).2, st) := fun _ => rfl
  have : Returns P src (.stringTerminal d) k p st b q st' ↔
      (stringTerminalKernel src p d).1 = b ∧ (stringTerminalKernel src p d).2 = q ∧ st = st' := by
    constructor
    · rintro ⟨n, h⟩
      cases n with
      | zero => cases h
      | succ n => rw [hn] at h; simpa using h
    · rintro ⟨h1, h2, h3⟩
      exact ⟨1, by rw [hn 0, h1, h2, h3]⟩
  rw [this, stringTerminalKernel, stringTerminalLoop_spec]
  split <;> grind

/-- C13: terminals always return (they cannot panic or hang). -/
theorem C13_terminals_return (e : Expr R) (he : (∃ c, e = .terminal c) ∨ (∃ d, e = .stringTerminal d) ∨
    ∃ lo hi, e = .matchRange lo hi) (k p : Nat) (st : St R U) : ∃ b q, Returns P src e k p st b q st := by
  rcases he with ⟨c, rfl⟩ | ⟨d, rfl⟩ | ⟨lo, hi, rfl⟩
  · exact ⟨_, _, 1, rfl⟩
  · exact ⟨_, _, 1, rfl⟩
  · exact ⟨_, _, 1, rfl⟩

/-! ## C14 -/

/-- C14: `x / y` is `x`'s answer if `x` succeeds (then `y` is not run: the state is the one `x` left); otherwise `y` is run
from the same start position, in the state `x` left, and its answer is returned (a failure hands back `p`). -/
theorem C14_choice_is_prioritised {x y : Expr R} {k p : Nat} {st : St R U} {b q st'} :
    Returns P src (.orderedChoice x y) k p st b q st' ↔
      (b = true ∧ Returns P src x k p st true q st') ∨
      (∃ q1 st1, Returns P src x k p st false q1 st1 ∧
        ∃ q2, Returns P src y k p st1 b q2 st' ∧ q = if b then q2 else p) := by
  constructor
  · rintro ⟨n, h⟩
    cases n with
    | zero => cases h
    | succ n =>
      simp only [eval, orderedChoiceKernel, Out.bind_eq_ok] at h
      obtain ⟨⟨b', q', st1⟩, h1, h2⟩ := h
      cases b' with
      | true => simp at h2; obtain ⟨rfl, rfl, rfl⟩ := h2; exact Or.inl ⟨rfl, n, h1⟩
      | false =>
        simp only [Bool.false_eq_true, if_false, Out.bind_eq_ok] at h2
        obtain ⟨⟨b2, q2, st2⟩, h2, h3⟩ := h2
        cases b2 <;> simp at h3 <;> obtain ⟨rfl, rfl, rfl⟩ := h3 <;>
          exact Or.inr ⟨q', st1, ⟨n, h1⟩, q2, ⟨n, h2⟩, by simp⟩
  · rintro (⟨rfl, n, h⟩ | ⟨q1, st1, ⟨n, h1⟩, q2, ⟨m, h2⟩, rfl⟩)
    · exact ⟨n + 1, by simp [eval, orderedChoiceKernel, h]⟩
    · refine ⟨max n m + 1, ?_⟩
      simp only [eval, orderedChoiceKernel, eval_up (Nat.le_max_left n m) h1, eval_up (Nat.le_max_right n m) h2,
        Out.bind_ok]
      cases b <;> simp

/-- C14, sequence: both parts in order; on failure of either the whole fails at the start position. -/
theorem C14_sequence {x y : Expr R} {k p : Nat} {st : St R U} {b q st'} :
    Returns P src (.sequence x y) k p st b q st' ↔
      (b = false ∧ q = p ∧ ∃ q1, Returns P src x k p st false q1 st') ∨
      (∃ m st1, Returns P src x k p st true m st1 ∧ ∃ q2, Returns P src y k m st1 b q2 st' ∧ q = if b then q2 else p) := by
  constructor
  · rintro ⟨n, h⟩
    cases n with
    | zero => cases h
    | succ n =>
      simp only [eval, sequenceKernel, Out.bind_eq_ok] at h
      obtain ⟨⟨b', q', st1⟩, h1, h2⟩ := h
      cases b' with
      | false => simp at h2; obtain ⟨rfl, rfl, rfl⟩ := h2; exact Or.inl ⟨rfl, rfl, q', n, h1⟩
      | true =>
        simp only [if_true, Out.bind_eq_ok] at h2
        obtain ⟨⟨b2, q2, st2⟩, h2, h3⟩ := h2
        cases b2 <;> simp at h3 <;> obtain ⟨rfl, rfl, rfl⟩ := h3 <;>
          exact Or.inr ⟨q', st1, ⟨n, h1⟩, q2, ⟨n, h2⟩, by simp⟩
  · rintro (⟨rfl, rfl, q1, n, h⟩ | ⟨m', st1, ⟨n, h1⟩, q2, ⟨m, h2⟩, rfl⟩)
    · exact ⟨n + 1, by simp [eval, sequenceKernel, h]⟩
    · refine ⟨max n m + 1, ?_⟩
      simp only [eval, sequenceKernel, eval_up (Nat.le_max_left n m) h1, eval_up (Nat.le_max_right n m) h2,
        Out.bind_ok]
      cases b <;> simp

/-! ## The hypotheses are met -/

/-- C11, C12, C14 on concrete closures: `'a'*` on "aab", and a choice whose first part fails. -/
example : Returns (.plain pegW .B) ⟨[97, 97, 98]⟩ (.zeroOrMore (.terminal 97)) 0 0 (St.new .B ()) true 2 (St.new .B ()) :=
  ⟨10, rfl⟩
example : Returns (.plain pegW .B) ⟨[97, 97, 98]⟩ (.orderedChoice (.terminal 98) (.terminal 97)) 0 0 (St.new .B ()) true 1
    (St.new .B ()) := ⟨10, rfl⟩
/-- C12: `!'z'` matches the empty string at 0 in every state, and keeps the state. -/
example : ∀ st : St PegW Unit, True → ∃ st', Returns (.plain pegW .B) ⟨[97, 97, 98]⟩ (.notPredicate (.terminal 122)) 0 0 st
    true 0 st' ∧ True := fun st _ => ⟨st, ⟨3, rfl⟩, trivial⟩
example : Peg pegW ⟨[97, 97, 98]⟩ (.optional (.varName .B)) 2 true 2 := by
  have h1 : (eval (.plain pegW .B) ⟨[97, 97, 98]⟩ 20 (.optional (.varName .B)) 0 2 (St.new .B ())).view = some (true, 2) := by
    decide +kernel
  obtain ⟨st, h1⟩ := Out.view_eq h1
  exact C04_memoised_agrees_with_peg pegW .B _ pegW_plain .init (e := .optional (.varName .B)) trivial h1

end PP
