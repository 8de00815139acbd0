import Verif.Lemmas.Calc.MathsParse
import Verif.Lemmas.Calc.MathsExact
import Verif.Props.Calc1

/-! # Examples 3 and 4 are calculators for integer arithmetic -/
namespace PP
open Calc

theorem MExpr.text_inj {w : Bool} (e u : MExpr w) (hs : e.text.length < 2 ^ 32) (h : e.text = u.text) : e = u := by
  have h1 : TextAt ⟨e.text⟩ 0 e.text := (textAt_prefix hs _).mpr (List.prefix_refl _)
  have h2 : TextAt ⟨e.text⟩ 0 u.text := by rw [← h]; exact h1
  have hl : e.text.length = u.text.length := by rw [h]
  rcases cmp_expr ⟨e.text⟩ w 0 0 (Nat.le_refl _) e u h1 h2 with h | ⟨h, _⟩ | ⟨h, _⟩
  · exact h
  · omega
  · omega

/-! ## Example 3 -/

/-- The rules of example 3; there are no powers, so `power` and `powerExpr` occur in no tree. -/
def C3 : MathRules Ex3 where
  sign := .r_sign
  integer := .r_integer
  fraction := .r_fraction
  exponent := .r_exponent
  number := .r_number
  addition := .r_addition
  subtraction := .r_subtraction
  multiplication := .r_multiplication
  division := .r_division
  parentheses := .r_parentheses
  expr := .r_expr
  term := .r_term
  factor := .r_factor
  power := .r_factor
  powerExpr := .r_factor

theorem maths_ex3 : MathsG Ex3.body ex3Role C3 false .r_digit .r_onenine .r_factor [.r_addition, .r_expr, .r_subtraction]
    [.r_division, .r_multiplication, .r_term] where
  bNz := rfl
  bDig := rfl
  bInteger := rfl
  bNumber := rfl
  bFraction := rfl
  bExponent := rfl
  bSign := rfl
  bAdd := rfl
  bSub := rfl
  bMul := rfl
  bDiv := rfl
  bPar := rfl
  bExpr := rfl
  bTerm := rfl
  bFactor := rfl
  plain := by rintro r (rfl | rfl | rfl | rfl | rfl | rfl | rfl | rfl | rfl | rfl) <;> rfl
  rExpr := rfl
  rTerm := rfl
  rAdd := rfl
  rSub := rfl
  rMul := rfl
  rDiv := rfl
  neMul := by decide
  neAdd := by decide
  operand := Or.inl ⟨rfl, rfl⟩

theorem arms_ex3 : ArmsOK ex3Maths C3 false where
  expr := rfl
  term := rfl
  factor := rfl
  parentheses := rfl
  powerExpr := rfl
  power := nofun
  addition := rfl
  subtraction := rfl
  multiplication := rfl
  division := rfl
  numberArm := rfl
  number := rfl
  integer := rfl

theorem ex3_parse (src : Source) {n : Nat} {b : Bool} {q : Nat} {t : Publisher Ex3} (h : parse ex3Parser src n = .ok (b, q, t)) :
    (b = true ∧ ∃ e : MExpr false, TextAt src 0 e.text ∧ q = e.text.length ∧ (∀ u : MExpr false, TextAt src 0 u.text → u.text.length ≤ q) ∧
      t.Unfolds 0 (.node .r_grammar (some (0, 0)) [.node .r_grammar (some (0, q)) [e.tree C3 0]])) ∨
    (b = false ∧ q = 0 ∧ (∀ u : MExpr false, ¬ TextAt src 0 u.text) ∧ t.Unfolds 0 (.node .r_grammar (some (0, 0)) [])) := by
  obtain ⟨h1, ts, h2, h3⟩ := C62_example3 src h
  rcases maths_start maths_ex3 rfl rfl h1 h2 with ⟨rfl, e, g1, g2, g3, g4⟩ | ⟨rfl, g1, g2, g3⟩
  · rw [g4] at h3; exact Or.inl ⟨rfl, e, g1, g2, g3, h3⟩
  · rw [g3] at h3; exact Or.inr ⟨rfl, g1, g2, h3⟩

/-- C65: on every text of fewer than 2^32 bytes, example 3's parser accepts iff the text starts with an expression; it then consumes the
longest expression the text starts with, and returns the tree of that expression, operators grouped by precedence, and to the left. -/
theorem C65_longest_expression (src : Source) (hs : src.bytes.length < 2 ^ 32) {n : Nat} {b : Bool} {q : Nat} {t : Publisher Ex3}
    (h : parse ex3Parser src n = .ok (b, q, t)) :
    (b = true → ∃ e : MExpr false, e.text <+: src.bytes ∧ q = e.text.length ∧
      (∀ u : MExpr false, u.text <+: src.bytes → u.text.length ≤ q) ∧
      t.Unfolds 0 (.node .r_grammar (some (0, 0)) [.node .r_grammar (some (0, q)) [e.tree C3 0]])) ∧
    (b = false → q = 0 ∧ (∀ u : MExpr false, ¬ u.text <+: src.bytes) ∧ t.Unfolds 0 (.node .r_grammar (some (0, 0)) [])) := by
  rcases ex3_parse src h with ⟨rfl, s, h1, h2, h3, h4⟩ | ⟨rfl, h1, h2, h3⟩
  · exact ⟨fun _ => ⟨s, (textAt_prefix hs _).mp h1, h2, fun u hu => h3 u ((textAt_prefix hs _).mpr hu), h4⟩, by simp⟩
  · exact ⟨by simp, fun _ => ⟨h1, fun u hu => h2 u ((textAt_prefix hs _).mpr hu), h3⟩⟩

/-- C65: evaluating the returned tree computes the expression that was read, in 64-bit arithmetic; on a text that was not accepted it
panics. -/
theorem C65_evaluates (src : Source) (ht : src.IsText) (checked : Bool) {n : Nat} {b : Bool} {q : Nat} {t : Publisher Ex3}
    (h : parse ex3Parser src n = .ok (b, q, t)) :
    (b = true → ∃ e : MExpr false, e.text = src.bytes.take q ∧
      ∀ m, 6 * q + 5 ≤ m → match e.eval checked with
        | some v => mathsTree ex3Maths checked t src.bytes m = .ok v
        | none => ∃ p, mathsTree ex3Maths checked t src.bytes m = .panic p) ∧
    (b = false → ∀ m, 1 ≤ m → ∃ p, mathsTree ex3Maths checked t src.bytes m = .panic p) := by
  rcases ex3_parse src h with ⟨rfl, e, h1, rfl, _, h4⟩ | ⟨rfl, h1, h2, h3⟩
  · refine ⟨fun _ => ⟨e, h1.take.symm, fun m hm => ?_⟩, by simp⟩
    have := maths_eval (checked := checked) arms_ex3 ht rfl h4 h1 hm
    generalize e.eval checked = o at this
    cases this with
    | value h => exact h
    | panics h => exact ⟨_, h⟩
  · exact ⟨by simp, fun _ m hm => ⟨_, maths_eval_none h3 hm⟩⟩

/-- C65: a text (of fewer than 2^32 bytes) is the text of at most one expression. -/
theorem C65_unique_reading (e u : MExpr false) (hs : e.text.length < 2 ^ 32) (h : e.text = u.text) : e = u := MExpr.text_inj e u hs h

/-- C65: example 3 is a calculator: on the text of any expression, parsing and evaluating returns its value in 64-bit arithmetic — or
panics if that arithmetic does — and reports everything consumed. -/
theorem C65_computes (e : MExpr false) (hs : e.text.length < 2 ^ 32) (checked : Bool) :
    ∃ N, ∀ n, N ≤ n → parse ex3Parser ⟨e.text⟩ n = .panic .keyOverflow ∨
      match e.eval checked with
        | some v => calc3 checked ⟨e.text⟩ n = .ok (true, e.text.length, v)
        | none => ∃ p, calc3 checked ⟨e.text⟩ n = .panic p := by
  obtain ⟨N, hN⟩ := C07_plain_parse_terminates Ex3.body .r_grammar ⟨e.text⟩ Ex3.all Ex3.mem_all wf_ex3
  refine ⟨N + 6 * e.text.length + 5, fun n hn => ?_⟩
  rcases hN n (by omega) with ⟨b, q, t, h⟩ | h
  · right
    have h : parse ex3Parser ⟨e.text⟩ n = .ok (b, q, t) := h
    obtain ⟨h1, h2⟩ := C65_longest_expression ⟨e.text⟩ hs h
    obtain ⟨h3, _⟩ := C65_evaluates ⟨e.text⟩ (isText_ascii (MExpr.ascii e)) checked h
    cases b with
    | false => exact absurd (List.prefix_refl _) ((h2 rfl).2.1 e)
    | true =>
      obtain ⟨u, g1, g2, g3, _⟩ := h1 rfl
      obtain ⟨u', k1, k2⟩ := h3 rfl
      have hq : q = e.text.length := by
        have := g3 e (List.prefix_refl _)
        have : u.text.length ≤ e.text.length := g1.length_le
        omega
      subst hq
      have hu : u' = e := C65_unique_reading u' e (by rw [k1]; simpa using hs) (by rw [k1]; simp)
      subst hu
      have := k2 n (by omega)
      unfold calc3
      rw [h]
      simp only [Out.bind_ok]
      generalize u'.eval checked = o at this ⊢
      cases o with
      | none =>
        obtain ⟨p, hp⟩ := this
        exact ⟨p, by rw [hp]; rfl⟩
      | some v => simp only at this ⊢; rw [this]; rfl
  · exact Or.inl h

/-- C65: as long as all intermediate results exist and fit in 64 bits, that is the exact value (division truncating). -/
theorem C65_exact (e : MExpr false) (checked : Bool) (h : e.AllFit) : ∃ v, e.val = some v ∧ e.eval checked = some v := by
  obtain ⟨v, h1, _, h2⟩ := exact_expr (checked := checked) e h
  exact ⟨v, h1, h2⟩

/-- C65: a debug build never returns a wrong value: it panics instead. -/
theorem C65_debug_is_exact (e : MExpr false) {v : Int} (h : e.eval true = some v) : e.AllFit ∧ e.val = some v := by
  obtain ⟨h1, h2, _⟩ := debug_expr e h (noExp_expr e)
  exact ⟨h1, h2⟩

/-- `2+3*(4-1)` -/
def mathEx3 : MExpr false :=
  .add (.term (.one (.fac (.num ⟨.absent, .one 2, none, none⟩))))
    (.mul (.one (.fac (.num ⟨.absent, .one 3, none, none⟩)))
      (.fac (.paren (.sub (.term (.one (.fac (.num ⟨.absent, .one 4, none, none⟩)))) (.one (.fac (.num ⟨.absent, .one 1, none, none⟩)))))))

example : mathEx3.text = bytesOf "2+3*(4-1)" ∧ mathEx3.text.length < 2 ^ 32 ∧ mathEx3.eval true = some 11 ∧ mathEx3.val = some 11 := by
  decide +kernel

example : mathEx3.AllFit := (C65_debug_is_exact mathEx3 (v := 11) (by decide +kernel)).1

example : (match calc3 true ⟨bytesOf "2+3*(4-1)"⟩ 400 with | .ok r => some r | _ => none) = some (true, 9, 11) := by decide +kernel

/-- Subtraction and division group to the left; a sign belongs to the number. -/
example : (match calc3 true ⟨bytesOf "9-4--3"⟩ 400 with | .ok r => some r | _ => none) = some (true, 6, 8) ∧
    (match calc3 true ⟨bytesOf "-9/2*3"⟩ 400 with | .ok r => some r | _ => none) = some (true, 6, -12) := by decide +kernel

/-- Only a prefix is an expression. -/
example : (match calc3 true ⟨bytesOf "2+3*"⟩ 400 with | .ok r => some r | _ => none) = some (true, 3, 5) := by decide +kernel

/-- Rejected texts, fractions and division by 0 panic. -/
example : (match calc3 false ⟨bytesOf "*2"⟩ 400 with | .panic _ => true | _ => false) = true ∧
    (match calc3 false ⟨bytesOf "1.5"⟩ 400 with | .panic _ => true | _ => false) = true ∧
    (match calc3 false ⟨bytesOf "1/0"⟩ 400 with | .panic _ => true | _ => false) = true := by decide +kernel

/-! ## Example 4 -/

/-- The rules of example 4. -/
def C4 : MathRules Ex4 where
  sign := .r_sign
  integer := .r_integer
  fraction := .r_fraction
  exponent := .r_exponent
  number := .r_number
  addition := .r_addition
  subtraction := .r_subtraction
  multiplication := .r_multiplication
  division := .r_division
  parentheses := .r_parentheses
  expr := .r_expr
  term := .r_term
  factor := .r_factor
  power := .r_power
  powerExpr := .r_power_expr

theorem maths_ex4 : MathsG Ex4.body ex4Role C4 true .r_digit .r_onenine .r_power_expr [.r_addition, .r_expr, .r_subtraction]
    [.r_division, .r_multiplication, .r_term] where
  bNz := rfl
  bDig := rfl
  bInteger := rfl
  bNumber := rfl
  bFraction := rfl
  bExponent := rfl
  bSign := rfl
  bAdd := rfl
  bSub := rfl
  bMul := rfl
  bDiv := rfl
  bPar := rfl
  bExpr := rfl
  bTerm := rfl
  bFactor := rfl
  plain := by rintro r (rfl | rfl | rfl | rfl | rfl | rfl | rfl | rfl | rfl | rfl) <;> rfl
  rExpr := rfl
  rTerm := rfl
  rAdd := rfl
  rSub := rfl
  rMul := rfl
  rDiv := rfl
  neMul := by decide
  neAdd := by decide
  operand := Or.inr ⟨rfl, rfl, rfl, rfl, rfl⟩

theorem arms_ex4 : ArmsOK ex4Maths C4 true where
  expr := rfl
  term := rfl
  factor := rfl
  parentheses := rfl
  powerExpr := rfl
  power := fun _ => rfl
  addition := rfl
  subtraction := rfl
  multiplication := rfl
  division := rfl
  numberArm := rfl
  number := rfl
  integer := rfl

theorem ex4_parse (src : Source) {n : Nat} {b : Bool} {q : Nat} {t : Publisher Ex4} (h : parse ex4Parser src n = .ok (b, q, t)) :
    (b = true ∧ ∃ e : MExpr true, TextAt src 0 e.text ∧ q = e.text.length ∧ (∀ u : MExpr true, TextAt src 0 u.text → u.text.length ≤ q) ∧
      t.Unfolds 0 (.node .r_grammar (some (0, 0)) [.node .r_grammar (some (0, q)) [e.tree C4 0]])) ∨
    (b = false ∧ q = 0 ∧ (∀ u : MExpr true, ¬ TextAt src 0 u.text) ∧ t.Unfolds 0 (.node .r_grammar (some (0, 0)) [])) := by
  obtain ⟨h1, ts, h2, h3⟩ := C62_example4 src h
  rcases maths_start maths_ex4 rfl rfl h1 h2 with ⟨rfl, e, g1, g2, g3, g4⟩ | ⟨rfl, g1, g2, g3⟩
  · rw [g4] at h3; exact Or.inl ⟨rfl, e, g1, g2, g3, h3⟩
  · rw [g3] at h3; exact Or.inr ⟨rfl, g1, g2, h3⟩

/-- C66: on every text of fewer than 2^32 bytes, example 4's parser accepts iff the text starts with an expression; it then consumes the
longest expression the text starts with, and returns the tree of that expression: operators grouped by precedence; `+ - * /` to the left, `^` to the right. -/
theorem C66_longest_expression (src : Source) (hs : src.bytes.length < 2 ^ 32) {n : Nat} {b : Bool} {q : Nat} {t : Publisher Ex4}
    (h : parse ex4Parser src n = .ok (b, q, t)) :
    (b = true → ∃ e : MExpr true, e.text <+: src.bytes ∧ q = e.text.length ∧
      (∀ u : MExpr true, u.text <+: src.bytes → u.text.length ≤ q) ∧
      t.Unfolds 0 (.node .r_grammar (some (0, 0)) [.node .r_grammar (some (0, q)) [e.tree C4 0]])) ∧
    (b = false → q = 0 ∧ (∀ u : MExpr true, ¬ u.text <+: src.bytes) ∧ t.Unfolds 0 (.node .r_grammar (some (0, 0)) [])) := by
  rcases ex4_parse src h with ⟨rfl, s, h1, h2, h3, h4⟩ | ⟨rfl, h1, h2, h3⟩
  · exact ⟨fun _ => ⟨s, (textAt_prefix hs _).mp h1, h2, fun u hu => h3 u ((textAt_prefix hs _).mpr hu), h4⟩, by simp⟩
  · exact ⟨by simp, fun _ => ⟨h1, fun u hu => h2 u ((textAt_prefix hs _).mpr hu), h3⟩⟩

/-- C66: evaluating the returned tree computes the expression that was read, in 64-bit arithmetic; on a text that was not accepted it
panics. -/
theorem C66_evaluates (src : Source) (ht : src.IsText) (checked : Bool) {n : Nat} {b : Bool} {q : Nat} {t : Publisher Ex4}
    (h : parse ex4Parser src n = .ok (b, q, t)) :
    (b = true → ∃ e : MExpr true, e.text = src.bytes.take q ∧
      ∀ m, 6 * q + 5 ≤ m → match e.eval checked with
        | some v => mathsTree ex4Maths checked t src.bytes m = .ok v
        | none => ∃ p, mathsTree ex4Maths checked t src.bytes m = .panic p) ∧
    (b = false → ∀ m, 1 ≤ m → ∃ p, mathsTree ex4Maths checked t src.bytes m = .panic p) := by
  rcases ex4_parse src h with ⟨rfl, e, h1, rfl, _, h4⟩ | ⟨rfl, h1, h2, h3⟩
  · refine ⟨fun _ => ⟨e, h1.take.symm, fun m hm => ?_⟩, by simp⟩
    have := maths_eval (checked := checked) arms_ex4 ht rfl h4 h1 hm
    generalize e.eval checked = o at this
    cases this with
    | value h => exact h
    | panics h => exact ⟨_, h⟩
  · exact ⟨by simp, fun _ m hm => ⟨_, maths_eval_none h3 hm⟩⟩

/-- C66: a text (of fewer than 2^32 bytes) is the text of at most one expression. -/
theorem C66_unique_reading (e u : MExpr true) (hs : e.text.length < 2 ^ 32) (h : e.text = u.text) : e = u := MExpr.text_inj e u hs h

/-- C66: example 4 is a calculator: on the text of any expression, parsing and evaluating returns its value in 64-bit arithmetic — or
panics if that arithmetic does — and reports everything consumed. -/
theorem C66_computes (e : MExpr true) (hs : e.text.length < 2 ^ 32) (checked : Bool) :
    ∃ N, ∀ n, N ≤ n → parse ex4Parser ⟨e.text⟩ n = .panic .keyOverflow ∨
      match e.eval checked with
        | some v => calc4 checked ⟨e.text⟩ n = .ok (true, e.text.length, v)
        | none => ∃ p, calc4 checked ⟨e.text⟩ n = .panic p := by
  obtain ⟨N, hN⟩ := C07_plain_parse_terminates Ex4.body .r_grammar ⟨e.text⟩ Ex4.all Ex4.mem_all wf_ex4
  refine ⟨N + 6 * e.text.length + 5, fun n hn => ?_⟩
  rcases hN n (by omega) with ⟨b, q, t, h⟩ | h
  · right
    have h : parse ex4Parser ⟨e.text⟩ n = .ok (b, q, t) := h
    obtain ⟨h1, h2⟩ := C66_longest_expression ⟨e.text⟩ hs h
    obtain ⟨h3, _⟩ := C66_evaluates ⟨e.text⟩ (isText_ascii (MExpr.ascii e)) checked h
    cases b with
    | false => exact absurd (List.prefix_refl _) ((h2 rfl).2.1 e)
    | true =>
      obtain ⟨u, g1, g2, g3, _⟩ := h1 rfl
      obtain ⟨u', k1, k2⟩ := h3 rfl
      have hq : q = e.text.length := by
        have := g3 e (List.prefix_refl _)
        have : u.text.length ≤ e.text.length := g1.length_le
        omega
      subst hq
      have hu : u' = e := C66_unique_reading u' e (by rw [k1]; simpa using hs) (by rw [k1]; simp)
      subst hu
      have := k2 n (by omega)
      unfold calc4
      rw [h]
      simp only [Out.bind_ok]
      generalize u'.eval checked = o at this ⊢
      cases o with
      | none =>
        obtain ⟨p, hp⟩ := this
        exact ⟨p, by rw [hp]; rfl⟩
      | some v => simp only at this ⊢; rw [this]; rfl
  · exact Or.inl h

/-- C66: as long as all intermediate results exist and fit in 64 bits, and all exponents in 32 bits, that is the exact value. -/
theorem C66_exact (e : MExpr true) (checked : Bool) (h : e.AllFit) : ∃ v, e.val = some v ∧ e.eval checked = some v := by
  obtain ⟨v, h1, _, h2⟩ := exact_expr (checked := checked) e h
  exact ⟨v, h1, h2⟩

/-- C66: if all exponents are 32-bit unsigned integers, a debug build never returns a wrong value: it panics instead. -/
theorem C66_debug_is_exact (e : MExpr true) (hx : e.ExponentsFit) {v : Int} (h : e.eval true = some v) : e.AllFit ∧ e.val = some v := by
  obtain ⟨h1, h2, _⟩ := debug_expr e h hx
  exact ⟨h1, h2⟩

/-- `2^3^2-1` -/
def mathEx4 : MExpr true :=
  .sub (.term (.one (.pow rfl (.num ⟨.absent, .one 2, none, none⟩) (.pow rfl (.num ⟨.absent, .one 3, none, none⟩)
    (.fac (.num ⟨.absent, .one 2, none, none⟩)))))) (.one (.fac (.num ⟨.absent, .one 1, none, none⟩)))

example : mathEx4.text = bytesOf "2^3^2-1" ∧ mathEx4.text.length < 2 ^ 32 ∧ mathEx4.eval true = some 511 ∧ mathEx4.val = some 511 := by
  decide +kernel

theorem mathEx4_exponents : mathEx4.ExponentsFit := by
  simp only [mathEx4, MExpr.ExponentsFit, MTerm.ExponentsFit, MPower.ExponentsFit, MFactor.ExponentsFit, true_and, and_true]
  refine ⟨fun v hv => ?_, fun v hv => ?_⟩
  · have : some v = some 2 := hv.symm.trans (by decide +kernel)
    injection this with this
    subst this
    decide
  · have : some v = some 9 := hv.symm.trans (by decide +kernel)
    injection this with this
    subst this
    decide

example : mathEx4.AllFit := (C66_debug_is_exact mathEx4 mathEx4_exponents (v := 511) (by decide +kernel)).1

example : (match calc4 true ⟨bytesOf "2^3^2-1"⟩ 400 with | .ok r => some r | _ => none) = some (true, 7, 511) := by decide +kernel

/-- `2^4294967296`, in any build: the exponent is truncated to 32 bits, and the value is wrong even in a debug build. -/
def bigExponent : MExpr true :=
  .term (.one (.pow rfl (.num ⟨.absent, .one 2, none, none⟩) (.fac (.num ⟨.absent, .more 3 2 [9, 4, 9, 6, 7, 2, 9, 6], none, none⟩))))

/-- C66: without that condition a debug build can return a wrong value: `2^4294967296` evaluates to 1. -/
theorem C66_debug_truncates_exponents : bigExponent.text = bytesOf "2^4294967296" ∧ bigExponent.eval true = some 1 ∧
    bigExponent.val = some (2 ^ 4294967296) := by
  refine ⟨by decide +kernel, by decide +kernel, ?_⟩
  have h : (MPower.fac (w := true) (.num ⟨.absent, .more 3 2 [9, 4, 9, 6, 7, 2, 9, 6], none, none⟩)).val = some 4294967296 := by decide +kernel
  have h2 : (MFactor.num (w := true) ⟨.absent, .one 2, none, none⟩).val = some 2 := by decide +kernel
  rw [bigExponent, MExpr.val, MTerm.val, MPower.val, h, h2]
  rfl

/-- A negative exponent is taken modulo 2^32. -/
example : (match calc4 true ⟨bytesOf "3^-4294967294"⟩ 400 with | .ok r => some r | _ => none) = some (true, 13, 9) := by decide +kernel

end PP
