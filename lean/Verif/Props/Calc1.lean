import Verif.Lemmas.Calc.Eval1
import Verif.Props.GroupTrees

/-! # Example 1 is a calculator for sums -/
namespace PP
open Calc

/-! ## Reading the grammar -/

theorem peg_integer_false {src : Source} {p q}
    (h : Peg (groupBody Ex1.body ex1Role) src (.varName .r_integer) p false q) : ¬ NonzeroAt src p := by
  cases h with
  | ref h0 =>
    have h1 : Peg (groupBody Ex1.body ex1Role) src (.sequence (.inlined .r_onenine) (.zeroOrMore (.inlined .r_digit))) p false q := h0
    cases h1 with
    | seq_fail1 h2 =>
      cases h2 with
      | inl h3 =>
        have h4 : Peg (groupBody Ex1.body ex1Role) src (.matchRange 49 57) p false _ := h3
        cases h4 with
        | range_fail hf => exact hf
    | seq_fail2 _ h2 => cases h2

/-- An operator and a number start at `p`. -/
def OpNumAt (src : Source) (p : Nat) : Prop := (ByteAt src p 43 ∨ ByteAt src p 45) ∧ NonzeroAt src (p + 1)

theorem peg_op_false {src : Source} {p c q}
    (h : Peg (groupBody Ex1.body ex1Role) src (.sequence (.sequence (.stringTerminal []) (.terminal c)) (.varName .r_integer)) p
      false q) : ¬ (ByteAt src p c ∧ NonzeroAt src (p + 1)) := by
  rintro ⟨h1, h2⟩
  cases h with
  | seq_fail1 h =>
    cases h with
    | seq_fail1 h => cases (string_nil h).1
    | seq_fail2 g h =>
      obtain ⟨_, rfl⟩ := string_nil g
      cases h with
      | terminal_fail h => exact h h1
  | seq_fail2 h h' =>
    cases h with
    | seq_ok g h =>
      obtain ⟨_, rfl⟩ := string_nil g
      cases h with
      | terminal_ok _ _ => exact peg_integer_false h' h2

theorem Num1.nonzero {src : Source} {p : Nat} {n : Num1} (h : TextAt src p n.text) : NonzeroAt src p :=
  ⟨_, h.1.1, h.1.2, by rw [digitByte_toNat]; simp; omega, by rw [digitByte_toNat]; simp; omega⟩

theorem digits_at {src : Source} {p : Nat} {ds : List (Fin 10)} (h : TextAt src p (digitsText ds)) {i : Nat} (hi : i < ds.length) :
    DigitAt src (p + i) := by
  have := h.get (i := i) (c := digitByte ds[i]) (by simp [digitsText, hi])
  exact digitAt_digitByte this

/-- Every position inside a sum is a digit or an operator followed by a number. -/
theorem Sum1.inside {src : Source} {p : Nat} (s : Sum1) (h : TextAt src p s.text) {i : Nat} (hi : i < s.text.length) :
    DigitAt src (p + i) ∨ OpNumAt src (p + i) := by
  have step : ∀ (u : Sum1) (n : Num1) (c : UInt8), (c = 43 ∨ c = 45) → TextAt src p (u.text ++ c :: n.text) →
      (i < u.text.length → DigitAt src (p + i) ∨ OpNumAt src (p + i)) → i < (u.text ++ c :: n.text).length →
      DigitAt src (p + i) ∨ OpNumAt src (p + i) := by
    intro u n c hc h ih hi
    obtain ⟨h1, h2, h3⟩ := textAt_append.mp h
    rcases Nat.lt_trichotomy i u.text.length with hl | rfl | hl
    · exact ih hl
    · right
      exact ⟨by rcases hc with rfl | rfl <;> simp [h2], Num1.nonzero h3⟩
    · left
      have := digits_at (i := i - u.text.length - 1) h3 (by
        simp [Num1.text, digitsText_length] at hi
        omega)
      rwa [show p + u.text.length + 1 + (i - u.text.length - 1) = p + i by omega] at this
  induction s with
  | num n => exact Or.inl (digits_at h (by simpa [Sum1.text, Num1.text, digitsText_length] using hi))
  | add s n ih => exact step s n 43 (Or.inl rfl) h (fun hi => ih (textAt_append.mp h).1 hi) hi
  | sub s n ih => exact step s n 45 (Or.inr rfl) h (fun hi => ih (textAt_append.mp h).1 hi) hi

theorem Sum1.nonzero {src : Source} {p : Nat} (s : Sum1) (h : TextAt src p s.text) : NonzeroAt src p := by
  induction s with
  | num n => exact Num1.nonzero h
  | add s n ih => exact ih (textAt_append.mp h).1
  | sub s n ih => exact ih (textAt_append.mp h).1

/-! ## C64 -/

/-- What `parse` does on every source. -/
theorem ex1_parse (src : Source) {n : Nat} {b : Bool} {q : Nat} {t : Publisher Ex1} (h : parse ex1Parser src n = .ok (b, q, t)) :
    (b = true ∧ ∃ s : Sum1, TextAt src 0 s.text ∧ q = s.text.length ∧ (∀ u : Sum1, TextAt src 0 u.text → u.text.length ≤ q) ∧
      t.Unfolds 0 (.node .r_grammar (some (0, 0)) [.node .r_grammar (some (0, q)) [s.tree 0]])) ∨
    (b = false ∧ q = 0 ∧ (∀ u : Sum1, ¬ TextAt src 0 u.text) ∧ t.Unfolds 0 (.node .r_grammar (some (0, 0)) [])) := by
  obtain ⟨_, ts, h1, h2⟩ := C62_example1 src h
  cases h1 with
  | @ref _ _ _ _ _ ts h1 =>
    generalize hi : Ex1.body .r_grammar = e at h1
    simp only [Ex1.body] at hi
    subst hi
    generalize List.cons _ _ = inv at h1
    cases h1 with
    | lr_ok hd hg hf =>
      left
      obtain ⟨s, g1, rfl, g2, ht⟩ := ex1_grown hg rfl hd
      simp only [ex1Role, Role.head.injEq] at hd
      subst hd
      have hpos := Sum1.text_pos s
      have h0 : 0 ≠ s.text.length := by omega
      simp only [Nat.zero_add] at hf g2 h2 ⊢
      refine ⟨trivial, s, g1, rfl, fun u hu => ?_, ?_⟩
      · refine Decidable.byContradiction fun hlt => ?_
        have := Sum1.inside u hu (i := s.text.length) (by omega)
        simp only [Nat.zero_add] at this
        rcases this with hd | ho
        · exact g2 hd
        · have hf : Peg (groupBody Ex1.body ex1Role) src (.orderedChoice
              (.sequence (.sequence (.stringTerminal []) (.terminal 43)) (.varName .r_integer))
              (.sequence (.sequence (.stringTerminal []) (.terminal 45)) (.varName .r_integer))) s.text.length false _ := hf
          cases hf with
          | choice_fail f1 f2 =>
            rcases ho with ⟨ho | ho, hn⟩
            · exact peg_op_false f1 ⟨ho, hn⟩
            · exact peg_op_false f2 ⟨ho, hn⟩
      · simpa [Tree.mk, Tree.prune, Tree.prune.pruneL, ht, h0] using h2
    | lr_fail hd hf =>
      right
      simp only [ex1Role, Role.head.injEq] at hd
      subst hd
      refine ⟨rfl, rfl, fun u hu => peg_integer_false hf (Sum1.nonzero u hu), ?_⟩
      simpa [Tree.mk, Tree.prune, Tree.prune.pruneL] using h2
    | lr_dup _ hm _ => cases hm

theorem textAt_prefix {src : Source} (hs : src.bytes.length < 2 ^ 32) (l : List UInt8) : TextAt src 0 l ↔ l <+: src.bytes := by
  have : src.len = src.bytes.length := Nat.mod_eq_of_lt hs
  have h' : src.bytes.take src.len = src.bytes := by rw [this, List.take_length]
  exact ⟨fun h => by have := h.isPrefix; rwa [h'] at this, fun h => .of_prefix (by rwa [h'])⟩

/-- C64: on every text of fewer than 2^32 bytes, example 1's parser accepts iff the text starts with a sum; it then consumes the
longest sum the text starts with, and returns the tree of that sum. -/
theorem C64_longest_sum (src : Source) (hs : src.bytes.length < 2 ^ 32) {n : Nat} {b : Bool} {q : Nat} {t : Publisher Ex1}
    (h : parse ex1Parser src n = .ok (b, q, t)) :
    (b = true → ∃ s : Sum1, s.text <+: src.bytes ∧ q = s.text.length ∧
      (∀ u : Sum1, u.text <+: src.bytes → u.text.length ≤ q) ∧
      t.Unfolds 0 (.node .r_grammar (some (0, 0)) [.node .r_grammar (some (0, q)) [s.tree 0]])) ∧
    (b = false → q = 0 ∧ (∀ u : Sum1, ¬ u.text <+: src.bytes) ∧ t.Unfolds 0 (.node .r_grammar (some (0, 0)) [])) := by
  rcases ex1_parse src h with ⟨rfl, s, h1, h2, h3, h4⟩ | ⟨rfl, h1, h2, h3⟩
  · exact ⟨fun _ => ⟨s, (textAt_prefix hs _).mp h1, h2, fun u hu => h3 u ((textAt_prefix hs _).mpr hu), h4⟩, by simp⟩
  · exact ⟨by simp, fun _ => ⟨h1, fun u hu => h2 u ((textAt_prefix hs _).mpr hu), h3⟩⟩

/-- C64: evaluating the returned tree computes the sum that was read, in 64-bit arithmetic from left to right; a text that was not
accepted evaluates to 0. -/
theorem C64_evaluates (src : Source) (ht : src.IsText) (checked : Bool) {n : Nat} {b : Bool}
    {q : Nat} {t : Publisher Ex1} (h : parse ex1Parser src n = .ok (b, q, t)) :
    (b = true → ∃ s : Sum1, s.text = src.bytes.take q ∧
      ∀ m, q + 2 ≤ m → match s.eval checked with
        | some v => calc1Tree checked t src.bytes m = .ok v
        | none => ∃ p, calc1Tree checked t src.bytes m = .panic p) ∧
    (b = false → ∀ m, 1 ≤ m → calc1Tree checked t src.bytes m = .ok 0) := by
  rcases ex1_parse src h with ⟨rfl, s, h1, rfl, _, h4⟩ | ⟨rfl, h1, h2, h3⟩
  · refine ⟨fun _ => ⟨s, h1.take.symm, fun m hm => ?_⟩, by simp⟩
    obtain ⟨nd, c, g1, g2, g3, g4, g5, g6⟩ := h4.one
    obtain ⟨nd', c', k1, k2, k3, k4, k5, k6⟩ := g6.one
    obtain ⟨m, rfl⟩ : ∃ m', m = m' + 2 := ⟨m - 2, by omega⟩
    obtain ⟨nd2, j1, j2, j3⟩ := calc1_sum (checked := checked) ht s (m := m) k6 h1 (by omega)
    have : Runs (calc1Tree checked t src.bytes (m + 2)) (s.eval checked) := by
      unfold calc1Tree
      rw [g1]
      refine calc1_pass g5 (by rw [g2]; decide) (fun x hx => Sum1.eval_fits hx) ?_
      rw [calc1_op k1 (by simp [k2])]
      refine calc1_pass k5 (by rw [k2]; decide) (fun x hx => Sum1.eval_fits hx) ?_
      rw [calc1_op j1 (by simp [j2])]
      exact j3
    generalize s.eval checked = o at this
    cases this with
    | value h => exact h
    | panics h => exact ⟨_, h⟩
  · refine ⟨by simp, fun _ m hm => ?_⟩
    obtain ⟨nd, g1, g2, g3, g4, g5⟩ := h3.none
    obtain ⟨m, rfl⟩ : ∃ m', m = m' + 1 := ⟨m - 1, by omega⟩
    unfold calc1Tree
    rw [g1, Out.bind_ok, calc1Kernel, g5, mapM_none, Out.bind_ok, g2]
    rfl

/-- Digits at the end of a text, after something that does not end in a digit. -/
theorem digits_unique_end {ds ds' : List (Fin 10)} {r r' : List UInt8}
    (hr : ∀ c, r.getLast? = some c → ¬ (48 ≤ c.toNat ∧ c.toNat ≤ 57)) (hr' : ∀ c, r'.getLast? = some c → ¬ (48 ≤ c.toNat ∧ c.toNat ≤ 57))
    (h : r ++ digitsText ds = r' ++ digitsText ds') : ds = ds' ∧ r = r' := by
  have h' := congrArg List.reverse h
  simp only [List.reverse_append, digitsText, ← List.map_reverse] at h'
  obtain ⟨h1, h2⟩ := digits_unique (ds := ds.reverse) (ds' := ds'.reverse) (r := r.reverse) (r' := r'.reverse)
    (fun c hc => hr c (by simpa using hc)) (fun c hc => hr' c (by simpa using hc)) h'
  exact ⟨List.reverse_inj.mp h1, List.reverse_inj.mp h2⟩

theorem Num1.digits_inj {n n' : Num1} (h : n.digits = n'.digits) : n = n' := by
  obtain ⟨f, r⟩ := n
  obtain ⟨f', r'⟩ := n'
  simp only [Num1.digits, List.cons.injEq, Fin.mk.injEq] at h
  obtain ⟨h1, rfl⟩ := h
  have : f = f' := Fin.ext (by omega)
  rw [this]

/-- C64: a text is the text of at most one sum. -/
theorem C64_unique_reading (s : Sum1) : ∀ u : Sum1, s.text = u.text → s = u := by
  have key : ∀ (s u : Sum1) (n m : Num1) (c d : UInt8), (c = 43 ∨ c = 45) → (d = 43 ∨ d = 45) →
      s.text ++ c :: n.text = u.text ++ d :: m.text → n = m ∧ s.text = u.text ∧ c = d := by
    intro s u n m c d hc hd h
    have h' : (s.text ++ [c]) ++ digitsText n.digits = (u.text ++ [d]) ++ digitsText m.digits := by simpa [Num1.text] using h
    obtain ⟨h1, h2⟩ := digits_unique_end (by
        intro x hx
        simp at hx
        subst hx
        rcases hc with rfl | rfl <;> decide) (by
        intro x hx
        simp at hx
        subst hx
        rcases hd with rfl | rfl <;> decide) h'
    obtain ⟨h3, h4⟩ := List.append_inj' h2 rfl
    exact ⟨Num1.digits_inj h1, h3, by simpa using h4⟩
  have key' : ∀ (u : Sum1) (n m : Num1) (c : UInt8), (c = 43 ∨ c = 45) → n.text = u.text ++ c :: m.text → False := by
    intro u n m c hc h
    have h' : [] ++ digitsText n.digits = (u.text ++ [c]) ++ digitsText m.digits := by simpa [Num1.text] using h
    obtain ⟨_, h2⟩ := digits_unique_end (by simp) (by
        intro x hx
        simp at hx
        subst hx
        rcases hc with rfl | rfl <;> decide) h'
    simp at h2
  induction s with
  | num n =>
    intro u h
    cases u with
    | num m => rw [Num1.digits_inj (digitsText_inj h)]
    | add u m => exact (key' u n m 43 (Or.inl rfl) h).elim
    | sub u m => exact (key' u n m 45 (Or.inr rfl) h).elim
  | add s n ih =>
    intro u h
    cases u with
    | num m => exact (key' s m n 43 (Or.inl rfl) h.symm).elim
    | add u m =>
      obtain ⟨rfl, h1, _⟩ := key s u n m 43 43 (by simp) (by simp) h
      rw [ih u h1]
    | sub u m => exact absurd (key s u n m 43 45 (by simp) (by simp) h).2.2 (by decide)
  | sub s n ih =>
    intro u h
    cases u with
    | num m => exact (key' s m n 45 (Or.inr rfl) h.symm).elim
    | add u m => exact absurd (key s u n m 45 43 (by simp) (by simp) h).2.2 (by decide)
    | sub u m =>
      obtain ⟨rfl, h1, _⟩ := key s u n m 45 45 (by simp) (by simp) h
      rw [ih u h1]

theorem Sum1.ascii (s : Sum1) : ∀ c ∈ s.text, c.toNat < 128 := by
  induction s with
  | num n => exact Num1.ascii n
  | add s n ih | sub s n ih =>
    intro c hc
    simp only [Sum1.text, List.mem_append, List.mem_cons] at hc
    rcases hc with hc | rfl | hc
    · exact ih c hc
    · decide
    · exact Num1.ascii n c hc

theorem utf8_ascii : ∀ n : Fin 128, String.utf8EncodeChar (Char.ofNat n.val) = [UInt8.ofNat n.val] := by decide

/-- ASCII bytes are UTF-8 text. -/
theorem isText_ascii {l : List UInt8} (h : ∀ c ∈ l, c.toNat < 128) : (⟨l⟩ : Source).IsText := by
  refine ⟨l.map fun c => Char.ofNat c.toNat, ?_⟩
  show l = _
  induction l with
  | nil => rfl
  | cons c l ih =>
    have hc := h c (by simp)
    have ih := ih fun c hc => h c (List.mem_cons_of_mem _ hc)
    have h1 : String.utf8EncodeChar (Char.ofNat c.toNat) = [c] := by
      have := utf8_ascii ⟨c.toNat, hc⟩
      simpa using this
    simp [h1, ← ih]

/-- C64: example 1 is a calculator: on the text of any sum, parsing and evaluating returns the value of that sum in 64-bit arithmetic
from left to right — or panics if that arithmetic does — and reports everything consumed. -/
theorem C64_computes (s : Sum1) (hs : s.text.length < 2 ^ 32) (checked : Bool) :
    ∃ N, ∀ n, N ≤ n → parse ex1Parser ⟨s.text⟩ n = .panic .keyOverflow ∨
      match s.eval checked with
        | some v => calc1 checked ⟨s.text⟩ n = .ok (true, s.text.length, v)
        | none => ∃ p, calc1 checked ⟨s.text⟩ n = .panic p := by
  obtain ⟨N, hN⟩ := C07_plain_parse_terminates Ex1.body .r_grammar ⟨s.text⟩ Ex1.all Ex1.mem_all wf_ex1
  refine ⟨N + s.text.length + 2, fun n hn => ?_⟩
  rcases hN n (by omega) with ⟨b, q, t, h⟩ | h
  · right
    have h : parse ex1Parser ⟨s.text⟩ n = .ok (b, q, t) := h
    obtain ⟨h1, h2⟩ := C64_longest_sum ⟨s.text⟩ hs h
    obtain ⟨h3, _⟩ := C64_evaluates ⟨s.text⟩ (isText_ascii (Sum1.ascii s)) checked h
    cases b with
    | false => exact absurd (List.prefix_refl _) ((h2 rfl).2.1 s)
    | true =>
      obtain ⟨u, g1, g2, g3, _⟩ := h1 rfl
      obtain ⟨u', k1, k2⟩ := h3 rfl
      have hq : q = s.text.length := by
        have := g3 s (List.prefix_refl _)
        have : u.text.length ≤ s.text.length := g1.length_le
        omega
      subst hq
      have hu : u' = s := C64_unique_reading u' s (by rw [k1]; simp)
      subst hu
      have := k2 n (by omega)
      unfold calc1
      rw [h]
      simp only [Out.bind_ok]
      generalize u'.eval checked = o at this ⊢
      cases o with
      | none =>
        obtain ⟨p, hp⟩ := this
        exact ⟨p, by rw [hp]; rfl⟩
      | some v => simp only at this ⊢; rw [this]; rfl
  · exact Or.inl h

/-- C64: as long as the numbers and partial sums fit in 64 bits, that is the exact value. -/
theorem C64_exact (s : Sum1) (checked : Bool) (h : s.AllFit) : s.eval checked = some s.val := by
  induction s with
  | num n => simp [Sum1.eval, Num1.eval, Sum1.val, show Fits n.val from h]
  | add s n ih =>
    obtain ⟨h1, h2, h3⟩ := h
    simp [Sum1.eval, ih h1, Num1.eval, h2, Calc.result, h3, Sum1.val]
  | sub s n ih =>
    obtain ⟨h1, h2, h3⟩ := h
    simp [Sum1.eval, ih h1, Num1.eval, h2, Calc.result, h3, Sum1.val]

/-- C64: a debug build never returns a wrong value: it panics instead. -/
theorem C64_debug_is_exact (s : Sum1) {v : Int} (h : s.eval true = some v) : s.AllFit ∧ v = s.val := by
  have hn : ∀ {n : Num1} {y : Int}, n.eval = some y → Fits n.val ∧ y = n.val := by
    intro n y h
    unfold Num1.eval at h
    split at h
    · next hf => injection h with h; exact ⟨hf, h.symm⟩
    · cases h
  have hr : ∀ {x y : Int}, Calc.result true x = some y → Fits x ∧ y = x := by
    intro x y h
    unfold Calc.result at h
    split at h
    · next hf => injection h with h; exact ⟨hf, h.symm⟩
    · cases h
  induction s generalizing v with
  | num n => exact hn h
  | add s n ih =>
    simp only [Sum1.eval, Option.bind_eq_bind, Option.bind_eq_some_iff] at h
    obtain ⟨a, ha, b, hb, h⟩ := h
    obtain ⟨h1, rfl⟩ := ih ha
    obtain ⟨h2, rfl⟩ := hn hb
    obtain ⟨h3, rfl⟩ := hr h
    exact ⟨⟨h1, h2, h3⟩, rfl⟩
  | sub s n ih =>
    simp only [Sum1.eval, Option.bind_eq_bind, Option.bind_eq_some_iff] at h
    obtain ⟨a, ha, b, hb, h⟩ := h
    obtain ⟨h1, rfl⟩ := ih ha
    obtain ⟨h2, rfl⟩ := hn hb
    obtain ⟨h3, rfl⟩ := hr h
    exact ⟨⟨h1, h2, h3⟩, rfl⟩

/-- A sum: `20+7-1`. -/
def sumEx : Sum1 := .sub (.add (.num ⟨1, [0]⟩) ⟨6, []⟩) ⟨0, []⟩

example : sumEx.text = bytesOf "20+7-1" ∧ sumEx.AllFit ∧ sumEx.val = 26 ∧ sumEx.text.length < 2 ^ 32 := by
  refine ⟨by decide, ⟨⟨show Fits _ by decide +kernel, by decide +kernel, by decide +kernel⟩, by decide +kernel, by decide +kernel⟩,
    by decide +kernel, by decide⟩

example : (match calc1 true ⟨bytesOf "20+7-1"⟩ 200 with | .ok r => some r | _ => none) = some (true, 6, 26) := by decide +kernel

/-- Accepted: a prefix; rejected: no number in front. -/
example : (match calc1 true ⟨bytesOf "20+07"⟩ 200 with | .ok r => some r | _ => none) = some (true, 2, 20) ∧
    (match calc1 true ⟨bytesOf "+1"⟩ 200 with | .ok r => some r | _ => none) = some (false, 0, 0) := by decide +kernel

/-- A sum that overflows panics in a debug build and wraps in a release build. -/
example : (match calc1 true ⟨bytesOf "9223372036854775807+1"⟩ 200 with | .panic _ => true | _ => false) = true ∧
    (match calc1 false ⟨bytesOf "9223372036854775807+1"⟩ 200 with | .ok r => some r | _ => none)
      = some (true, 21, -9223372036854775808) := by decide +kernel

end PP
