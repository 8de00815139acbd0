import Verif.Spec.CacheHist
import Verif.Props.Kernels

/-! # Source and cache: C42, C43, C44 -/
set_option linter.unusedSectionVars false
namespace PP

/-! ## C42 -/

/-- C42: `get_char`. -/
theorem C42_get_char (s : Source) (p : Nat) (h : s.bytes.length < 2 ^ 32) : s.getChar p = s.bytes[p]? := by
  have : s.len = s.bytes.length := Nat.mod_eq_of_lt (by omega)
  unfold Source.getChar
  split
  · rfl
  · rw [List.getElem?_eq_none (by omega)]

/-- C42: `get_string` is `None` exactly if one of the ends is beyond the source. -/
theorem C42_get_string_none (s : Source) (h : s.bytes.length < 2 ^ 32) (a b : Nat) :
    s.getString a b = .ok none ↔ s.bytes.length < a ∨ s.bytes.length < b := by
  have hl : s.len = s.bytes.length := Nat.mod_eq_of_lt (by omega)
  unfold Source.getString
  rw [hl]
  split
  · simp; omega
  · unfold Source.strSlice
    split <;> simp [Out.bind] <;> omega

/-- C42: inside the source, `get_string a b` returns the slice iff `a <= b` and both ends are char boundaries. -/
theorem C42_get_string_some (s : Source) (h : s.bytes.length < 2 ^ 32) (a b : Nat) (l : List UInt8) :
    s.getString a b = .ok (some l) ↔ a ≤ b ∧ b ≤ s.bytes.length ∧ Source.isCharBoundary s.bytes a = true ∧
      Source.isCharBoundary s.bytes b = true ∧ l = s.slice a b := by
  have hl : s.len = s.bytes.length := Nat.mod_eq_of_lt (by omega)
  unfold Source.getString
  rw [hl]
  split
  · simp; omega
  · unfold Source.strSlice Source.slice
    split
    · next h1 => simp [Out.bind, h1]; exact eq_comm
    · next h1 => simp [Out.bind]; grind

/-- C42: otherwise it panics. -/
theorem C42_get_string_panics (s : Source) (h : s.bytes.length < 2 ^ 32) (a b : Nat) :
    (∃ x, s.getString a b = .panic x) ↔ a ≤ s.bytes.length ∧ b ≤ s.bytes.length ∧
      ¬ (a ≤ b ∧ Source.isCharBoundary s.bytes a = true ∧ Source.isCharBoundary s.bytes b = true) := by
  have hl : s.len = s.bytes.length := Nat.mod_eq_of_lt (by omega)
  unfold Source.getString
  rw [hl]
  split
  · simp; omega
  · unfold Source.strSlice
    split
    · next h1 => simp [Out.bind]; grind
    · next h1 => simp [Out.bind]; grind

/-- For ASCII sources every position is a char boundary, so `get_string` only depends on the order of the ends. -/
theorem C42_get_string_ascii (s : Source) (h : s.bytes.length < 2 ^ 32) (hascii : ∀ c ∈ s.bytes, c.toNat < 128) {a b : Nat}
    (hab : a ≤ b) (hb : b ≤ s.bytes.length) : s.getString a b = .ok (some (s.slice a b)) := by
  have key : ∀ p, p ≤ s.bytes.length → Source.isCharBoundary s.bytes p = true := by
    intro p hp
    unfold Source.isCharBoundary
    rcases Nat.lt_or_ge p s.bytes.length with h1 | h1
    · have hx := hascii s.bytes[p] (List.getElem_mem h1)
      rw [List.getElem?_eq_getElem h1]
      have : s.bytes[p].toNat / 64 ≠ 2 := by omega
      simp [this]
    · have : p = s.bytes.length := by omega
      simp [this]
  exact (C42_get_string_some s h a b _).mpr ⟨hab, hb, key a (by omega), key b hb, rfl⟩

/-- C42: `get_multiple_chars` (debug build or not, `position + n` in `u32` range) returns the slice only if it ends strictly
before the last byte of the source is included; a slice touching the last byte is refused. -/
theorem C42_get_multiple_chars (checked : Bool) (s : Source) (h : s.bytes.length < 2 ^ 32) (p n : Nat) (hpn : p + n < 2 ^ 32) :
    s.getMultipleChars checked p n = .ok (if p + n < s.bytes.length then some (s.slice p (p + n)) else none) := by
  have hl : s.len = s.bytes.length := Nat.mod_eq_of_lt (by omega)
  unfold Source.getMultipleChars
  have h1 : ¬ 4294967296 ≤ p + n := by omega
  have h2 : (p + n) % 4294967296 = p + n := Nat.mod_eq_of_lt (by omega)
  simp only [h1, decide_false, Bool.and_false, Bool.false_eq_true, if_false, h2, hl]
  split
  · next h3 =>
    unfold Source.byteSlice
    rw [if_pos (by omega)]
    simp [Out.bind, Source.slice]
  · rfl

/-- C42, consequence: asking for the whole of a non-empty source is refused. -/
theorem C42_get_multiple_chars_never_reaches_the_end (checked : Bool) (s : Source) (h : s.bytes.length < 2 ^ 32) (p n : Nat)
    (hpn : p + n = s.bytes.length) : s.getMultipleChars checked p n = .ok none := by
  rw [C42_get_multiple_chars checked s h p n (by omega), if_neg (by omega)]

/-! ## C43 -/

/-- The source cut at its length modulo 2^32. -/
def Source.truncated (s : Source) : Source := ⟨s.bytes.take (s.bytes.length % 2 ^ 32)⟩

theorem Source.truncated_len (s : Source) : s.truncated.len = s.len := by
  have h1 : s.bytes.length % 4294967296 ≤ s.bytes.length := Nat.mod_le _ _
  have h2 : s.bytes.length % 4294967296 < 4294967296 := Nat.mod_lt _ (by decide)
  simp only [Source.truncated, Source.len, List.length_take, Nat.reducePow]
  rw [Nat.min_eq_left h1, Nat.mod_eq_of_lt h2]

theorem C43_get_char_truncated (s : Source) (p : Nat) : s.getChar p = s.truncated.getChar p := by
  unfold Source.getChar
  rw [s.truncated_len]
  split
  · next h =>
    simp only [Source.truncated, List.getElem?_take]
    have : p < s.bytes.length % 2 ^ 32 := by simpa [Source.len] using h
    rw [if_pos this]
  · rfl

variable {R : Type} [DecidableEq R]

theorem stringTerminalLoop_getChar {s s' : Source} (h : ∀ p, s.getChar p = s'.getChar p) (pos : Nat) :
    ∀ (d : List UInt8) (p : Nat), stringTerminalLoop s pos p d = stringTerminalLoop s' pos p d := by
  intro d
  induction d with
  | nil => intro p; rfl
  | cons c cs ih => intro p; simp only [stringTerminalLoop, h, ih]

/-- A hook-free parser sees the source only through `get_char`. -/
theorem eval_getChar {body : R → Expr R} {g : R} {s s' : Source} (h : ∀ p, s.getChar p = s'.getChar p) :
    ∀ n e, eval (.plain body g) s n e = eval (.plain body g) s' n e := by
  intro n
  induction n with
  | zero => intro e; rfl
  | succ n ih =>
    intro e
    cases e with
    | terminal c => simp [eval, terminalKernel, h]
    | stringTerminal d => simp [eval, stringTerminalKernel, stringTerminalLoop_getChar h]
    | matchRange lo hi => simp [eval, matchRangeKernel, h]
    | hooked name e => rfl
    | _ => simp only [eval, ih]

/-- C43: a hook-free parser run on a source of any size gives exactly the result and tree it gives on the source cut to its
length modulo 2^32.  (For sources below 4 GiB the cut is the identity; a source of exactly 4 GiB is read as empty.) -/
theorem C43_parse_truncates (body : R → Expr R) (g : R) (s : Source) (n : Nat) :
    parse (.plain body g) s n = parse (.plain body g) s.truncated n := by
  unfold parse
  rw [eval_getChar (C43_get_char_truncated s)]

/-- C43: the bytes beyond the cut are invisible: two sources with the same cut parse alike. -/
theorem C43_tail_is_ignored (body : R → Expr R) (g : R) (s s' : Source) (h : s.truncated = s'.truncated) (n : Nat) :
    parse (.plain body g) s n = parse (.plain body g) s' n := by
  rw [C43_parse_truncates, C43_parse_truncates body g s', h]

/-- C43, instance: any source of exactly 2^32 bytes parses like the empty source. -/
theorem C43_four_gib_is_empty (body : R → Expr R) (g : R) (s : Source) (hs : s.bytes.length = 2 ^ 32) (n : Nat) :
    parse (.plain body g) s n = parse (.plain body g) ⟨[]⟩ n :=
  C43_tail_is_ignored body g s ⟨[]⟩ (by simp [Source.truncated, hs]) n

/-! ## C44 -/

theorem after_spec : ∀ (ops : List (CacheOp R)) (c : Cache R), Cache.after ops = .ok c →
    (∀ r p, c.memo r p = lastInserted r p ops) ∧ c.active = lastActive ops ∧
    ∀ r p, match c.heads r p with
      | none => lastInvolved r p ops = none
      | some h => lastInvolved r p ops = some h.involved ∧
          ∀ x, x ∈ h.evalSet ↔ x ∈ h.involved ∧ removedSince r p x ops = false := by
  intro ops
  induction ops with
  | nil =>
    intro c h
    cases h
    exact ⟨fun _ _ => rfl, rfl, fun _ _ => rfl⟩
  | cons op ops ih =>
    intro c h
    simp only [Cache.after, Out.bind_eq_ok] at h
    obtain ⟨c0, h0, h1⟩ := h
    obtain ⟨i1, i2, i3⟩ := ih c0 h0
    cases op with
    | insert r b p q k =>
      cases h1
      refine ⟨fun r' p' => ?_, i2, i3⟩
      simp only [Cache.insert, lastInserted, i1]
      congr 1
      grind
    | setActive a => cases h1; exact ⟨i1, rfl, i3⟩
    | setHead p r inv =>
      cases h1
      refine ⟨i1, i2, fun r' p' => ?_⟩
      simp only [Cache.setHead, Cache.putHead, lastInvolved, removedSince]
      by_cases hrp : r' = r ∧ p' = p
      · rw [if_pos hrp]
        obtain ⟨rfl, rfl⟩ := hrp
        simp
      · rw [if_neg hrp]
        have : ¬ (r = r' ∧ p = p') := fun hh => hrp ⟨hh.1.symm, hh.2.symm⟩
        simp only [this, if_false]
        exact i3 r' p'
    | reinitialize r p =>
      simp only [CacheOp.run, Cache.reinitializeEvalSet] at h1
      split at h1
      · cases h1
      · next hd hhd =>
        cases h1
        refine ⟨i1, i2, fun r' p' => ?_⟩
        simp only [Cache.putHead, lastInvolved, removedSince]
        by_cases hrp : r' = r ∧ p' = p
        · rw [if_pos hrp]
          obtain ⟨rfl, rfl⟩ := hrp
          have := i3 r' p'
          rw [hhd] at this
          simp [this.1]
        · rw [if_neg hrp]
          have : ¬ (r = r' ∧ p = p') := fun hh => hrp ⟨hh.1.symm, hh.2.symm⟩
          simp only [this, if_false]
          exact i3 r' p'
    | remove hd y =>
      simp only [CacheOp.run, Cache.removeFromEvalSet] at h1
      split at h1
      · cases h1
      · next hh hhd =>
        cases h1
        refine ⟨i1, i2, fun r' p' => ?_⟩
        simp only [Cache.putHead, lastInvolved, removedSince]
        by_cases hrp : r' = hd.1 ∧ p' = hd.2
        · rw [if_pos hrp]
          obtain ⟨rfl, rfl⟩ := hrp
          have := i3 hd.1 hd.2
          rw [hhd] at this
          refine ⟨this.1, fun x => ?_⟩
          simp only [List.mem_filter, this.2, true_and, decide_eq_true_eq]
          by_cases hxy : y = x
          · simp [hxy]
          · simp [hxy, Ne.symm hxy]
        · rw [if_neg hrp]
          have hne : ∀ x, ¬ (hd.1 = r' ∧ hd.2 = p' ∧ y = x) := fun x h => hrp ⟨h.1.symm, h.2.1.symm⟩
          simp only [hne, if_false]
          exact i3 r' p'

/-- C44: `check` returns the last value inserted for that rule and position, `None` if there was none. -/
theorem C44_memo_last_write_wins (ops : List (CacheOp R)) (c : Cache R) (h : Cache.after ops = .ok c) (r : R) (p : Nat) :
    c.check r p = lastInserted r p ops := (after_spec ops c h).1 r p

/-- C44: a head exists iff one was set; it has the involved set given last, and its eval set is the involved set minus the
rules removed since it was last set or reinitialised.  The active position is the one set last. -/
theorem C44_heads (ops : List (CacheOp R)) (c : Cache R) (h : Cache.after ops = .ok c) :
    c.active = lastActive ops ∧
    (∀ r p, c.checkHead r p = none ↔ lastInvolved r p ops = none) ∧
    (∀ r p hd, c.checkHead r p = some hd → lastInvolved r p ops = some hd.involved) ∧
    (∀ (hd : R × Nat) x b, c.ruleInInvolvedSet hd x = .ok b → ∃ inv, lastInvolved hd.1 hd.2 ops = some inv ∧
      (b = true ↔ x ∈ inv)) ∧
    (∀ (hd : R × Nat) x b, c.ruleInEvalSet hd x = .ok b → ∃ inv, lastInvolved hd.1 hd.2 ops = some inv ∧
      (b = true ↔ x ∈ inv ∧ removedSince hd.1 hd.2 x ops = false)) := by
  obtain ⟨_, h2, h3⟩ := after_spec ops c h
  refine ⟨h2, ?_, ?_, ?_, ?_⟩
  · intro r p
    have := h3 r p
    simp only [Cache.checkHead]
    cases hh : c.heads r p with
    | none => rw [hh] at this; simpa using this
    | some hd => rw [hh] at this; simp [this.1]
  · intro r p hd hh
    have := h3 r p
    simp only [Cache.checkHead] at hh
    rw [hh] at this
    exact this.1
  · intro hd x b hb
    have := h3 hd.1 hd.2
    unfold Cache.ruleInInvolvedSet at hb
    split at hb
    · cases hb
    · next hh e =>
      rw [e] at this
      cases hb
      exact ⟨_, this.1, by simp⟩
  · intro hd x b hb
    have := h3 hd.1 hd.2
    unfold Cache.ruleInEvalSet at hb
    split at hb
    · cases hb
    · next hh e =>
      rw [e] at this
      cases hb
      refine ⟨_, this.1, ?_⟩
      rw [List.contains_iff_mem]
      exact this.2 x

/-- C44: the operations on a head panic exactly if it was never set. -/
theorem C44_head_operations_need_a_head (ops : List (CacheOp R)) (c : Cache R) (h : Cache.after ops = .ok c) (hd : R × Nat)
    (x : R) : (lastInvolved hd.1 hd.2 ops = none ↔ c.reinitializeEvalSet hd.1 hd.2 = .panic .expectFailed) ∧
      (lastInvolved hd.1 hd.2 ops = none ↔ c.removeFromEvalSet hd x = .panic .expectFailed) ∧
      (lastInvolved hd.1 hd.2 ops = none ↔ c.ruleInEvalSet hd x = .panic .expectFailed) ∧
      (lastInvolved hd.1 hd.2 ops = none ↔ c.ruleInInvolvedSet hd x = .panic .expectFailed) := by
  have := (after_spec ops c h).2.2 hd.1 hd.2
  unfold Cache.reinitializeEvalSet Cache.removeFromEvalSet Cache.ruleInEvalSet Cache.ruleInInvolvedSet
  cases hh : c.heads hd.1 hd.2 with
  | none => rw [hh] at this; simp [this]
  | some v => rw [hh] at this; simp [this.1]

/-! ## The hypotheses are met -/

example : ∃ c : Cache Nat, Cache.after [.remove (7, 0) 8, .reinitialize 7 0, .insert 7 true 0 5 3, .insert 7 false 0 0 2,
    .setHead 0 7 [7, 8]] = .ok c ∧ c.check 7 0 = some (true, 5, 3) ∧ c.ruleInEvalSet (7, 0) 8 = .ok false ∧
    c.ruleInEvalSet (7, 0) 7 = .ok true := ⟨_, rfl, rfl, rfl, rfl⟩
example : (⟨[104, 195, 164]⟩ : Source).getString 0 1 = .ok (some [104]) ∧
    (⟨[104, 195, 164]⟩ : Source).getString 0 2 = .panic .slice ∧ (⟨[104, 195, 164]⟩ : Source).getString 0 4 = .ok none :=
  ⟨rfl, rfl, rfl⟩
example : ∃ s : Source, s.bytes.length = 2 ^ 32 := ⟨⟨List.replicate (2 ^ 32) 97⟩, List.length_replicate⟩

end PP
