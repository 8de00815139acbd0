import Verif.Props.GroupTrees

/-! # C63: what the parsers of examples 7, 8 and 9 accept, and the trees they return

All three parse digit, minus, digit, …; the left recursion goes through one, two and four members. -/
namespace PP

theorem string_nil {R : Type} {body : R → Expr R} {src : Source} {p b q} (h : Peg body src (.stringTerminal []) p b q) :
    b = true ∧ q = p := by
  cases h with
  | string_ok h => exact ⟨rfl, by simp⟩
  | string_fail h => exact absurd ⟨Or.inl rfl, by simp [Source.slice]⟩ h

theorem pruneL_failed {R : Type} : ∀ {fs : List (Tree R)}, (∀ f ∈ fs, Tree.Failed f) → Tree.prune.pruneL fs = []
  | [], _ => rfl
  | .node r s ks :: fs, h => by
    have h1 : s = none := h (.node r s ks) (by simp)
    subst h1
    have h2 : Tree.prune.pruneL fs = [] := pruneL_failed fun f hf => h f (List.mem_cons_of_mem _ hf)
    simp [Tree.prune.pruneL, Tree.prune, h2]

section
variable {R : Type} {body : R → Expr R} {src : Source} {D : R}

/-- The rule `D` matches one digit. -/
def IsDigitRule (body : R → Expr R) (src : Source) (D : R) : Prop :=
  ∀ p b q, Peg body src (.varName D) p b q → (b = true ∧ q = p + 1 ∧ DigitAt src p) ∨ (b = false ∧ ¬ DigitAt src p)

theorem minus_tail (hD : IsDigitRule body src D) {p b q}
    (h : Peg body src (.sequence (.sequence (.stringTerminal []) (.terminal 45)) (.varName D)) p b q) :
    (b = true ∧ q = p + 2 ∧ MinusDigitAt src p) ∨ (b = false ∧ ¬ MinusDigitAt src p) := by
  cases h with
  | seq_ok h1 h2 =>
    cases h1 with
    | seq_ok h0 h1 =>
      obtain ⟨_, rfl⟩ := string_nil h0
      cases h1 with
      | terminal_ok g1 g2 =>
        rcases hD _ _ _ h2 with ⟨_, h, h'⟩ | ⟨h, _⟩
        · exact Or.inl ⟨rfl, by omega, ⟨g1, g2⟩, h'⟩
        · cases h
  | seq_fail1 h1 =>
    cases h1 with
    | seq_fail1 h0 => obtain ⟨h, _⟩ := string_nil h0; cases h
    | seq_fail2 h0 h1 =>
      obtain ⟨_, rfl⟩ := string_nil h0
      cases h1 with
      | terminal_fail g => exact Or.inr ⟨rfl, fun h => g h.1⟩
  | seq_fail2 h1 h2 =>
    cases h1 with
    | seq_ok h0 h1 =>
      obtain ⟨_, rfl⟩ := string_nil h0
      cases h1 with
      | terminal_ok g1 g2 =>
        rcases hD _ _ _ h2 with ⟨h, _⟩ | ⟨_, h'⟩
        · cases h
        · exact Or.inr ⟨rfl, fun h => h' h.2⟩

theorem minus_star (hD : IsDigitRule body src D) {p b q}
    (h : Peg body src (.zeroOrMore (.sequence (.sequence (.stringTerminal []) (.terminal 45)) (.varName D))) p b q) :
    b = true ∧ ∃ k, q = p + 2 * k ∧ (∀ i, i < k → MinusDigitAt src (p + 2 * i)) ∧ ¬ MinusDigitAt src (p + 2 * k) := by
  generalize he : Expr.zeroOrMore (.sequence (.sequence (.stringTerminal []) (.terminal 45)) (.varName D)) = e at h
  induction h with
  | star_stop h1 =>
    cases he
    rcases minus_tail hD h1 with ⟨h, _⟩ | ⟨_, h⟩
    · cases h
    · exact ⟨rfl, 0, by omega, by omega, h⟩
  | @star_step e p q r h1 _ _ ih =>
    cases he
    rcases minus_tail hD h1 with ⟨_, rfl, h⟩ | ⟨h, _⟩
    · obtain ⟨_, k, h3, h4, h5⟩ := ih rfl
      refine ⟨rfl, k + 1, by omega, fun i hi => ?_, by rw [show p + 2 * (k + 1) = p + 2 + 2 * k by omega]; exact h5⟩
      cases i with
      | zero => exact h
      | succ i => have := h4 i (by omega); rw [show p + 2 * (i + 1) = p + 2 + 2 * i by omega]; exact this
    · cases h
  | _ => cases he

theorem minus_run (hD : IsDigitRule body src D) {b q}
    (h : Peg body src (.sequence (.varName D)
      (.zeroOrMore (.sequence (.sequence (.stringTerminal []) (.terminal 45)) (.varName D)))) 0 b q) :
    (b = true ↔ DigitAt src 0) ∧ (b = false → q = 0) ∧
    (b = true → ∃ k, q = 1 + 2 * k ∧ (∀ i, i < k → MinusDigitAt src (1 + 2 * i)) ∧ ¬ MinusDigitAt src (1 + 2 * k)) := by
  cases h with
  | seq_ok h1 h2 =>
    rcases hD _ _ _ h1 with ⟨_, rfl, h⟩ | ⟨h, _⟩
    · exact ⟨by simpa using h, by simp, fun _ => (minus_star hD h2).2⟩
    · cases h
  | seq_fail1 h1 =>
    rcases hD _ _ _ h1 with ⟨h, _⟩ | ⟨_, h⟩
    · cases h
    · exact ⟨by simpa using h, fun _ => rfl, by simp⟩
  | seq_fail2 h1 h2 => have := (minus_star hD h2).1; cases this

end

theorem digit_range {R : Type} {body : R → Expr R} {src : Source} {p b q} (h : Peg body src (.matchRange 48 57) p b q) :
    (b = true ∧ q = p + 1 ∧ DigitAt src p) ∨ (b = false ∧ ¬ DigitAt src p) := by
  cases h with
  | range_ok h1 h2 h3 h4 => exact Or.inl ⟨rfl, rfl, _, h1, h2, h3, h4⟩
  | range_fail hf => exact Or.inr ⟨rfl, hf⟩

/-! ## Example 7 -/

/-- The node of the digit at `p`. -/
def ex7Num (p : Nat) : Tree Ex7 := .node .r_num (some (p, p + 1)) []

/-- The tree of digit, minus, digit, … with `k` minus signs, starting at 0: nested to the left, every level through the members. -/
def ex7Left : Nat → Tree Ex7
  | 0 => .node .r_expr (some (0, 1)) [ex7Num 0]
  | k + 1 => .node .r_expr (some (0, 1 + 2 * (k + 1)))
      [.node .r_intermediate (some (0, 1 + 2 * k)) [ex7Left k], ex7Num (2 * k + 2)]

theorem ex7_digit (src : Source) : IsDigitRule (groupBody Ex7.body ex7Role) src .r_num := by
  intro p b q h
  cases h with
  | ref h => exact digit_range h

theorem ex7_num {src : Source} {pre p q ts} (h : GT Ex7.body ex7Role src pre (.varName .r_num) p true q ts) :
    ts = [ex7Num p] ∧ q = p + 1 := by
  cases h with
  | ref h =>
    have h : GT Ex7.body ex7Role src [] (.matchRange 48 57) p true q _ := h
    cases h with
    | range h =>
      next h' => cases h' with | range_ok => exact ⟨rfl, rfl⟩

theorem ex7_chain {src : Source} {p s t pre inv b q us}
    (h : HV Ex7.body ex7Role src .r_expr p s t pre (.varNameLR inv .r_intermediate) b q us) (hpre : pre = []) :
    b = true ∧ q = s ∧ us = [.node .r_intermediate (some (p, s)) [t]] := by
  subst hpre
  cases h with
  | member_dup _ _ hm => cases hm
  | member _ h =>
    generalize hb : Ex7.body .r_intermediate = e at h
    simp only [Ex7.body] at hb
    subst hb
    cases h with
    | head => exact ⟨rfl, rfl, rfl⟩
    | head_dup hm => cases hm
    | member hr _ => cases hr
    | member_dup hr _ _ => cases hr

theorem ex7Num_prune (p : Nat) : (ex7Num p).prune = [ex7Num p] := by simp [ex7Num, Tree.prune, Tree.prune.pruneL]

theorem ex7_grown {src : Source} : ∀ {A d p q t}, GGrown Ex7.body ex7Role src A d p q t → p = 0 → A = .r_expr → ex7Role A = .head d →
    ∃ k, q = 1 + 2 * k ∧ t.prune = [ex7Left k]
  | A, d, p, q, _, .seed hf h, hp, hA, hd => by
    subst hA hp
    simp only [ex7Role, Role.head.injEq] at hd
    subst hd
    obtain ⟨rfl, rfl⟩ := ex7_num h
    refine ⟨0, rfl, ?_⟩
    simp [Tree.prune, pruneL_append, pruneL_failed hf, Tree.prune.pruneL, ex7Num_prune, ex7Left]
  | A, d, p, _, _, .grow (q := q) (us := us) hg hb h, hp, hA, hd => by
    obtain ⟨k, rfl, ht⟩ := ex7_grown hg hp hA hd
    subst hA hp
    simp only [Ex7.body, Expr.orderedChoice.injEq] at hb
    obtain ⟨rfl, _⟩ := hb
    cases h with
    | sub_ok h =>
      cases h with
      | seq_ok h1 h2 =>
        cases h1 with
        | seq_ok h0 h1 =>
          obtain ⟨_, rfl, rfl⟩ := ex7_chain h0 rfl
          cases h1 with
          | terminal h1 =>
            generalize hc : (1 + 2 * k) = p1 at h1
            cases h1
            obtain ⟨rfl, rfl⟩ := ex7_num h2
            subst hc
            refine ⟨k + 1, by omega, ?_⟩
            have e1 : 0 ≠ 1 + 2 * k := by omega
            have e4 : 1 + 2 * k + 1 = 2 * k + 2 := by omega
            simp [Tree.prune, Tree.prune.pruneL, ex7Num_prune, ht, ex7Left, e1]
            simp [e4]
            omega

/-- C63: example 7's parser, on every source, succeeds exactly if the source starts with a digit, and then consumes the digit and
the longest run of minus-digit pairs following it. -/
theorem C63_example7_consumes (src : Source) {n : Nat} {b : Bool} {q : Nat} {t : Publisher Ex7}
    (h : parse ex7Parser src n = .ok (b, q, t)) :
    (b = true ↔ DigitAt src 0) ∧ (b = false → q = 0) ∧
    (b = true → ∃ k, q = 1 + 2 * k ∧ (∀ i, i < k → MinusDigitAt src (1 + 2 * i)) ∧ ¬ MinusDigitAt src (1 + 2 * k)) := by
  obtain ⟨h1, _⟩ := C62_example7 src h
  cases h1 with
  | ref h1 =>
    have h1 : Peg (groupBody Ex7.body ex7Role) src (.varName .r_expr) 0 b q := h1
    cases h1 with
    | ref h1 => exact minus_run (ex7_digit src) h1

/-- C63: the tree example 7's parser returns, on every source. -/
theorem C63_example7_tree (src : Source) {n : Nat} {b : Bool} {q : Nat} {t : Publisher Ex7}
    (h : parse ex7Parser src n = .ok (b, q, t)) :
    (b = true → ∃ k, q = 1 + 2 * k ∧
      t.Unfolds 0 (.node .r_grammar (some (0, 0)) [.node .r_grammar (some (0, q)) [ex7Left k]])) ∧
    (b = false → t.Unfolds 0 (.node .r_grammar (some (0, 0)) [])) := by
  obtain ⟨_, ts, h1, h2⟩ := C62_example7 src h
  cases h1 with
  | @ref _ _ _ _ _ ts h1 =>
    refine ⟨fun hb => ?_, fun hb => ?_⟩
    · subst hb
      generalize hi : Ex7.body .r_grammar = e at h1
      simp only [Ex7.body] at hi
      subst hi
      generalize List.cons _ _ = inv at h1
      cases h1 with
      | lr_ok hd hg _ =>
        obtain ⟨k, rfl, ht⟩ := ex7_grown hg rfl rfl hd
        refine ⟨k, rfl, ?_⟩
        have h0 : 0 ≠ 1 + 2 * k := by omega
        simpa [Tree.mk, Tree.prune, Tree.prune.pruneL, ht, h0] using h2
      | lr_dup _ hm _ => cases hm
    · subst hb
      simpa [Tree.mk, Tree.prune, Tree.prune.pruneL] using h2

/-- C63: and it always terminates, with that answer unless the node keys run out. -/
theorem C63_example7_terminates (src : Source) : ∃ N, ∀ n, N ≤ n →
    (∃ b q t, parse ex7Parser src n = .ok (b, q, t)) ∨ parse ex7Parser src n = .panic .keyOverflow :=
  C07_plain_parse_terminates Ex7.body .r_grammar src Ex7.all Ex7.mem_all wf_ex7

/-- A run that meets the hypotheses. -/
example : (match parse ex7Parser ⟨bytesOf "7-1-2x"⟩ 100 with | .ok (b, q, _) => some (b, q) | _ => none)
    = some (true, 5) := by decide +kernel

/-! ## Example 8 -/

/-- The nodes of the digit at `p`. -/
def ex8Num (p : Nat) : Tree Ex8 := .node .r_test_lr_num (some (p, p + 1)) [.node .r_num (some (p, p + 1)) []]

/-- The tree of digit, minus, digit, … with `k` minus signs, starting at 0: nested to the left, every level through the members. -/
def ex8Left : Nat → Tree Ex8
  | 0 => .node .r_test_indirect_three_level_a (some (0, 1)) [ex8Num 0]
  | k + 1 => .node .r_test_indirect_three_level_a (some (0, 1 + 2 * (k + 1)))
      [.node .r_test_indirect_three_level_b (some (0, 1 + 2 * k)) [.node .r_test_indirect_three_level_c (some (0, 1 + 2 * k)) [ex8Left k]], ex8Num (2 * k + 2)]

theorem ex8_digit (src : Source) : IsDigitRule (groupBody Ex8.body ex8Role) src .r_test_lr_num := by
  intro p b q h
  cases h with
  | ref h =>
    have h : Peg (groupBody Ex8.body ex8Role) src (.varName .r_num) p b q := h
    cases h with
    | ref h => exact digit_range h

theorem ex8_num {src : Source} {pre p q ts} (h : GT Ex8.body ex8Role src pre (.varName .r_test_lr_num) p true q ts) :
    ts = [ex8Num p] ∧ q = p + 1 := by
  cases h with
  | ref h =>
    have h : GT Ex8.body ex8Role src [] (.varName .r_num) p true q _ := h
    cases h with
    | ref h =>
      next h3 =>
        have h3 : GT Ex8.body ex8Role src [] (.matchRange 48 57) p true q _ := h3
        cases h3 with
        | range h =>
          next h' => cases h' with | range_ok => exact ⟨rfl, rfl⟩

theorem ex8_chain {src : Source} {p s t pre inv b q us}
    (h : HV Ex8.body ex8Role src .r_test_indirect_three_level_a p s t pre (.varNameLR inv .r_test_indirect_three_level_b) b q us) (hpre : pre = []) :
    b = true ∧ q = s ∧ us = [.node .r_test_indirect_three_level_b (some (p, s)) [.node .r_test_indirect_three_level_c (some (p, s)) [t]]] := by
  subst hpre
  cases h with
  | member_dup _ _ hm => cases hm
  | member _ h =>
    generalize hb : Ex8.body .r_test_indirect_three_level_b = e at h
    simp only [Ex8.body] at hb
    subst hb
    cases h with
    | member_dup _ _ hm => cases hm
    | member _ h =>
      generalize hb : Ex8.body .r_test_indirect_three_level_c = e at h
      simp only [Ex8.body] at hb
      subst hb
      cases h with
      | head => exact ⟨rfl, rfl, rfl⟩
      | head_dup hm => cases hm
      | member hr _ => cases hr
      | member_dup hr _ _ => cases hr

theorem ex8Num_prune (p : Nat) : (ex8Num p).prune = [ex8Num p] := by simp [ex8Num, Tree.prune, Tree.prune.pruneL]

theorem ex8_grown {src : Source} : ∀ {A d p q t}, GGrown Ex8.body ex8Role src A d p q t → p = 0 → A = .r_test_indirect_three_level_a → ex8Role A = .head d →
    ∃ k, q = 1 + 2 * k ∧ t.prune = [ex8Left k]
  | A, d, p, q, _, .seed hf h, hp, hA, hd => by
    subst hA hp
    simp only [ex8Role, Role.head.injEq] at hd
    subst hd
    obtain ⟨rfl, rfl⟩ := ex8_num h
    refine ⟨0, rfl, ?_⟩
    simp [Tree.prune, pruneL_append, pruneL_failed hf, Tree.prune.pruneL, ex8Num_prune, ex8Left]
  | A, d, p, _, _, .grow (q := q) (us := us) hg hb h, hp, hA, hd => by
    obtain ⟨k, rfl, ht⟩ := ex8_grown hg hp hA hd
    subst hA hp
    simp only [Ex8.body, Expr.orderedChoice.injEq] at hb
    obtain ⟨rfl, _⟩ := hb
    cases h with
    | sub_ok h =>
      cases h with
      | seq_ok h1 h2 =>
        cases h1 with
        | seq_ok h0 h1 =>
          obtain ⟨_, rfl, rfl⟩ := ex8_chain h0 rfl
          cases h1 with
          | terminal h1 =>
            generalize hc : (1 + 2 * k) = p1 at h1
            cases h1
            obtain ⟨rfl, rfl⟩ := ex8_num h2
            subst hc
            refine ⟨k + 1, by omega, ?_⟩
            have e1 : 0 ≠ 1 + 2 * k := by omega
            have e4 : 1 + 2 * k + 1 = 2 * k + 2 := by omega
            simp [Tree.prune, Tree.prune.pruneL, ex8Num_prune, ht, ex8Left, e1]
            simp [e4]
            omega

/-- C63: example 8's parser, on every source, succeeds exactly if the source starts with a digit, and then consumes the digit and
the longest run of minus-digit pairs following it. -/
theorem C63_example8_consumes (src : Source) {n : Nat} {b : Bool} {q : Nat} {t : Publisher Ex8}
    (h : parse ex8Parser src n = .ok (b, q, t)) :
    (b = true ↔ DigitAt src 0) ∧ (b = false → q = 0) ∧
    (b = true → ∃ k, q = 1 + 2 * k ∧ (∀ i, i < k → MinusDigitAt src (1 + 2 * i)) ∧ ¬ MinusDigitAt src (1 + 2 * k)) := by
  obtain ⟨h1, _⟩ := C62_example8 src h
  cases h1 with
  | ref h1 =>
    have h1 : Peg (groupBody Ex8.body ex8Role) src (.varName .r_test_indirect_three_level_a) 0 b q := h1
    cases h1 with
    | ref h1 => exact minus_run (ex8_digit src) h1

/-- C63: the tree example 8's parser returns, on every source. -/
theorem C63_example8_tree (src : Source) {n : Nat} {b : Bool} {q : Nat} {t : Publisher Ex8}
    (h : parse ex8Parser src n = .ok (b, q, t)) :
    (b = true → ∃ k, q = 1 + 2 * k ∧
      t.Unfolds 0 (.node .r_grammar (some (0, 0)) [.node .r_grammar (some (0, q)) [ex8Left k]])) ∧
    (b = false → t.Unfolds 0 (.node .r_grammar (some (0, 0)) [])) := by
  obtain ⟨_, ts, h1, h2⟩ := C62_example8 src h
  cases h1 with
  | @ref _ _ _ _ _ ts h1 =>
    refine ⟨fun hb => ?_, fun hb => ?_⟩
    · subst hb
      generalize hi : Ex8.body .r_grammar = e at h1
      simp only [Ex8.body] at hi
      subst hi
      generalize List.cons _ _ = inv at h1
      cases h1 with
      | lr_ok hd hg _ =>
        obtain ⟨k, rfl, ht⟩ := ex8_grown hg rfl rfl hd
        refine ⟨k, rfl, ?_⟩
        have h0 : 0 ≠ 1 + 2 * k := by omega
        simpa [Tree.mk, Tree.prune, Tree.prune.pruneL, ht, h0] using h2
      | lr_dup _ hm _ => cases hm
    · subst hb
      simpa [Tree.mk, Tree.prune, Tree.prune.pruneL] using h2

/-- C63: and it always terminates, with that answer unless the node keys run out. -/
theorem C63_example8_terminates (src : Source) : ∃ N, ∀ n, N ≤ n →
    (∃ b q t, parse ex8Parser src n = .ok (b, q, t)) ∨ parse ex8Parser src n = .panic .keyOverflow :=
  C07_plain_parse_terminates Ex8.body .r_grammar src Ex8.all Ex8.mem_all wf_ex8

/-- A run that meets the hypotheses. -/
example : (match parse ex8Parser ⟨bytesOf "7-1-2x"⟩ 100 with | .ok (b, q, _) => some (b, q) | _ => none)
    = some (true, 5) := by decide +kernel

/-! ## Example 9 -/

/-- The nodes of the digit at `p`. -/
def ex9Num (p : Nat) : Tree Ex9 := .node .r_test_lr_num (some (p, p + 1)) [.node .r_num (some (p, p + 1)) []]

/-- The tree of digit, minus, digit, … with `k` minus signs, starting at 0: nested to the left, every level through the members. -/
def ex9Left : Nat → Tree Ex9
  | 0 => .node .r_test_indirect_three_level_a (some (0, 1)) [ex9Num 0]
  | k + 1 => .node .r_test_indirect_three_level_a (some (0, 1 + 2 * (k + 1)))
      [.node .r_test_indirect_three_level_b (some (0, 1 + 2 * k)) [.node .r_test_indirect_three_level_c (some (0, 1 + 2 * k)) [.node .r_test_indirect_three_level_d (some (0, 1 + 2 * k)) [.node .r_test_indirect_three_level_e (some (0, 1 + 2 * k)) [ex9Left k]]]], ex9Num (2 * k + 2)]

theorem ex9_digit (src : Source) : IsDigitRule (groupBody Ex9.body ex9Role) src .r_test_lr_num := by
  intro p b q h
  cases h with
  | ref h =>
    have h : Peg (groupBody Ex9.body ex9Role) src (.varName .r_num) p b q := h
    cases h with
    | ref h => exact digit_range h

theorem ex9_num {src : Source} {pre p q ts} (h : GT Ex9.body ex9Role src pre (.varName .r_test_lr_num) p true q ts) :
    ts = [ex9Num p] ∧ q = p + 1 := by
  cases h with
  | ref h =>
    have h : GT Ex9.body ex9Role src [] (.varName .r_num) p true q _ := h
    cases h with
    | ref h =>
      next h3 =>
        have h3 : GT Ex9.body ex9Role src [] (.matchRange 48 57) p true q _ := h3
        cases h3 with
        | range h =>
          next h' => cases h' with | range_ok => exact ⟨rfl, rfl⟩

theorem ex9_chain {src : Source} {p s t pre inv b q us}
    (h : HV Ex9.body ex9Role src .r_test_indirect_three_level_a p s t pre (.varNameLR inv .r_test_indirect_three_level_b) b q us) (hpre : pre = []) :
    b = true ∧ q = s ∧ us = [.node .r_test_indirect_three_level_b (some (p, s)) [.node .r_test_indirect_three_level_c (some (p, s)) [.node .r_test_indirect_three_level_d (some (p, s)) [.node .r_test_indirect_three_level_e (some (p, s)) [t]]]]] := by
  subst hpre
  cases h with
  | member_dup _ _ hm => cases hm
  | member _ h =>
    generalize hb : Ex9.body .r_test_indirect_three_level_b = e at h
    simp only [Ex9.body] at hb
    subst hb
    cases h with
    | member_dup _ _ hm => cases hm
    | member _ h =>
      generalize hb : Ex9.body .r_test_indirect_three_level_c = e at h
      simp only [Ex9.body] at hb
      subst hb
      cases h with
      | member_dup _ _ hm => cases hm
      | member _ h =>
        generalize hb : Ex9.body .r_test_indirect_three_level_d = e at h
        simp only [Ex9.body] at hb
        subst hb
        cases h with
        | member_dup _ _ hm => cases hm
        | member _ h =>
          generalize hb : Ex9.body .r_test_indirect_three_level_e = e at h
          simp only [Ex9.body] at hb
          subst hb
          cases h with
          | head => exact ⟨rfl, rfl, rfl⟩
          | head_dup hm => cases hm
          | member hr _ => cases hr
          | member_dup hr _ _ => cases hr

theorem ex9Num_prune (p : Nat) : (ex9Num p).prune = [ex9Num p] := by simp [ex9Num, Tree.prune, Tree.prune.pruneL]

theorem ex9_grown {src : Source} : ∀ {A d p q t}, GGrown Ex9.body ex9Role src A d p q t → p = 0 → A = .r_test_indirect_three_level_a → ex9Role A = .head d →
    ∃ k, q = 1 + 2 * k ∧ t.prune = [ex9Left k]
  | A, d, p, q, _, .seed hf h, hp, hA, hd => by
    subst hA hp
    simp only [ex9Role, Role.head.injEq] at hd
    subst hd
    obtain ⟨rfl, rfl⟩ := ex9_num h
    refine ⟨0, rfl, ?_⟩
    simp [Tree.prune, pruneL_append, pruneL_failed hf, Tree.prune.pruneL, ex9Num_prune, ex9Left]
  | A, d, p, _, _, .grow (q := q) (us := us) hg hb h, hp, hA, hd => by
    obtain ⟨k, rfl, ht⟩ := ex9_grown hg hp hA hd
    subst hA hp
    simp only [Ex9.body, Expr.orderedChoice.injEq] at hb
    obtain ⟨rfl, _⟩ := hb
    cases h with
    | sub_ok h =>
      cases h with
      | seq_ok h1 h2 =>
        cases h1 with
        | seq_ok h0 h1 =>
          obtain ⟨_, rfl, rfl⟩ := ex9_chain h0 rfl
          cases h1 with
          | terminal h1 =>
            generalize hc : (1 + 2 * k) = p1 at h1
            cases h1
            obtain ⟨rfl, rfl⟩ := ex9_num h2
            subst hc
            refine ⟨k + 1, by omega, ?_⟩
            have e1 : 0 ≠ 1 + 2 * k := by omega
            have e4 : 1 + 2 * k + 1 = 2 * k + 2 := by omega
            simp [Tree.prune, Tree.prune.pruneL, ex9Num_prune, ht, ex9Left, e1]
            simp [e4]
            omega

/-- C63: example 9's parser, on every source, succeeds exactly if the source starts with a digit, and then consumes the digit and
the longest run of minus-digit pairs following it. -/
theorem C63_example9_consumes (src : Source) {n : Nat} {b : Bool} {q : Nat} {t : Publisher Ex9}
    (h : parse ex9Parser src n = .ok (b, q, t)) :
    (b = true ↔ DigitAt src 0) ∧ (b = false → q = 0) ∧
    (b = true → ∃ k, q = 1 + 2 * k ∧ (∀ i, i < k → MinusDigitAt src (1 + 2 * i)) ∧ ¬ MinusDigitAt src (1 + 2 * k)) := by
  obtain ⟨h1, _⟩ := C62_example9 src h
  cases h1 with
  | ref h1 =>
    have h1 : Peg (groupBody Ex9.body ex9Role) src (.varName .r_test_indirect_three_level_a) 0 b q := h1
    cases h1 with
    | ref h1 => exact minus_run (ex9_digit src) h1

/-- C63: the tree example 9's parser returns, on every source. -/
theorem C63_example9_tree (src : Source) {n : Nat} {b : Bool} {q : Nat} {t : Publisher Ex9}
    (h : parse ex9Parser src n = .ok (b, q, t)) :
    (b = true → ∃ k, q = 1 + 2 * k ∧
      t.Unfolds 0 (.node .r_grammar (some (0, 0)) [.node .r_grammar (some (0, q)) [ex9Left k]])) ∧
    (b = false → t.Unfolds 0 (.node .r_grammar (some (0, 0)) [])) := by
  obtain ⟨_, ts, h1, h2⟩ := C62_example9 src h
  cases h1 with
  | @ref _ _ _ _ _ ts h1 =>
    refine ⟨fun hb => ?_, fun hb => ?_⟩
    · subst hb
      generalize hi : Ex9.body .r_grammar = e at h1
      simp only [Ex9.body] at hi
      subst hi
      generalize List.cons _ _ = inv at h1
      cases h1 with
      | lr_ok hd hg _ =>
        obtain ⟨k, rfl, ht⟩ := ex9_grown hg rfl rfl hd
        refine ⟨k, rfl, ?_⟩
        have h0 : 0 ≠ 1 + 2 * k := by omega
        simpa [Tree.mk, Tree.prune, Tree.prune.pruneL, ht, h0] using h2
      | lr_dup _ hm _ => cases hm
    · subst hb
      simpa [Tree.mk, Tree.prune, Tree.prune.pruneL] using h2

/-- C63: and it always terminates, with that answer unless the node keys run out. -/
theorem C63_example9_terminates (src : Source) : ∃ N, ∀ n, N ≤ n →
    (∃ b q t, parse ex9Parser src n = .ok (b, q, t)) ∨ parse ex9Parser src n = .panic .keyOverflow :=
  C07_plain_parse_terminates Ex9.body .r_grammar src Ex9.all Ex9.mem_all wf_ex9

/-- A run that meets the hypotheses. -/
example : (match parse ex9Parser ⟨bytesOf "7-1-2x"⟩ 100 with | .ok (b, q, _) => some (b, q) | _ => none)
    = some (true, 5) := by decide +kernel

end PP
