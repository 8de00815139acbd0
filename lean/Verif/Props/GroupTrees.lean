import Verif.Lemmas.Group.Solo
import Verif.Lemmas.ParseSpec
import Verif.Props.LeftTrees
import Verif.Props.LeftRec
import Verif.Props.Termination

/-! # Indirect left recursion: what groups of left-recursive rules match, and the trees they build -/
set_option linter.unusedSectionVars false
namespace PP
variable {R U : Type} [DecidableEq R]

/-! ## C62 -/

theorem gok_new (body : R → Expr R) (role : R → Role R) (src : Source) (t : Nat → Tree R) (n : Nat) :
    GOK body role src [] (⟨Cache.new, t, n⟩ : TSt R) :=
  { keys := fun _ _ _ _ _ h => (by cases h)
    memo := fun _ _ _ _ _ _ h => (by cases h)
    heads := fun _ _ _ _ h => (by cases h)
    memoHead := fun _ _ _ _ h => absurd rfl h
    memoMem := fun _ _ _ _ h => absurd rfl h
    inv := fun _ _ _ h => (by cases h)
    stk := fun _ h => (by cases h) }

/-- C62: with indirect left recursion in groups (`A = X / Y / a`, `X = A, b`, …) and a start rule that enters the recursion once, the
tree `parse` returns is the specified one (Spec/Group.lean, `GT`) with failed and empty nodes removed: a match of the head `A` is
the tree of `a`, wrapped once for every further match of a member's tail, each wrapping going through the member's node. -/
theorem C62_group_tree_nests_left (P : Parser R U) (src : Source) (role : R → Role R) (hG : GroupLR P.body role)
    (hb : ∀ r, (P.body r).NoHook) (hg : role P.grammar = .plain) (hs : Solo P.body (P.body P.grammar))
    {n : Nat} {b : Bool} {q : Nat} {t : Publisher R} (h : parse P src n = .ok (b, q, t)) :
    ∃ ts, GT P.body role src [] (.varName P.grammar) 0 b q ts ∧
      t.Unfolds 0 (.node P.grammar (some (0, 0)) (Tree.prune.pruneL ts)) := by
  unfold parse at h
  rw [Out.bind_eq_ok] at h
  obtain ⟨⟨b', q', st⟩, h1, h2⟩ := h
  simp only at h2
  rw [Out.bind_eq_ok] at h2
  obtain ⟨t', h3, h4⟩ := h2
  injection h4 with h4
  obtain ⟨rfl, rfl, rfl⟩ : b' = b ∧ q' = q ∧ t' = t := by simpa using h4
  obtain ⟨D', ks, s', N, i1, i2, _⟩ := tev_of_eval P src hb n (.varName P.grammar) trivial (fun _ => False)
    (St.new P.grammar P.userInit) 0 0 ⟨0, P.grammar, 0, 0, true, []⟩
    ⟨(St.new P.grammar P.userInit).cache, fun _ => .node P.grammar none [], (St.new P.grammar P.userInit).pub.nodes.length⟩
    b' q' st (inv_new _ _) id rfl ⟨rfl, rfl, fun k hk => hk.elim⟩ h1
  obtain ⟨g1, _⟩ := gsolo hG N (.ref hs) hg ⟨gok_new _ _ _ _ _, rfl, fun _ _ => rfl⟩ (by simp) i1
  refine ⟨_, by simpa using g1, ?_⟩
  have h0 := i2.step.par ⟨0, P.grammar, 0, 0, true, []⟩ rfl
  simp only [List.nil_append] at h0
  obtain ⟨N, hN⟩ := clearFalse_spec P.grammar st.pub h0 rfl (unfL_map ks fun k hk => i2.rel.tree k (i2.keys k hk))
  have := (hN n).2
  rw [h3] at this
  obtain ⟨ks', hr, hu'⟩ := this.root
  obtain ⟨hl, hp⟩ := hu'.unfolds
  exact .mk (nd := ⟨0, P.grammar, 0, 0, true, ks'⟩) hr hl.symm hp

/-- C62, recognition: `parse` accepts and consumes exactly what the grammar without left recursion does, in which every head
`A = X / Y / a`, `X = A, b`, `Y = A, c` is replaced by `A = a (b / c)*`. -/
theorem C62_group_parse_is_iteration (P : Parser R U) (src : Source) (role : R → Role R) (hG : GroupLR P.body role)
    (hb : ∀ r, (P.body r).NoHook) (hg : role P.grammar = .plain) (hs : Solo P.body (P.body P.grammar))
    {n : Nat} {b : Bool} {q : Nat} {t : Publisher R} (h : parse P src n = .ok (b, q, t)) :
    Peg (groupBody P.body role) src (.varName P.grammar) 0 b q := by
  obtain ⟨ts, h1, _⟩ := C62_group_tree_nests_left P src role hG hb hg hs h
  exact h1.peg hG hg

/-- C62, the other direction: whatever the iterative grammar says is what `parse` returns, on every source, given enough steps
and 2^32 keys. -/
theorem C62_iteration_is_parsed (body : R → Expr R) (g : R) (src : Source) (rules : List R) (hrules : ∀ r, r ∈ rules)
    (hwf : WellFormed body) (role : R → Role R) (hG : GroupLR body role)
    (hb : ∀ r, (body r).NoHook) (hg : role g = .plain) (hs : Solo body (body g)) {b : Bool} {q : Nat}
    (h : Peg (groupBody body role) src (.varName g) 0 b q) :
    ∃ N, ∀ n, N ≤ n → (∃ t, parse (.plain body g) src n = .ok (b, q, t)) ∨
      parse (.plain body g) src n = .panic .keyOverflow := by
  obtain ⟨N, hN⟩ := C07_plain_parse_terminates body g src rules hrules hwf
  refine ⟨N, fun n hn => ?_⟩
  rcases hN n hn with ⟨b', q', t, h'⟩ | h'
  · have := C62_group_parse_is_iteration (.plain body g) src role hG hb hg hs h'
    obtain ⟨rfl, rfl⟩ := this.det h
    exact Or.inl ⟨t, h'⟩
  · exact Or.inr h'

/-- Decidable sufficient condition for the side conditions of `GroupLR`. -/
theorem GroupLR.ofCert {body : R → Expr R} {role : R → Role R} {rules : List R} (hall : ∀ r, r ∈ rules)
    (shape : ∀ A d, role A = .head d → A ∈ d.involved ∧ ∃ e ms, body A = .orderedChoice e d.first ∧
      GTail body role d.involved A true e d.tail ms)
    (refsHead : ∀ A d, role A = .head d → d.first.GRefs role ∧ d.tail.GRefs role)
    (refs : ∀ r, role r = .plain → (body r).GRefs role)
    (tab : R → R → Bool)
    (htab : ∀ r d, role r = .head d → (∀ x, tab r x = true →
        (body x).callsIn (tab r) (fun B => !d.involved.contains B) = true) ∧
      d.first.callsIn (tab r) (fun B => !d.involved.contains B) = true ∧
      d.tail.callsIn (tab r) (fun B => !d.involved.contains B) = true)
    {nul : R → Bool} {rank : R → Nat} (hcert : certOK (groupBody body role) rules nul rank = true)
    (hfirst : ∀ r d, role r = .head d → d.first.deLR.nullIn nul = false) : GroupLR body role := by
  refine ⟨shape, refsHead, refs, ?_, ?_, .ofCert hall hcert⟩
  · intro r d hd B hB
    obtain ⟨h1, h2, h3⟩ := htab r d hd
    have : (!d.involved.contains B) = true := by
      rcases hB with hB | hB
      · exact hB.ok h1 h2
      · exact hB.ok h1 h3
    simpa using this
  · intro r d hd hm
    have hn : ∀ r, (groupBody body role r).nullIn nul = true → nul r = true := fun r h => by
      have := List.all_eq_true.mp hcert r (hall r)
      simpa [h] using (Bool.and_eq_true_iff.mp this).1
    have := hm.nullIn hn
    rw [hfirst r d hd] at this
    cases this

/-! ### The examples -/


/-- Example 1: `Expr` is the head, `Addition` and `Subtraction` the members. -/
def ex1Role : Ex1 → Role Ex1
  | .r_expr => .head ⟨[.r_addition, .r_expr, .r_subtraction], .varName .r_integer,
      .orderedChoice (.sequence (.sequence (.stringTerminal []) (.terminal 43)) (.varName .r_integer))
        (.sequence (.sequence (.stringTerminal []) (.terminal 45)) (.varName .r_integer))⟩
  | .r_addition | .r_subtraction => .member .r_expr
  | _ => .plain

/-- Example 3: two groups, `Expr` over `Term`. -/
def ex3Role : Ex3 → Role Ex3
  | .r_expr => .head ⟨[.r_addition, .r_expr, .r_subtraction], .varNameLR [.r_division, .r_multiplication, .r_term] .r_term,
      .orderedChoice (.sequence (.sequence (.stringTerminal []) (.terminal 43))
          (.varNameLR [.r_division, .r_multiplication, .r_term] .r_term))
        (.sequence (.sequence (.stringTerminal []) (.terminal 45))
          (.varNameLR [.r_division, .r_multiplication, .r_term] .r_term))⟩
  | .r_addition | .r_subtraction => .member .r_expr
  | .r_term => .head ⟨[.r_division, .r_multiplication, .r_term], .varName .r_factor,
      .orderedChoice (.sequence (.sequence (.stringTerminal []) (.terminal 42)) (.varName .r_factor))
        (.sequence (.sequence (.stringTerminal []) (.terminal 47)) (.varName .r_factor))⟩
  | .r_multiplication | .r_division => .member .r_term
  | _ => .plain

/-- Example 4: as example 3, with powers. -/
def ex4Role : Ex4 → Role Ex4
  | .r_expr => .head ⟨[.r_addition, .r_expr, .r_subtraction], .varNameLR [.r_division, .r_multiplication, .r_term] .r_term,
      .orderedChoice (.sequence (.sequence (.stringTerminal []) (.terminal 43))
          (.varNameLR [.r_division, .r_multiplication, .r_term] .r_term))
        (.sequence (.sequence (.stringTerminal []) (.terminal 45))
          (.varNameLR [.r_division, .r_multiplication, .r_term] .r_term))⟩
  | .r_addition | .r_subtraction => .member .r_expr
  | .r_term => .head ⟨[.r_division, .r_multiplication, .r_term], .varName .r_power_expr,
      .orderedChoice (.sequence (.sequence (.stringTerminal []) (.terminal 42)) (.varName .r_power_expr))
        (.sequence (.sequence (.stringTerminal []) (.terminal 47)) (.varName .r_power_expr))⟩
  | .r_multiplication | .r_division => .member .r_term
  | _ => .plain

/-- Example 7: one member without tail of its own. -/
def ex7Role : Ex7 → Role Ex7
  | .r_expr => .head ⟨[.r_expr, .r_intermediate], .varName .r_num,
      .sequence (.sequence (.stringTerminal []) (.terminal 45)) (.varName .r_num)⟩
  | .r_intermediate => .member .r_expr
  | _ => .plain

/-- Example 8: a chain of two members. -/
def ex8Role : Ex8 → Role Ex8
  | .r_test_indirect_three_level_a => .head ⟨[.r_test_indirect_three_level_a, .r_test_indirect_three_level_b,
        .r_test_indirect_three_level_c], .varName .r_test_lr_num,
      .sequence (.sequence (.stringTerminal []) (.terminal 45)) (.varName .r_test_lr_num)⟩
  | .r_test_indirect_three_level_b | .r_test_indirect_three_level_c => .member .r_test_indirect_three_level_a
  | _ => .plain

/-- Example 9: a chain of four members. -/
def ex9Role : Ex9 → Role Ex9
  | .r_test_indirect_three_level_a => .head ⟨[.r_test_indirect_three_level_a, .r_test_indirect_three_level_b,
        .r_test_indirect_three_level_c, .r_test_indirect_three_level_d, .r_test_indirect_three_level_e], .varName .r_test_lr_num,
      .sequence (.sequence (.stringTerminal []) (.terminal 45)) (.varName .r_test_lr_num)⟩
  | .r_test_indirect_three_level_b | .r_test_indirect_three_level_c | .r_test_indirect_three_level_d
  | .r_test_indirect_three_level_e => .member .r_test_indirect_three_level_a
  | _ => .plain

theorem group_ex1 : GroupLR Ex1.body ex1Role := by
  refine .ofCert Ex1.mem_all ?_ ?_ ?_ (fun _ x => x == .r_integer || x == .r_onenine || x == .r_digit) ?_ (nul := fun _ => false)
    (rank := fun | .r_onenine => 0 | .r_digit => 0 | .r_integer => 1 | .r_expr => 2 | .r_grammar => 3 | _ => 0) (by decide) ?_
  · intro r d hd
    cases r <;> simp only [ex1Role, reduceCtorEq, Role.head.injEq] at hd
    subst hd
    exact ⟨by simp, _, _, rfl, .choice (.member rfl (by decide) (by decide) (.seq (.seq .head)))
      (.member rfl (by decide) (by decide) (.seq (.seq .head)))⟩
  · intro r d hd
    cases r <;> simp only [ex1Role, reduceCtorEq, Role.head.injEq] at hd
    subst hd
    simp [Expr.GRefs, ex1Role]
  · intro r hd
    cases r <;> simp [Expr.GRefs, ex1Role, Ex1.body] at hd ⊢
  · intro r d hd
    cases r <;> simp only [ex1Role, reduceCtorEq, Role.head.injEq] at hd
    subst hd
    refine ⟨fun x hx => ?_, by decide, by decide⟩
    cases x <;> first | rfl | cases hx
  · intro r d hd
    cases r <;> simp only [ex1Role, reduceCtorEq, Role.head.injEq] at hd
    subst hd
    rfl

theorem group_ex3 : GroupLR Ex3.body ex3Role := by
  refine .ofCert Ex3.mem_all ?_ ?_ ?_ (fun r x => r == .r_term && [.r_factor, .r_parentheses, .r_number, .r_integer, .r_fraction, .r_exponent, .r_sign, .r_onenine, .r_digit].contains x) ?_ (nul := fun x => x == .r_sign)
    (rank := fun | .r_integer => 1 | .r_exponent => 1 | .r_number => 2 | .r_factor => 3 | .r_term => 4 | .r_expr => 5 | .r_grammar => 6 | _ => 0) (by decide) ?_
  · intro r d hd
    cases r <;> simp only [ex3Role, reduceCtorEq, Role.head.injEq] at hd
    all_goals
      subst hd
      exact ⟨by simp, _, _, rfl, .choice (.member rfl (by decide) (by decide) (.seq (.seq .head)))
        (.member rfl (by decide) (by decide) (.seq (.seq .head)))⟩
  · intro r d hd
    cases r <;> simp only [ex3Role, reduceCtorEq, Role.head.injEq] at hd
    all_goals
      subst hd
      simp [Expr.GRefs, ex3Role]
  · intro r hd
    cases r <;> simp [Expr.GRefs, ex3Role, Ex3.body] at hd ⊢
  · intro r d hd
    cases r <;> simp only [ex3Role, reduceCtorEq, Role.head.injEq] at hd
    all_goals
      subst hd
      refine ⟨fun x hx => ?_, by decide, by decide⟩
      cases x <;> first | rfl | cases hx
  · intro r d hd
    cases r <;> simp only [ex3Role, reduceCtorEq, Role.head.injEq] at hd
    all_goals
      subst hd
      rfl

theorem group_ex4 : GroupLR Ex4.body ex4Role := by
  refine .ofCert Ex4.mem_all ?_ ?_ ?_ (fun r x => r == .r_term && [.r_factor, .r_parentheses, .r_number, .r_integer, .r_fraction, .r_exponent, .r_sign, .r_onenine, .r_digit,
    .r_power, .r_power_expr].contains x) ?_ (nul := fun x => x == .r_sign)
    (rank := fun | .r_integer => 1 | .r_exponent => 1 | .r_number => 2 | .r_factor => 3 | .r_power => 4 | .r_power_expr => 5 | .r_term => 6 | .r_expr => 7 | .r_grammar => 8 | _ => 0) (by decide) ?_
  · intro r d hd
    cases r <;> simp only [ex4Role, reduceCtorEq, Role.head.injEq] at hd
    all_goals
      subst hd
      exact ⟨by simp, _, _, rfl, .choice (.member rfl (by decide) (by decide) (.seq (.seq .head)))
        (.member rfl (by decide) (by decide) (.seq (.seq .head)))⟩
  · intro r d hd
    cases r <;> simp only [ex4Role, reduceCtorEq, Role.head.injEq] at hd
    all_goals
      subst hd
      simp [Expr.GRefs, ex4Role]
  · intro r hd
    cases r <;> simp [Expr.GRefs, ex4Role, Ex4.body] at hd ⊢
  · intro r d hd
    cases r <;> simp only [ex4Role, reduceCtorEq, Role.head.injEq] at hd
    all_goals
      subst hd
      refine ⟨fun x hx => ?_, by decide, by decide⟩
      cases x <;> first | rfl | cases hx
  · intro r d hd
    cases r <;> simp only [ex4Role, reduceCtorEq, Role.head.injEq] at hd
    all_goals
      subst hd
      rfl

theorem group_ex7 : GroupLR Ex7.body ex7Role := by
  refine .ofCert Ex7.mem_all ?_ ?_ ?_ (fun _ x => x == .r_num) ?_ (nul := fun _ => false)
    (rank := fun | .r_expr => 1 | .r_grammar => 2 | _ => 0) (by decide) ?_
  · intro r d hd
    cases r <;> simp only [ex7Role, reduceCtorEq, Role.head.injEq] at hd
    all_goals
      subst hd
      exact ⟨by simp, _, _, rfl, .sub (.seq (.seq (.member rfl (by decide) (by decide) .head)))⟩
  · intro r d hd
    cases r <;> simp only [ex7Role, reduceCtorEq, Role.head.injEq] at hd
    all_goals
      subst hd
      simp [Expr.GRefs, ex7Role]
  · intro r hd
    cases r <;> simp [Expr.GRefs, ex7Role, Ex7.body] at hd ⊢
  · intro r d hd
    cases r <;> simp only [ex7Role, reduceCtorEq, Role.head.injEq] at hd
    all_goals
      subst hd
      refine ⟨fun x hx => ?_, by decide, by decide⟩
      cases x <;> first | rfl | cases hx
  · intro r d hd
    cases r <;> simp only [ex7Role, reduceCtorEq, Role.head.injEq] at hd
    all_goals
      subst hd
      rfl

theorem group_ex8 : GroupLR Ex8.body ex8Role := by
  refine .ofCert Ex8.mem_all ?_ ?_ ?_ (fun _ x => x == .r_num || x == .r_test_lr_num) ?_ (nul := fun _ => false)
    (rank := fun | .r_test_lr_num => 1 | .r_test_indirect_three_level_a => 2 | .r_grammar => 3 | _ => 0) (by decide) ?_
  · intro r d hd
    cases r <;> simp only [ex8Role, reduceCtorEq, Role.head.injEq] at hd
    all_goals
      subst hd
      exact ⟨by simp, _, _, rfl, .sub (.seq (.seq (.member rfl (by decide) (by decide) (.member rfl (by decide) (by decide) .head))))⟩
  · intro r d hd
    cases r <;> simp only [ex8Role, reduceCtorEq, Role.head.injEq] at hd
    all_goals
      subst hd
      simp [Expr.GRefs, ex8Role]
  · intro r hd
    cases r <;> simp [Expr.GRefs, ex8Role, Ex8.body] at hd ⊢
  · intro r d hd
    cases r <;> simp only [ex8Role, reduceCtorEq, Role.head.injEq] at hd
    all_goals
      subst hd
      refine ⟨fun x hx => ?_, by decide, by decide⟩
      cases x <;> first | rfl | cases hx
  · intro r d hd
    cases r <;> simp only [ex8Role, reduceCtorEq, Role.head.injEq] at hd
    all_goals
      subst hd
      rfl

theorem group_ex9 : GroupLR Ex9.body ex9Role := by
  refine .ofCert Ex9.mem_all ?_ ?_ ?_ (fun _ x => x == .r_num || x == .r_test_lr_num) ?_ (nul := fun _ => false)
    (rank := fun | .r_test_lr_num => 1 | .r_test_indirect_three_level_a => 2 | .r_grammar => 3 | _ => 0) (by decide) ?_
  · intro r d hd
    cases r <;> simp only [ex9Role, reduceCtorEq, Role.head.injEq] at hd
    all_goals
      subst hd
      exact ⟨by simp, _, _, rfl, .sub (.seq (.seq (.member rfl (by decide) (by decide) (.member rfl (by decide) (by decide) (.member rfl (by decide) (by decide) (.member rfl (by decide) (by decide) .head))))))⟩
  · intro r d hd
    cases r <;> simp only [ex9Role, reduceCtorEq, Role.head.injEq] at hd
    all_goals
      subst hd
      simp [Expr.GRefs, ex9Role]
  · intro r hd
    cases r <;> simp [Expr.GRefs, ex9Role, Ex9.body] at hd ⊢
  · intro r d hd
    cases r <;> simp only [ex9Role, reduceCtorEq, Role.head.injEq] at hd
    all_goals
      subst hd
      refine ⟨fun x hx => ?_, by decide, by decide⟩
      cases x <;> first | rfl | cases hx
  · intro r d hd
    cases r <;> simp only [ex9Role, reduceCtorEq, Role.head.injEq] at hd
    all_goals
      subst hd
      rfl

/-- C62 for example 1, on every source. -/
theorem C62_example1 (src : Source) {n : Nat} {b : Bool} {q : Nat} {t : Publisher Ex1}
    (h : parse ex1Parser src n = .ok (b, q, t)) :
    Peg (groupBody Ex1.body ex1Role) src (.varName .r_grammar) 0 b q ∧
    ∃ ts, GT Ex1.body ex1Role src [] (.varName .r_grammar) 0 b q ts ∧
      t.Unfolds 0 (.node .r_grammar (some (0, 0)) (Tree.prune.pruneL ts)) :=
  ⟨C62_group_parse_is_iteration ex1Parser src ex1Role group_ex1
      (fun r => by cases r <;> simp [ex1Parser, Parser.plain, Ex1.body, Expr.NoHook]) rfl .lr h,
    C62_group_tree_nests_left ex1Parser src ex1Role group_ex1
      (fun r => by cases r <;> simp [ex1Parser, Parser.plain, Ex1.body, Expr.NoHook]) rfl .lr h⟩

/-- C62 for example 3, on every source. -/
theorem C62_example3 (src : Source) {n : Nat} {b : Bool} {q : Nat} {t : Publisher Ex3}
    (h : parse ex3Parser src n = .ok (b, q, t)) :
    Peg (groupBody Ex3.body ex3Role) src (.varName .r_grammar) 0 b q ∧
    ∃ ts, GT Ex3.body ex3Role src [] (.varName .r_grammar) 0 b q ts ∧
      t.Unfolds 0 (.node .r_grammar (some (0, 0)) (Tree.prune.pruneL ts)) :=
  ⟨C62_group_parse_is_iteration ex3Parser src ex3Role group_ex3
      (fun r => by cases r <;> simp [ex3Parser, Parser.plain, Ex3.body, Expr.NoHook]) rfl .lr h,
    C62_group_tree_nests_left ex3Parser src ex3Role group_ex3
      (fun r => by cases r <;> simp [ex3Parser, Parser.plain, Ex3.body, Expr.NoHook]) rfl .lr h⟩

/-- C62 for example 4, on every source. -/
theorem C62_example4 (src : Source) {n : Nat} {b : Bool} {q : Nat} {t : Publisher Ex4}
    (h : parse ex4Parser src n = .ok (b, q, t)) :
    Peg (groupBody Ex4.body ex4Role) src (.varName .r_grammar) 0 b q ∧
    ∃ ts, GT Ex4.body ex4Role src [] (.varName .r_grammar) 0 b q ts ∧
      t.Unfolds 0 (.node .r_grammar (some (0, 0)) (Tree.prune.pruneL ts)) :=
  ⟨C62_group_parse_is_iteration ex4Parser src ex4Role group_ex4
      (fun r => by cases r <;> simp [ex4Parser, Parser.plain, Ex4.body, Expr.NoHook]) rfl .lr h,
    C62_group_tree_nests_left ex4Parser src ex4Role group_ex4
      (fun r => by cases r <;> simp [ex4Parser, Parser.plain, Ex4.body, Expr.NoHook]) rfl .lr h⟩

/-- C62 for example 7, on every source. -/
theorem C62_example7 (src : Source) {n : Nat} {b : Bool} {q : Nat} {t : Publisher Ex7}
    (h : parse ex7Parser src n = .ok (b, q, t)) :
    Peg (groupBody Ex7.body ex7Role) src (.varName .r_grammar) 0 b q ∧
    ∃ ts, GT Ex7.body ex7Role src [] (.varName .r_grammar) 0 b q ts ∧
      t.Unfolds 0 (.node .r_grammar (some (0, 0)) (Tree.prune.pruneL ts)) :=
  ⟨C62_group_parse_is_iteration ex7Parser src ex7Role group_ex7
      (fun r => by cases r <;> simp [ex7Parser, Parser.plain, Ex7.body, Expr.NoHook]) rfl .lr h,
    C62_group_tree_nests_left ex7Parser src ex7Role group_ex7
      (fun r => by cases r <;> simp [ex7Parser, Parser.plain, Ex7.body, Expr.NoHook]) rfl .lr h⟩

/-- C62 for example 8, on every source. -/
theorem C62_example8 (src : Source) {n : Nat} {b : Bool} {q : Nat} {t : Publisher Ex8}
    (h : parse ex8Parser src n = .ok (b, q, t)) :
    Peg (groupBody Ex8.body ex8Role) src (.varName .r_grammar) 0 b q ∧
    ∃ ts, GT Ex8.body ex8Role src [] (.varName .r_grammar) 0 b q ts ∧
      t.Unfolds 0 (.node .r_grammar (some (0, 0)) (Tree.prune.pruneL ts)) :=
  ⟨C62_group_parse_is_iteration ex8Parser src ex8Role group_ex8
      (fun r => by cases r <;> simp [ex8Parser, Parser.plain, Ex8.body, Expr.NoHook]) rfl .lr h,
    C62_group_tree_nests_left ex8Parser src ex8Role group_ex8
      (fun r => by cases r <;> simp [ex8Parser, Parser.plain, Ex8.body, Expr.NoHook]) rfl .lr h⟩

/-- C62 for example 9, on every source. -/
theorem C62_example9 (src : Source) {n : Nat} {b : Bool} {q : Nat} {t : Publisher Ex9}
    (h : parse ex9Parser src n = .ok (b, q, t)) :
    Peg (groupBody Ex9.body ex9Role) src (.varName .r_grammar) 0 b q ∧
    ∃ ts, GT Ex9.body ex9Role src [] (.varName .r_grammar) 0 b q ts ∧
      t.Unfolds 0 (.node .r_grammar (some (0, 0)) (Tree.prune.pruneL ts)) :=
  ⟨C62_group_parse_is_iteration ex9Parser src ex9Role group_ex9
      (fun r => by cases r <;> simp [ex9Parser, Parser.plain, Ex9.body, Expr.NoHook]) rfl .lr h,
    C62_group_tree_nests_left ex9Parser src ex9Role group_ex9
      (fun r => by cases r <;> simp [ex9Parser, Parser.plain, Ex9.body, Expr.NoHook]) rfl .lr h⟩

/-- The hypotheses are met by real runs. -/
example : (match parse ex3Parser ⟨bytesOf "(7-5)/(3*4)*20/2+5-19"⟩ 400 with | .ok (b, q, _) => some (b, q) | _ => none)
    = some (true, 21) := by decide +kernel
example : (match parse ex9Parser ⟨bytesOf "7-1-2x"⟩ 100 with | .ok (b, q, _) => some (b, q) | _ => none)
    = some (true, 5) := by decide +kernel

end PP
