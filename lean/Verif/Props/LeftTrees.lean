import Verif.Lemmas.GrowTree
import Verif.Lemmas.ParseSpec
import Verif.Props.LeftRec

/-! # The syntax trees of left-recursive rules: C47 (trees), C58, C59, C60 -/
set_option linter.unusedSectionVars false
namespace PP
variable {R U : Type} [DecidableEq R]

theorem TOK.new {rep : Prop} {P : Parser R U} {src : Source} {lr : R → Option (LRDecl R)} :
    TOK rep P src lr [] (St.new P.grammar P.userInit) := by
  constructor <;> simp [St.new, Cache.new]

theorem Pre.new {P : Parser R U} {src : Source} :
    Pre P src (fun _ => False) (St.new P.grammar P.userInit) 0 [] [] :=
  ⟨inv_new _ _, id, ⟨⟨0, P.grammar, 0, 0, true, []⟩, rfl, rfl⟩, .nil⟩

/-- From the trees of the run to the returned tree. -/
theorem parse_of_tpost {rep : Prop} {P : Parser R U} {src : Source} {lr : R → Option (LRDecl R)} {n : Nat}
    {S : Bool → Nat → List (Tree R) → Prop}
    (hS : ∀ b q st, eval P src n (.varName P.grammar) 0 0 (St.new P.grammar P.userInit) = .ok (b, q, st) →
      TPost rep P src lr [] (fun _ => False) (St.new P.grammar P.userInit) 0 st (fun _ ts => S b q ts))
    {b : Bool} {q : Nat} {t : Publisher R} (h : parse P src n = .ok (b, q, t)) :
    ∃ ts, S b q ts ∧ t.Unfolds 0 (.node P.grammar (some (0, 0)) (Tree.prune.pruneL ts)) := by
  unfold parse at h
  rw [Out.bind_eq_ok] at h
  obtain ⟨⟨b', q', st⟩, h1, h2⟩ := h
  simp only at h2
  rw [Out.bind_eq_ok] at h2
  obtain ⟨t', h3, h4⟩ := h2
  injection h4 with h4
  obtain ⟨rfl, rfl, rfl⟩ : b' = b ∧ q' = q ∧ t' = t := by simpa using h4
  obtain ⟨D', ks, ts, hi, hs, hk, hu, ht, hspec⟩ := hS b' q' st h1
  refine ⟨ts, hspec, ?_⟩
  have h0 := hs.par ⟨0, P.grammar, 0, 0, true, []⟩ rfl
  simp only [List.nil_append] at h0
  obtain ⟨N, hN⟩ := clearFalse_spec P.grammar st.pub h0 rfl hu
  have := (hN n).2
  rw [h3] at this
  obtain ⟨ks', hr, hu'⟩ := this.root
  obtain ⟨hl, hp⟩ := hu'.unfolds
  exact .mk (nd := ⟨0, P.grammar, 0, 0, true, ks'⟩) hr hl.symm hp

/-! ## C58: the tree of a left-recursive rule nests to the left -/

/-- C58: in a grammar with direct left recursion only, the tree `parse` returns is the specified one (Spec/GrowTree.lean) with
failed and empty nodes removed: a match of `A = (A, b) / a` is the tree of `a` wrapped once for each match of `b`, the tree so
far being the first child.  `rep := True` admits rules asked for twice at the same place (C60). -/
theorem C58_parse_tree_nests_left (P : Parser R U) (src : Source) (hh : P.HooksOK src) (lr : R → Option (LRDecl R))
    (hD : DirectLR P.body lr) (hg : lr P.grammar = none) {n : Nat} {b : Bool} {q : Nat} {t : Publisher R}
    (h : parse P src n = .ok (b, q, t)) :
    ∃ ts, LRT True P.body lr src [] (.varName P.grammar) 0 b q ts ∧
      t.Unfolds 0 (.node P.grammar (some (0, 0)) (Tree.prune.pruneL ts)) := by
  refine parse_of_tpost (rep := True) (lr := lr) (fun b q st h1 => ?_) h
  exact tclaim_all hh hD n (.varName P.grammar) [] (fun _ => False) 0 0 _ b q st [] [] hg StOK.new.1 (by simp [Safe])
    (fun A pa ha => (by cases ha)) (Or.inl trivial) Pre.new TOK.new h1

/-- C58, without the exception: if the start rule is just a reference to a left-recursive rule `A`, no rule is ever regrown, and
the tree is exactly the left-nested one (`rep := False`). -/
theorem C58_start_rule_nests_left (P : Parser R U) (src : Source) (hh : P.HooksOK src) (lr : R → Option (LRDecl R))
    (hD : DirectLR P.body lr) (hg : lr P.grammar = none) {A : R} {d : LRDecl R} (hd : lr A = some d)
    (hb : P.body P.grammar = .varNameLR d.involved A) {n : Nat} {b : Bool} {q : Nat} {t : Publisher R}
    (h : parse P src n = .ok (b, q, t)) :
    ∃ ts, LRT False P.body lr src [] (.varName P.grammar) 0 b q ts ∧
      t.Unfolds 0 (.node P.grammar (some (0, 0)) (Tree.prune.pruneL ts)) := by
  refine parse_of_tpost (rep := False) (lr := lr) (fun b q st h1 => ?_) h
  cases n with
  | zero => cases h1
  | succ n =>
    have hok := (StOK.new (P := P) (src := src) (lr := lr)).1
    refine varNameT hh hg hok Pre.new TOK.new (fun st0 b' q' st2 D' parent' c0 hp0 ht0 h2 => ?_) h1
    rw [hb] at h2 ⊢
    cases n with
    | zero => cases h2
    | succ n =>
      refine lrT (N := n) (fun k _ => tclaim_all hh hD k) hh hD hd (by simp [Safe]) (n := n) (by omega) n (hok.of_cache c0) ?_
        (Or.inr (Or.inr ?_)) hp0 ht0 h2
      · intro A pa ha; rw [c0] at ha; cases ha
      · rw [c0]; rfl

/-! ## C47: example 5's trees -/

/-- A `num` node for the digit at `p`. -/
def ex5Num (p : Nat) : Tree Ex5 := .node .r_num (some (p, p + 1)) []

/-- The tree of digit, minus, digit, … with `k` minus signs, starting at 0: nested to the left. -/
def ex5Left : Nat → Tree Ex5
  | 0 => .node .r_expr (some (0, 1)) [ex5Num 0]
  | k + 1 => .node .r_expr (some (0, 1 + 2 * (k + 1))) [ex5Left k, ex5Num (2 * k + 2)]

theorem ex5_lrt_num {src : Source} {pre p b q ts} (h : LRT False Ex5.body ex5LR src pre (.varName .r_num) p b q ts) :
    ts = [Tree.mk .r_num p b q []] ∧ (b = true → q = p + 1) := by
  cases h with
  | ref h =>
    have h : LRT False Ex5.body ex5LR src [] (.matchRange 48 57) p b q _ := h
    cases h with
    | range h =>
      refine ⟨rfl, fun hb => ?_⟩
      subst hb
      next h' => cases h' with | range_ok => rfl

theorem ex5_grown {src : Source} : ∀ {A d q t}, Grown False Ex5.body ex5LR src A d 0 q t → ex5LR A = some d →
    ∃ k, q = 1 + 2 * k ∧ t = ex5Left k
  | A, d, q, _, .seed h, hd => by
    cases A <;> simp only [ex5LR, reduceCtorEq, Option.some.injEq] at hd
    subst hd
    obtain ⟨rfl, hq⟩ := ex5_lrt_num h
    obtain rfl := hq rfl
    exact ⟨0, rfl, rfl⟩
  | A, d, _, _, .grow (q := q) (us := us) hg h, hd => by
    obtain ⟨k, rfl, rfl⟩ := ex5_grown hg hd
    cases A <;> simp only [ex5LR, reduceCtorEq, Option.some.injEq] at hd
    subst hd
    cases h with
    | seq_ok h1 h2 =>
      cases h1 with
      | terminal h1 =>
        obtain ⟨rfl, hq⟩ := ex5_lrt_num h2
        obtain rfl := hq rfl
        generalize hc : (1 + 2 * k) = p1 at h1
        cases h1
        refine ⟨k + 1, by omega, ?_⟩
        subst hc
        simp [ex5Left, ex5Num, Tree.mk]
        omega

theorem ex5Left_prune : ∀ k, (ex5Left k).prune = [ex5Left k]
  | 0 => rfl
  | k + 1 => by
    simp only [ex5Left, Tree.prune, Tree.prune.pruneL, ex5Left_prune k, ex5Num]
    simp

/-- C47: the tree example 5's parser returns, on every source: nested to the left, one level per minus sign. -/
theorem C47_example5_tree (src : Source) {n : Nat} {b : Bool} {q : Nat} {t : Publisher Ex5}
    (h : parse ex5Parser src n = .ok (b, q, t)) :
    (b = true → ∃ k, q = 1 + 2 * k ∧
      t.Unfolds 0 (.node .r_grammar (some (0, 0)) [.node .r_grammar (some (0, q)) [ex5Left k]])) ∧
    (b = false → t.Unfolds 0 (.node .r_grammar (some (0, 0)) [])) := by
  obtain ⟨ts, h1, h2⟩ := C58_start_rule_nests_left ex5Parser src (plain_hooksOK _ _ _) ex5LR direct_ex5 rfl
    (A := .r_expr) rfl rfl h
  cases h1 with
  | @ref _ _ _ _ _ ts h1 =>
    refine ⟨fun hb => ?_, fun hb => ?_⟩
    · subst hb
      have h1 : LRT False Ex5.body ex5LR src [] (.varNameLR [.r_expr] .r_expr) 0 true q ts := h1
      generalize hi : [Ex5.r_expr] = inv at h1
      cases h1 with
      | lr_ok hd hg _ =>
        obtain ⟨k, rfl, rfl⟩ := ex5_grown hg hd
        refine ⟨k, rfl, ?_⟩
        have h0 : 0 ≠ 1 + 2 * k := by omega
        simpa [Tree.mk, Tree.prune, Tree.prune.pruneL, ex5Left_prune, ex5Parser, Parser.plain, h0] using h2
      | lr_dup _ hm _ => cases hm
    · subst hb
      simpa [Tree.mk, Tree.prune, Tree.prune.pruneL, ex5Parser, Parser.plain] using h2

/-- The tree for "7-1-2x" (`x` is left over). -/
example : ex5Left 2 = .node .r_expr (some (0, 5)) [.node .r_expr (some (0, 3)) [.node .r_expr (some (0, 1)) [ex5Num 0],
    ex5Num 2], ex5Num 4] := rfl

/-! ## C59: example 6's trees -/

/-- Byte `p` of the source is `c`. -/
def ByteAt (src : Source) (p : Nat) (c : UInt8) : Prop := p < src.len ∧ src.bytes[p]? = some c

/-- A `num` node for the digit at `p`. -/
def ex6Num (p : Nat) : Tree Ex6 := .node .r_num (some (p, p + 1)) []

/-- Products and quotients of digits, grouped to the left. -/
inductive FactTree (src : Source) : Nat → Nat → Tree Ex6 → Prop where
  | digit {p} : DigitAt src p → FactTree src p (p + 1) (.node .r_fact (some (p, p + 1)) [ex6Num p])
  | op {p q t} : FactTree src p q t → ByteAt src q 42 ∨ ByteAt src q 47 → DigitAt src (q + 1) →
      FactTree src p (q + 2) (.node .r_fact (some (p, q + 2)) [t, ex6Num (q + 1)])

/-- Sums and differences of those, grouped to the left. -/
inductive TermTree (src : Source) : Nat → Nat → Tree Ex6 → Prop where
  | fact {p q t} : FactTree src p q t → TermTree src p q (.node .r_term (some (p, q)) [t])
  | op {p q t r u} : TermTree src p q t → ByteAt src q 43 ∨ ByteAt src q 45 → FactTree src (q + 1) r u →
      TermTree src p r (.node .r_term (some (p, r)) [t, u])

theorem ex6_lrt_num {src : Source} {pre p q ts} (h : LRT False Ex6.body ex6LR src pre (.varName .r_num) p true q ts) :
    ts = [ex6Num p] ∧ q = p + 1 ∧ DigitAt src p := by
  cases h with
  | ref h =>
    have h : LRT False Ex6.body ex6LR src [] (.matchRange 48 57) p true q _ := h
    cases h with
    | range h =>
      next h' => cases h' with | range_ok h1 h2 h3 h4 => exact ⟨rfl, rfl, _, h1, h2, h3, h4⟩

theorem ex6_lrt_byte {src : Source} {pre c p b q ts} (h : LRT False Ex6.body ex6LR src pre (.terminal c) p b q ts) :
    ts = [] ∧ (b = true → q = p + 1 ∧ ByteAt src p c) ∧ (b = false → ¬ ByteAt src p c) := by
  cases h with
  | terminal h =>
    cases h with
    | terminal_ok h1 h2 => exact ⟨rfl, fun _ => ⟨rfl, h1, h2⟩, fun h => (by cases h)⟩
    | terminal_fail h => exact ⟨rfl, fun h => (by cases h), fun _ => h⟩

theorem ByteAt.unique {src : Source} {p : Nat} {c d : UInt8} (h : ByteAt src p c) (h' : ByteAt src p d) : c = d := by
  have := h.2.symm.trans h'.2
  simpa using this

/-- `(x, e) / (y, e)` with different bytes `x`, `y` appends what `e` appends. -/
theorem ex6_lrt_op {src : Source} {x y : UInt8} (hxy : x ≠ y) {e : Expr Ex6} {pre p q ts}
    (h : LRT False Ex6.body ex6LR src pre (.orderedChoice (.sequence (.terminal x) e) (.sequence (.terminal y) e)) p true q ts) :
    (ByteAt src p x ∨ ByteAt src p y) ∧ LRT False Ex6.body ex6LR src pre e (p + 1) true q ts := by
  cases h with
  | choice_left h =>
    cases h with
    | seq_ok h1 h2 =>
      obtain ⟨rfl, g, _⟩ := ex6_lrt_byte h1
      obtain ⟨rfl, g'⟩ := g rfl
      exact ⟨Or.inl g', by simpa using h2⟩
  | choice_right h h' =>
    cases h' with
    | seq_ok h1 h2 =>
      obtain ⟨rfl, g, _⟩ := ex6_lrt_byte h1
      obtain ⟨rfl, g'⟩ := g rfl
      cases h with
      | seq_fail1 h =>
        obtain ⟨rfl, _, _⟩ := ex6_lrt_byte h
        exact ⟨Or.inr g', by simpa using h2⟩
      | seq_fail2 h _ =>
        obtain ⟨rfl, g2, _⟩ := ex6_lrt_byte h
        exact absurd ((g2 rfl).2.unique g') hxy

theorem ex6_grown_fact {src : Source} : ∀ {A d p q t}, Grown False Ex6.body ex6LR src A d p q t → A = .r_fact →
    ex6LR A = some d → FactTree src p q t
  | A, d, p, q, _, .seed h, hA, hd => by
    subst hA
    simp only [ex6LR, Option.some.injEq] at hd
    subst hd
    obtain ⟨rfl, rfl, g⟩ := ex6_lrt_num h
    exact .digit g
  | A, d, p, _, _, .grow (q := q) (us := us) hg h, hA, hd => by
    have ih := ex6_grown_fact hg hA hd
    subst hA
    simp only [ex6LR, Option.some.injEq] at hd
    subst hd
    obtain ⟨hb, h⟩ := ex6_lrt_op (by decide) h
    obtain ⟨rfl, rfl, g⟩ := ex6_lrt_num h
    exact .op ih hb g

theorem FactTree.rule {src : Source} {p q t} (h : FactTree src p q t) : t.rule = .r_fact := by cases h <;> rfl
theorem TermTree.rule {src : Source} {p q t} (h : TermTree src p q t) : t.rule = .r_term := by cases h <;> rfl

theorem ex6_lrt_fact {src : Source} {pre inv p q ts} (hpre : ∀ t ∈ pre, Tree.rule t ≠ .r_fact)
    (h : LRT False Ex6.body ex6LR src pre (.varNameLR inv .r_fact) p true q ts) :
    ∃ t, ts = [t] ∧ FactTree src p q t := by
  cases h with
  | lr_ok hd hg _ => exact ⟨_, rfl, ex6_grown_fact hg rfl hd⟩
  | @lr_dup _ _ d _ _ _ t hd hm h =>
    exfalso
    refine hpre t hm ?_
    generalize d.involved = inv at h
    cases h with
    | lr_ok hd hg _ => exact (ex6_grown_fact hg rfl hd).rule

theorem ex6_grown_term {src : Source} : ∀ {A d p q t}, Grown False Ex6.body ex6LR src A d p q t → A = .r_term →
    ex6LR A = some d → TermTree src p q t
  | A, d, p, q, _, .seed h, hA, hd => by
    subst hA
    simp only [ex6LR, Option.some.injEq] at hd
    subst hd
    obtain ⟨t, rfl, g⟩ := ex6_lrt_fact (by simp) h
    exact .fact g
  | A, d, p, _, _, .grow (q := q) (us := us) hg h, hA, hd => by
    have ih := ex6_grown_term hg hA hd
    subst hA
    simp only [ex6LR, Option.some.injEq] at hd
    subst hd
    obtain ⟨hb, h⟩ := ex6_lrt_op (by decide) h
    obtain ⟨t, rfl, g⟩ := ex6_lrt_fact (by simp [ih.rule]) h
    exact .op ih hb g

theorem FactTree.prune {src : Source} {p q t} (h : FactTree src p q t) : p < q ∧ t.prune = [t] := by
  induction h with
  | digit => simp [Tree.prune, Tree.prune.pruneL, ex6Num]
  | op _ _ _ ih =>
    refine ⟨by omega, ?_⟩
    simp [Tree.prune, Tree.prune.pruneL, ex6Num, ih.2]
    omega

theorem TermTree.prune {src : Source} {p q t} (h : TermTree src p q t) : p < q ∧ t.prune = [t] := by
  induction h with
  | fact h =>
    have := h.prune
    refine ⟨this.1, ?_⟩
    simp [Tree.prune, Tree.prune.pruneL, this.2]
    omega
  | op _ _ h ih =>
    have := h.prune
    refine ⟨by omega, ?_⟩
    simp [Tree.prune, Tree.prune.pruneL, ih.2, this.2]
    omega

/-- C59: the tree example 6's parser returns, on every source: products bind tighter than sums, and both group to the left. -/
theorem C59_example6_tree (src : Source) {n : Nat} {b : Bool} {q : Nat} {t : Publisher Ex6}
    (h : parse ex6Parser src n = .ok (b, q, t)) :
    (b = true → ∃ u, TermTree src 0 q u ∧
      t.Unfolds 0 (.node .r_grammar (some (0, 0)) [.node .r_grammar (some (0, q)) [u]])) ∧
    (b = false → t.Unfolds 0 (.node .r_grammar (some (0, 0)) [])) := by
  obtain ⟨ts, h1, h2⟩ := C58_start_rule_nests_left ex6Parser src (plain_hooksOK _ _ _) ex6LR direct_ex6 rfl
    (A := .r_term) rfl rfl h
  cases h1 with
  | @ref _ _ _ _ _ ts h1 =>
    refine ⟨fun hb => ?_, fun hb => ?_⟩
    · subst hb
      have h1 : LRT False Ex6.body ex6LR src [] (.varNameLR [.r_term] .r_term) 0 true q ts := h1
      generalize hi : [Ex6.r_term] = inv at h1
      cases h1 with
      | lr_ok hd hg _ =>
        have hu := ex6_grown_term hg rfl hd
        refine ⟨_, hu, ?_⟩
        have h0 : 0 ≠ q := by have := hu.prune.1; omega
        simpa [Tree.mk, Tree.prune, Tree.prune.pruneL, hu.prune.2, ex6Parser, Parser.plain, h0] using h2
      | lr_dup _ hm _ => cases hm
    · subst hb
      simpa [Tree.mk, Tree.prune, Tree.prune.pruneL, ex6Parser, Parser.plain] using h2

/-- A source and its tree: in "1+2*3" the product is below the sum. -/
example : TermTree ⟨bytesOf "1+2*3"⟩ 0 5 (.node .r_term (some (0, 5)) [.node .r_term (some (0, 1)) [.node .r_fact (some (0, 1))
    [ex6Num 0]], .node .r_fact (some (2, 5)) [.node .r_fact (some (2, 3)) [ex6Num 2], ex6Num 4]]) := by
  refine .op (.fact (.digit ⟨49, ?_⟩)) (Or.inl ?_) (.op (.digit ⟨50, ?_⟩) (Or.inl ?_) ⟨51, ?_⟩) <;> exact ⟨by decide, by decide⟩

/-! ## C60: asking for a left-recursive rule again -/

/-- C60: in a grammar with direct left recursion, the same call at the same position gives the same answer whenever it is made. -/
theorem C60_same_answer_again (P : Parser R U) (src : Source) (lr : R → Option (LRDecl R)) (hD : DirectLR P.body lr)
    {k k' : Nat} {st st2 : St R U} (hr : Reached P src (Expr.RefsOK lr) k st) (hr2 : Reached P src (Expr.RefsOK lr) k' st2)
    {e : Expr R} (he : e.RefsOK lr) {n n' p : Nat} {b b' : Bool} {q q' : Nat} {s s' : St R U}
    (h : eval P src n e k p st = .ok (b, q, s)) (h' : eval P src n' e k' p st2 = .ok (b', q', s')) : b = b' ∧ q = q' :=
  (C22_direct_left_recursion_is_iteration P src lr hD hr he h).det
    (C22_direct_left_recursion_is_iteration P src lr hD hr2 he h')

/-- The rules of `g = (e, ';') / (e, '.')`, `e = (e, '-', n) / n`, `n = ['0'..'9']`. -/
inductive Twice where | g | e | n
  deriving DecidableEq

def Twice.body : Twice → Expr Twice
  | .g => .orderedChoice (.subexpression (.sequence (.varNameLR [.e] .e) (.terminal 59)))
      (.subexpression (.sequence (.varNameLR [.e] .e) (.terminal 46)))
  | .e => .orderedChoice (.subexpression (.sequence (.sequence (.varNameLR [.e] .e) (.terminal 45)) (.varName .n))) (.varName .n)
  | .n => .matchRange 48 57

def twiceLR : Twice → Option (LRDecl Twice)
  | .e => some ⟨[.e], .varName .n, .sequence (.terminal 45) (.varName .n)⟩
  | _ => none

theorem direct_twice : DirectLR Twice.body twiceLR := by
  refine .ofCert (rules := [.g, .e, .n]) (by intro r; cases r <;> decide) ?_ ?_ ?_ (fun _ x => x == .n) ?_ (nul := fun _ => false)
    (rank := fun | .n => 0 | .e => 1 | .g => 2) (by decide) ?_
  · intro r d hd
    cases r <;> simp only [twiceLR, reduceCtorEq, Option.some.injEq] at hd
    subst hd
    exact ⟨by simp, _, rfl, .sub (.seq .base)⟩
  · intro r d hd
    cases r <;> simp only [twiceLR, reduceCtorEq, Option.some.injEq] at hd
    subst hd
    simp [Expr.RefsOK, twiceLR]
  · intro r hd
    cases r <;> simp [Expr.RefsOK, twiceLR, Twice.body] at hd ⊢
  · intro r d hd
    cases r <;> simp only [twiceLR, reduceCtorEq, Option.some.injEq] at hd
    subst hd
    refine ⟨fun x hx => ?_, by decide, by decide⟩
    cases x <;> first | rfl | cases hx
  · intro r d hd
    cases r <;> simp only [twiceLR, reduceCtorEq, Option.some.injEq] at hd
    subst hd
    rfl

/-- C60: but a left-recursive rule asked for again at the same position is grown again, and the tree is wrong.  For "1-2." and
the grammar above (where `e` is asked for once per alternative) the second `e` subtree contains an `e` node for `0..1` whose
first child is an `e` node for `0..3`: longer than its parent, with "1-2" below it once more.  For "1-2;", where the first
alternative matches, there is no such node. -/
theorem C60_regrown_tree_is_wrong : DirectLR Twice.body twiceLR ∧
    (∃ t, parse (Parser.plain Twice.body .g) ⟨bytesOf "1-2."⟩ 40 = .ok (true, 4, t) ∧
      ∃ nd c, nd ∈ t.nodes ∧ nd.result = true ∧ nd.rule = .e ∧ (nd.start, nd.stop) = (0, 1) ∧ c ∈ t.nodes ∧ c.rule = .e ∧
        nd.children.head? = some c.index ∧ (c.start, c.stop) = (0, 3) ∧ c.result = true) ∧
    (∃ t, parse (Parser.plain Twice.body .g) ⟨bytesOf "1-2;"⟩ 40 = .ok (true, 4, t) ∧
      ∀ nd ∈ t.nodes, ∀ c ∈ t.nodes, c.index ∈ nd.children → nd.index ≠ 0 → nd.start ≤ c.start ∧ c.stop ≤ nd.stop) := by
  refine ⟨direct_twice, ?_, ?_⟩
  · refine ⟨⟨[⟨0, .g, 0, 0, true, [2]⟩, ⟨1, .g, 0, 0, true, []⟩, ⟨2, .g, 0, 4, true, [3, 7]⟩, ⟨3, .e, 0, 3, true, [4, 6]⟩,
      ⟨4, .e, 0, 1, true, [5]⟩, ⟨5, .n, 0, 1, true, []⟩, ⟨6, .n, 2, 3, true, []⟩, ⟨7, .e, 0, 3, true, [8, 14]⟩,
      ⟨8, .e, 0, 1, true, [9, 13]⟩, ⟨9, .e, 0, 3, true, [10, 12]⟩, ⟨10, .e, 0, 1, true, [11]⟩, ⟨11, .n, 0, 1, true, []⟩,
      ⟨12, .n, 2, 3, true, []⟩, ⟨13, .n, 0, 1, true, []⟩, ⟨14, .n, 2, 3, true, []⟩]⟩, by decide +kernel,
      ⟨8, .e, 0, 1, true, [9, 13]⟩, ⟨9, .e, 0, 3, true, [10, 12]⟩, ?_⟩
    simp
  · refine ⟨⟨[⟨0, .g, 0, 0, true, [2]⟩, ⟨1, .g, 0, 0, true, []⟩, ⟨2, .g, 0, 4, true, [3]⟩, ⟨3, .e, 0, 3, true, [4, 6]⟩,
      ⟨4, .e, 0, 1, true, [5]⟩, ⟨5, .n, 0, 1, true, []⟩, ⟨6, .n, 2, 3, true, []⟩]⟩, by decide +kernel, by decide⟩

end PP
