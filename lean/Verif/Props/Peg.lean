import Verif.Lemmas.NoOverflow
import Verif.Lemmas.Complete
import Verif.Lemmas.Reach
import Verif.Lemmas.ParseSpec
import Verif.Props.Safety
import Verif.Spec.Inline
import Verif.Spec.Graph

/-! # Grammars without left recursion: C04, C05, C06, C09, C15

The generated parser against the memo-free PEG semantics of Spec/Peg.lean. -/
set_option linter.unusedSectionVars false
namespace PP
variable {R : Type} [DecidableEq R]

theorem Reached.good {body : R → Expr R} {g : R} {src : Source} (hb : ∀ r, (body r).Plain) {k : Nat} {st : St R Unit}
    (hr : Reached (.plain body g) src Expr.Plain k st) : Good False (.plain body g) src k st :=
  hr.inv (plain_hooksOK _ _ _) (fun r => Or.inr (hb r).lrFree) (fun _ h => Or.inr h.lrFree)

/-! ## C04, C05 -/

/-- C04: whatever calls were made before, a completed call returns the PEG result. -/
theorem C04_memoised_agrees_with_peg (body : R → Expr R) (g : R) (src : Source) (hb : ∀ r, (body r).Plain) {k : Nat}
    {st : St R Unit} (hr : Reached (.plain body g) src Expr.Plain k st) {n : Nat} {e : Expr R} (he : e.Plain) {p : Nat}
    {b : Bool} {q : Nat} {st' : St R Unit} (hc : eval (.plain body g) src n e k p st = .ok (b, q, st')) :
    Peg body src e p b q :=
  ((hr.good hb).nextPeg (plain_hooksOK _ _ _) hb he hc).2

/-- C05: whenever PEG has a result the call returns it, for all large enough fuel, unless the 2^32 node keys run out. -/
theorem C05_peg_result_is_computed (body : R → Expr R) (g : R) (src : Source) (hb : ∀ r, (body r).Plain) {e : Expr R}
    (he : e.Plain) {p : Nat} {b : Bool} {q : Nat} (h : Peg body src e p b q) :
    ∃ N, ∀ n, N ≤ n → ∀ k st, Reached (.plain body g) src Expr.Plain k st →
      (∃ st', eval (.plain body g) src n e k p st = .ok (b, q, st')) ∨
      eval (.plain body g) src n e k p st = .panic .keyOverflow := by
  obtain ⟨N, hN⟩ := eval_complete (P := .plain body g) (plain_hooksOK _ _ src) hb h he
  refine ⟨N, fun n hn k st hr => ?_⟩
  have h1 := hN n hn k st (hr.good hb)
  generalize hx : eval (.plain body g) src n e k p st = x at h1
  cases x with
  | oof => exact absurd rfl h1
  | ok a =>
    obtain ⟨b', q', st'⟩ := a
    obtain ⟨rfl, rfl⟩ := h.det (C04_memoised_agrees_with_peg body g src hb hr he hx)
    exact Or.inl ⟨st', rfl⟩
  | panic y =>
    refine Or.inr ?_
    obtain ⟨D, hi, hk, hl⟩ := hr.good hb
    have hp := eval_ctr (.plain body g) src (plain_hooksOK _ _ _) (fun r => Or.inr (hb r).lrFree) n e (Or.inr he.lrFree)
      D st k p hi hk hl
    rw [hx] at hp
    rcases hp with rfl | rfl
    · rfl
    · exact absurd hx (eval_noUser _ src (plain_hooksCalm _ _ _) n e k p st)

/-- All (rule, position) pairs. -/
def pairs (rules : List R) (len : Nat) : List (R × Nat) :=
  rules.flatMap fun r => (List.range (len + 1)).map fun p => (r, p)

theorem mem_pairs {rules : List R} (hrules : ∀ r, r ∈ rules) {len : Nat} (r : R) (p : Nat) (hp : p ≤ len) :
    (r, p) ∈ pairs rules len := by
  simp only [pairs, List.mem_flatMap, List.mem_map, List.mem_range]
  exact ⟨r, hrules r, p, by omega, rfl⟩

theorem length_pairs (rules : List R) (len : Nat) : (pairs rules len).length = rules.length * (len + 1) := by
  induction rules with
  | nil => simp [pairs]
  | cons r rs ih =>
    simp only [pairs, List.flatMap_cons, List.length_append, List.length_map, List.length_range] at ih ⊢
    rw [ih, List.length_cons, Nat.add_mul]; omega

/-- C05 without the exception: if |rules| * (source length + 1) < 2^32, a fresh context cannot run out of keys, so the
PEG result is returned outright. -/
theorem C05_peg_result_is_computed_small (body : R → Expr R) (g : R) (src : Source) (hb : ∀ r, (body r).Plain)
    (rules : List R) (hrules : ∀ r, r ∈ rules) (hsmall : rules.length * (src.len + 1) < 2 ^ 32) {e : Expr R}
    (he : e.Plain) {p : Nat} (hp : p ≤ src.len) {b : Bool} {q : Nat} (h : Peg body src e p b q) :
    ∃ N, ∀ n, N ≤ n → ∃ st', eval (.plain body g) src n e 0 p (St.new g ()) = .ok (b, q, st') := by
  obtain ⟨N, hN⟩ := C05_peg_result_is_computed body g src hb he h
  refine ⟨N, fun n hn => ?_⟩
  rcases hN n hn 0 _ .init with h1 | h1
  · exact h1
  · exfalso
    obtain ⟨ts, ht⟩ := h.pegT
    refine eval_no_overflow (P := .plain body g) (plain_hooksOK _ _ _) hb (B := src.len) (Nat.le_refl _)
      (univ := pairs rules src.len) (mem_pairs hrules) (by rw [length_pairs]; omega) ht he hp n 0 _ [] good_new ?_ ?_ h1
    · exact ⟨[], by simp, by simp, by simp, by simp [St.new, Publisher.new, Parser.plain]⟩
    · intro x hx; cases hx

/-- Converse direction, for parses from a fresh context: a call returns if and only if PEG has a result. -/
theorem C05_returns_iff_peg_defined (body : R → Expr R) (g : R) (src : Source) (hb : ∀ r, (body r).Plain)
    (rules : List R) (hrules : ∀ r, r ∈ rules) (hsmall : rules.length * (src.len + 1) < 2 ^ 32) {e : Expr R}
    (he : e.Plain) {p : Nat} (hp : p ≤ src.len) (b : Bool) (q : Nat) :
    (∃ n st', eval (.plain body g) src n e 0 p (St.new g ()) = .ok (b, q, st')) ↔ Peg body src e p b q := by
  constructor
  · rintro ⟨n, st', h⟩
    exact C04_memoised_agrees_with_peg body g src hb .init he h
  · intro h
    obtain ⟨N, hN⟩ := C05_peg_result_is_computed_small body g src hb rules hrules hsmall he hp h
    obtain ⟨st', h⟩ := hN N (Nat.le_refl _)
    exact ⟨N, st', h⟩

/-! ## C06 -/

theorem Cleaned.unfolds {g : R} {t : Publisher R} {ts} (h : Cleaned g t ts) :
    t.Unfolds 0 (.node g (some (0, 0)) ts) := by
  obtain ⟨⟨ks, h0, hu⟩, _⟩ := h
  exact Publisher.Unfolds.mk (p := t) h0 hu.unfolds.1.symm hu.unfolds.2

/-- C06: the returned tree is the pruned tree of rule invocations of the memo-free evaluation. -/
theorem C06_tree_is_the_peg_tree (body : R → Expr R) (g : R) (src : Source) (hb : ∀ r, (body r).Plain) {n : Nat}
    {b : Bool} {q : Nat} {t : Publisher R} (hc : parse (.plain body g) src n = .ok (b, q, t)) {b' : Bool} {q' : Nat}
    {ts : List (Tree R)} (hp : PegT body src (.varName g) 0 b' q' ts) :
    b = b' ∧ q = q' ∧ t.Unfolds 0 (.node g (some (0, 0)) (Tree.prune.pruneL ts)) := by
  obtain ⟨ts', hr, hcl⟩ := parse_spec (lr := False) (.plain body g) src (plain_hooksOK _ _ _)
    (fun r => Or.inr (hb r).lrFree) hc
  obtain ⟨rfl, rfl, rfl⟩ := (hr.pegT hb (e := .varName g) trivial).det hp
  exact ⟨rfl, rfl, hcl.unfolds⟩

/-- C06, existence: if the memo-free evaluation has a tree, `parse` returns (it) for all large enough fuel, unless node
keys run out (the returned tree repeats memoised subtrees, see C52). -/
theorem C06_parse_returns_the_peg_tree (body : R → Expr R) (g : R) (src : Source) (hb : ∀ r, (body r).Plain) {b : Bool}
    {q : Nat} {ts : List (Tree R)} (hp : PegT body src (.varName g) 0 b q ts) :
    ∃ N, ∀ n, N ≤ n →
      (∃ t, parse (.plain body g) src n = .ok (b, q, t) ∧
        t.Unfolds 0 (.node g (some (0, 0)) (Tree.prune.pruneL ts))) ∨
      parse (.plain body g) src n = .panic .keyOverflow := by
  obtain ⟨N, hN⟩ := C05_peg_result_is_computed body g src hb (e := .varName g) trivial hp.peg
  have fin : ∀ n, parse (.plain body g) src n ≠ .oof → (∃ t, parse (.plain body g) src n = .ok (b, q, t) ∧
        t.Unfolds 0 (.node g (some (0, 0)) (Tree.prune.pruneL ts))) ∨
      parse (.plain body g) src n = .panic .keyOverflow := by
    intro n h
    generalize hx : parse (.plain body g) src n = x at h
    cases x with
    | oof => exact absurd rfl h
    | ok a =>
      obtain ⟨b', q', t⟩ := a
      obtain ⟨rfl, rfl, ht⟩ := C06_tree_is_the_peg_tree body g src hb hx hp
      exact Or.inl ⟨t, rfl, ht⟩
    | panic y =>
      refine Or.inr ?_
      rcases parse_panic (lr := False) (.plain body g) src (plain_hooksOK _ _ _) (fun r => Or.inr (hb r).lrFree) hx
        with rfl | rfl
      · rfl
      · exfalso
        unfold parse at hx
        generalize hy : eval (.plain body g) src n (.varName g) 0 0 (St.new g ()) = y at hx
        cases y with
        | oof => simp [Parser.plain] at hx hy; rw [hy] at hx; cases hx
        | panic z =>
          simp [Parser.plain] at hx hy; rw [hy] at hx
          cases hx
          exact eval_noUser _ src (plain_hooksCalm _ _ _) n _ _ _ _ hy
        | ok a =>
          obtain ⟨b', q', st⟩ := a
          simp [Parser.plain] at hx hy; rw [hy] at hx
          simp only [Out.bind_ok] at hx
          obtain ⟨ks, ts, hr, h0, hu⟩ := eval_new_root (lr := False) (.plain body g) src (plain_hooksOK _ _ _)
            (fun r => Or.inr (hb r).lrFree) (e := .varName g) (Or.inr trivial) hy
          obtain ⟨N, hN⟩ := clearFalse_spec g st.pub h0 rfl hu
          have h2 := (hN n).2
          generalize hz : st.pub.clearFalse g n = z at hx h2
          cases z with
          | oof => cases hx
          | panic w => simp at hx; subst hx; cases h2
          | ok t => cases hx
  rcases hN N (Nat.le_refl _) 0 _ .init with ⟨st, h1⟩ | h1
  · obtain ⟨ks, ts', hr, h0, hu⟩ := eval_new_root (lr := False) (.plain body g) src (plain_hooksOK _ _ _)
      (fun r => Or.inr (hb r).lrFree) (e := .varName g) (Or.inr trivial) h1
    obtain ⟨M, hM⟩ := clearFalse_spec g st.pub h0 rfl hu
    refine ⟨max N M, fun n hn => fin n ?_⟩
    have h2 : eval (.plain body g) src n (.varName g) 0 0 (St.new g ()) = .ok (b, q, st) := by
      rw [eval_mono (n := N) (by omega) (by intro h; simp [Parser.plain] at h h1; rw [h] at h1; cases h1)]; exact h1
    unfold parse
    simp only [Parser.plain] at h2 ⊢
    rw [h2]
    simp only [Out.bind_ok]
    have := (hM n).1 (by omega)
    generalize st.pub.clearFalse g n = z at this ⊢
    cases z with
    | oof => exact absurd rfl this
    | panic w => simp
    | ok t => simp
  · refine ⟨N, fun n hn => fin n ?_⟩
    have h2 : eval (.plain body g) src n (.varName g) 0 0 (St.new g ()) = .panic .keyOverflow := by
      rw [eval_mono (n := N) (by omega) (by intro h; simp [Parser.plain] at h h1; rw [h] at h1; cases h1)]; exact h1
    unfold parse
    simp only [Parser.plain] at h2 ⊢
    rw [h2]
    simp

/-! ## C09 -/

/-- C09: from a fresh context, at most one node per (rule, position), plus the root. -/
theorem C09_packrat_bound (body : R → Expr R) (g : R) (src : Source) (hb : ∀ r, (body r).Plain) (rules : List R)
    (hrules : ∀ r, r ∈ rules) {n : Nat} {e : Expr R} (he : e.Plain) {p : Nat} (hp : p ≤ src.len) {b : Bool} {q : Nat}
    {st' : St R Unit} (hc : eval (.plain body g) src n e 0 p (St.new g ()) = .ok (b, q, st')) :
    st'.pub.nodes.length ≤ 1 + rules.length * (src.len + 1) := by
  obtain ⟨ts, _, new, n1, n2, n3, n4, n5⟩ := eval_pack (P := .plain body g) (plain_hooksOK _ _ src) hb n e he _ _ _ _ _ _
    good_new hc
  have hsub : new ⊆ pairs rules src.len := by
    rintro ⟨r, p'⟩ hx
    have := n5 _ hx
    exact mem_pairs hrules r p' (by dsimp only at this; omega)
  have := nodup_length_le n1 hsub
  rw [length_pairs] at this
  rw [n4]
  simp [St.new, Publisher.new, Parser.plain]
  omega

/-- C09, per call and in any reachable state: each node added is paid for by a memo entry that did not exist before, and
no (rule, position) is paid for twice. -/
theorem C09_each_pair_evaluated_at_most_once (body : R → Expr R) (g : R) (src : Source) (hb : ∀ r, (body r).Plain)
    {k : Nat} {st : St R Unit} (hr : Reached (.plain body g) src Expr.Plain k st) {n : Nat} {e : Expr R} (he : e.Plain)
    {p : Nat} {b : Bool} {q : Nat} {st' : St R Unit} (hc : eval (.plain body g) src n e k p st = .ok (b, q, st')) :
    ∃ new : List (R × Nat), new.Nodup ∧ st'.pub.nodes.length = st.pub.nodes.length + new.length ∧
      ∀ r p', (r, p') ∈ new ↔ st.cache.check r p' = none ∧ st'.cache.check r p' ≠ none := by
  obtain ⟨ts, _, new, n1, n2, n3, n4, n5⟩ := eval_pack (P := .plain body g) (plain_hooksOK _ _ src) hb n e he _ _ _ _ _ _
    (hr.good hb) hc
  refine ⟨new, n1, n4, fun r p' => ?_⟩
  simp only [Cache.check]
  constructor
  · intro h; exact ⟨n2 _ h, (n3 r p').mpr (Or.inr h)⟩
  · rintro ⟨h1, h2⟩
    rcases (n3 r p').mp h2 with h | h
    · exact absurd h1 h
    · exact h

/-! ## C15 -/

theorem InlineEq.symm {e e' : Expr R} (h : InlineEq e e') : InlineEq e' e := by
  induction h <;> constructor <;> assumption

theorem InlineEq.peg {body body' : R → Expr R} {src : Source} (hbb : ∀ r, InlineEq (body r) (body' r)) {e : Expr R}
    {p b q} (h : Peg body src e p b q) : ∀ {e'}, InlineEq e e' → Peg body' src e' p b q := by
  induction h with
  | terminal_ok h1 h2 => intro e' h; cases h; exact .terminal_ok h1 h2
  | terminal_fail h1 => intro e' h; cases h; exact .terminal_fail h1
  | range_ok h1 h2 h3 h4 => intro e' h; cases h; exact .range_ok h1 h2 h3 h4
  | range_fail h1 => intro e' h; cases h; exact .range_fail h1
  | string_ok h1 h2 => intro e' h; cases h; exact .string_ok h1 h2
  | string_fail h1 => intro e' h; cases h; exact .string_fail h1
  | seq_ok _ _ i1 i2 => intro e' h; cases h with | sequence h1 h2 => exact .seq_ok (i1 h1) (i2 h2)
  | seq_fail1 _ i1 => intro e' h; cases h with | sequence h1 h2 => exact .seq_fail1 (i1 h1)
  | seq_fail2 _ _ i1 i2 => intro e' h; cases h with | sequence h1 h2 => exact .seq_fail2 (i1 h1) (i2 h2)
  | choice_left _ i1 => intro e' h; cases h with | orderedChoice h1 h2 => exact .choice_left (i1 h1)
  | choice_right _ _ i1 i2 => intro e' h; cases h with | orderedChoice h1 h2 => exact .choice_right (i1 h1) (i2 h2)
  | choice_fail _ _ i1 i2 => intro e' h; cases h with | orderedChoice h1 h2 => exact .choice_fail (i1 h1) (i2 h2)
  | and_ok _ i => intro e' h; cases h with | andPredicate h => exact .and_ok (i h)
  | and_fail _ i => intro e' h; cases h with | andPredicate h => exact .and_fail (i h)
  | not_ok _ i => intro e' h; cases h with | notPredicate h => exact .not_ok (i h)
  | not_fail _ i => intro e' h; cases h with | notPredicate h => exact .not_fail (i h)
  | opt_some _ i => intro e' h; cases h with | optional h => exact .opt_some (i h)
  | opt_none _ i => intro e' h; cases h with | optional h => exact .opt_none (i h)
  | star_stop _ i => intro e' h; cases h with | zeroOrMore h => exact .star_stop (i h)
  | star_step _ _ i1 i2 => intro e' h; cases h with | zeroOrMore h => exact .star_step (i1 h) (i2 (.zeroOrMore h))
  | plus_ok _ _ i1 i2 => intro e' h; cases h with | oneOrMore h => exact .plus_ok (i1 h) (i2 (.zeroOrMore h))
  | plus_fail _ i => intro e' h; cases h with | oneOrMore h => exact .plus_fail (i h)
  | sub_ok _ i => intro e' h; cases h with | subexpression h => exact .sub_ok (i h)
  | sub_fail _ i => intro e' h; cases h with | subexpression h => exact .sub_fail (i h)
  | ref _ i => intro e' h; cases h with
    | varName => exact .ref (i (hbb _))
    | mark => exact .inl (i (hbb _))
  | inl _ i => intro e' h; cases h with
    | inlined => exact .inl (i (hbb _))
    | unmark => exact .ref (i (hbb _))

/-- C15: two parsers whose grammars differ only in which references are inlined give the same answers, from any reachable
states of the two. -/
theorem C15_inline_is_transparent (body body' : R → Expr R) (g g' : R) (src : Source) (hb : ∀ r, (body r).Plain)
    (hb' : ∀ r, (body' r).Plain) (hbb : ∀ r, InlineEq (body r) (body' r)) {e e' : Expr R} (he : e.Plain)
    (he' : e'.Plain) (hee : InlineEq e e') {k k' : Nat} {st st' : St R Unit}
    (hr : Reached (.plain body g) src Expr.Plain k st) (hr' : Reached (.plain body' g') src Expr.Plain k' st')
    {n n' p : Nat} {b b' : Bool} {q q' : Nat} {st1 st1' : St R Unit}
    (hc : eval (.plain body g) src n e k p st = .ok (b, q, st1))
    (hc' : eval (.plain body' g') src n' e' k' p st' = .ok (b', q', st1')) : b = b' ∧ q = q' :=
  (InlineEq.peg hbb (C04_memoised_agrees_with_peg body g src hb hr he hc) hee).det
    (C04_memoised_agrees_with_peg body' g' src hb' hr' he' hc')

/-- C15, termination: if one of the two returns, so does the other (for all large enough fuel, unless node keys run out). -/
theorem C15_inline_preserves_termination (body body' : R → Expr R) (g g' : R) (src : Source) (hb : ∀ r, (body r).Plain)
    (hb' : ∀ r, (body' r).Plain) (hbb : ∀ r, InlineEq (body r) (body' r)) {e e' : Expr R} (he : e.Plain)
    (he' : e'.Plain) (hee : InlineEq e e') {k : Nat} {st : St R Unit}
    (hr : Reached (.plain body g) src Expr.Plain k st) {n p : Nat} {b : Bool} {q : Nat} {st1 : St R Unit}
    (hc : eval (.plain body g) src n e k p st = .ok (b, q, st1)) :
    ∃ N, ∀ n', N ≤ n' → ∀ k' st', Reached (.plain body' g') src Expr.Plain k' st' →
      (∃ st1', eval (.plain body' g') src n' e' k' p st' = .ok (b, q, st1')) ∨
      eval (.plain body' g') src n' e' k' p st' = .panic .keyOverflow :=
  C05_peg_result_is_computed body' g' src hb' he'
    (InlineEq.peg hbb (C04_memoised_agrees_with_peg body g src hb hr he hc) hee)

/-! ## The hypotheses are met

`<A> = 'a'; <B> = <A>, (<B> / 'b'); ` with `A` inlined or not, on "aab". -/

inductive PegW where
  | A | B
  deriving DecidableEq
def pegW : PegW → Expr PegW
  | .A => .terminal 97
  | .B => .sequence (.varName .A) (.orderedChoice (.varName .B) (.terminal 98))
def pegW' : PegW → Expr PegW
  | .A => .terminal 97
  | .B => .sequence (.inlined .A) (.orderedChoice (.varName .B) (.terminal 98))

theorem pegW_plain (r : PegW) : (pegW r).Plain := by cases r <;> simp [pegW, Expr.Plain]
theorem pegW'_plain (r : PegW) : (pegW' r).Plain := by cases r <;> simp [pegW', Expr.Plain]
theorem pegW_inlineEq (r : PegW) : InlineEq (pegW r) (pegW' r) := by
  cases r
  · exact .terminal
  · exact .sequence .mark (.orderedChoice .varName .terminal)

example : ∃ st st', eval (.plain pegW .B) ⟨[97, 97, 98]⟩ 20 (.varName .B) 0 0 (St.new .B ()) = .ok (true, 3, st) ∧
    eval (.plain pegW' .B) ⟨[97, 97, 98]⟩ 20 (.varName .B) 0 0 (St.new .B ()) = .ok (true, 3, st') := by
  have h1 : (eval (.plain pegW .B) ⟨[97, 97, 98]⟩ 20 (.varName .B) 0 0 (St.new .B ())).view = some (true, 3) := by
    decide +kernel
  have h2 : (eval (.plain pegW' .B) ⟨[97, 97, 98]⟩ 20 (.varName .B) 0 0 (St.new .B ())).view = some (true, 3) := by
    decide +kernel
  obtain ⟨st, h1⟩ := Out.view_eq h1
  obtain ⟨st', h2⟩ := Out.view_eq h2
  exact ⟨st, st', h1, h2⟩

/-- ... so PEG has this result and this tree, by C04 and C06. -/
example : Peg pegW ⟨[97, 97, 98]⟩ (.varName .B) 0 true 3 := by
  have h1 : (eval (.plain pegW .B) ⟨[97, 97, 98]⟩ 20 (.varName .B) 0 0 (St.new .B ())).view = some (true, 3) := by
    decide +kernel
  obtain ⟨st, h1⟩ := Out.view_eq h1
  exact C04_memoised_agrees_with_peg pegW .B _ pegW_plain .init (e := .varName .B) trivial h1

/-- The DSL grammar of the project itself is such a grammar. -/
theorem dsl_plain (r : Dsl) : (Dsl.body r).Plain := by
  cases r <;> simp [Dsl.body, Expr.Plain]

example : ∀ r, r ∈ Dsl.all := Dsl.mem_all

end PP
