import Verif.Lemmas.NoOof
import Verif.Lemmas.PegFacts

/-! # Grammars without left recursion: soundness and completeness with respect to PEG semantics -/
set_option linter.unusedSectionVars false
namespace PP
variable {R U : Type} [DecidableEq R] {P : Parser R U} {src : Source}

theorem Good.nextPeg (hh : P.HooksOK src) (hb : ∀ r, (P.body r).Plain) {parent : Nat} {st : St R U}
    (h : Good False P src parent st) {n : Nat} {e : Expr R} (he : e.Plain) {p b q st'}
    (hc : eval P src n e parent p st = .ok (b, q, st')) :
    Good False P src parent st' ∧ Peg P.body src e p b q := by
  obtain ⟨h1, ts, h2⟩ := h.next hh (fun r => Or.inr (hb r).lrFree) (Or.inr he.lrFree) hc
  exact ⟨h1, (h2.pegT hb he).peg⟩

theorem eval_complete (hh : P.HooksOK src) (hb : ∀ r, (P.body r).Plain) {e : Expr R} {p b q}
    (h : Peg P.body src e p b q) (he : e.Plain) : ∃ N, ∀ n, N ≤ n → ∀ parent st, Good False P src parent st →
      eval P src n e parent p st ≠ .oof := by
  have leaf : ∀ (e : Expr R) (p : Nat), (∀ n parent st, eval P src (n + 1) e parent p st ≠ .oof) →
      ∃ N, ∀ n, N ≤ n → ∀ parent st, Good False P src parent st → eval P src n e parent p st ≠ .oof := by
    intro e p h
    refine ⟨1, fun n hn parent st _ => ?_⟩
    obtain ⟨m, rfl⟩ : ∃ m, n = m + 1 := ⟨n - 1, by omega⟩
    exact h m parent st
  induction h with
  | terminal_ok _ _ | terminal_fail _ | range_ok _ _ _ _ | range_fail _ | string_ok _ _ | string_fail _ =>
    exact leaf _ _ fun n parent st => by simp [eval, liftPure]
  | @seq_ok a b p q r h1 _ i1 i2 | @seq_fail2 a b p q r h1 _ i1 i2 =>
    obtain ⟨N1, i1⟩ := i1 he.1
    obtain ⟨N2, i2⟩ := i2 he.2
    refine ⟨N1 + N2 + 1, fun n hn parent st hg => ?_⟩
    obtain ⟨m, rfl⟩ : ∃ m, n = m + 1 := ⟨n - 1, by omega⟩
    refine Out.bind_no_oof (i1 m (by omega) parent st hg) ?_
    rintro ⟨b', q', st'⟩ hc
    obtain ⟨hg', hp⟩ := hg.nextPeg hh hb he.1 hc
    obtain ⟨rfl, rfl⟩ := h1.det hp
    dsimp only
    rw [if_pos rfl]
    refine Out.bind_no_oof (i2 m (by omega) parent st' hg') ?_
    rintro ⟨b'', q'', st''⟩ _
    dsimp only; split <;> simp
  | @seq_fail1 a b p q h1 i1 =>
    obtain ⟨N1, i1⟩ := i1 he.1
    refine ⟨N1 + 1, fun n hn parent st hg => ?_⟩
    obtain ⟨m, rfl⟩ : ∃ m, n = m + 1 := ⟨n - 1, by omega⟩
    refine Out.bind_no_oof (i1 m (by omega) parent st hg) ?_
    rintro ⟨b', q', st'⟩ hc
    obtain ⟨hg', hp⟩ := hg.nextPeg hh hb he.1 hc
    obtain ⟨rfl, rfl⟩ := h1.det hp
    simp
  | @choice_left a b p q h1 i1 =>
    obtain ⟨N1, i1⟩ := i1 he.1
    refine ⟨N1 + 1, fun n hn parent st hg => ?_⟩
    obtain ⟨m, rfl⟩ : ∃ m, n = m + 1 := ⟨n - 1, by omega⟩
    refine Out.bind_no_oof (i1 m (by omega) parent st hg) ?_
    rintro ⟨b', q', st'⟩ hc
    obtain ⟨hg', hp⟩ := hg.nextPeg hh hb he.1 hc
    obtain ⟨rfl, rfl⟩ := h1.det hp
    simp
  | @choice_right a b p q r h1 _ i1 i2 | @choice_fail a b p q r h1 _ i1 i2 =>
    obtain ⟨N1, i1⟩ := i1 he.1
    obtain ⟨N2, i2⟩ := i2 he.2
    refine ⟨N1 + N2 + 1, fun n hn parent st hg => ?_⟩
    obtain ⟨m, rfl⟩ : ∃ m, n = m + 1 := ⟨n - 1, by omega⟩
    refine Out.bind_no_oof (i1 m (by omega) parent st hg) ?_
    rintro ⟨b', q', st'⟩ hc
    obtain ⟨hg', hp⟩ := hg.nextPeg hh hb he.1 hc
    obtain ⟨rfl, rfl⟩ := h1.det hp
    dsimp only
    rw [if_neg (by simp)]
    refine Out.bind_no_oof (i2 m (by omega) parent st' hg') ?_
    rintro ⟨b'', q'', st''⟩ _
    dsimp only; split <;> simp
  | and_ok _ i | and_fail _ i | not_ok _ i | not_fail _ i | opt_some _ i | opt_none _ i | sub_ok _ i | sub_fail _ i =>
    obtain ⟨N, i⟩ := i he
    refine ⟨N + 1, fun n hn parent st hg => ?_⟩
    obtain ⟨m, rfl⟩ : ∃ m, n = m + 1 := ⟨n - 1, by omega⟩
    refine Out.bind_no_oof (i m (by omega) parent st hg) ?_
    rintro ⟨b', q', st'⟩ _
    dsimp only; split <;> simp
  | @plus_fail e p q h1 i =>
    obtain ⟨N, i⟩ := i he
    refine ⟨N + 1, fun n hn parent st hg => ?_⟩
    obtain ⟨m, rfl⟩ : ∃ m, n = m + 1 := ⟨n - 1, by omega⟩
    refine Out.bind_no_oof (i m (by omega) parent st hg) ?_
    rintro ⟨b', q', st'⟩ hc
    obtain ⟨hg', hp⟩ := hg.nextPeg hh hb (e := e) he hc
    obtain ⟨rfl, rfl⟩ := h1.det hp
    simp
  | @star_stop e p q h1 i =>
    obtain ⟨N, i⟩ := i he
    refine ⟨N + 2, fun n hn parent st hg => ?_⟩
    obtain ⟨m, rfl⟩ : ∃ m, n = m + 2 := ⟨n - 2, by omega⟩
    show repeatLoop _ _ (m + 1) _ _ ≠ .oof
    unfold repeatLoop
    refine Out.bind_no_oof (i (m + 1) (by omega) parent st hg) ?_
    rintro ⟨b', q', st'⟩ hc
    obtain ⟨hg', hp⟩ := hg.nextPeg hh hb (e := e) he hc
    obtain ⟨rfl, rfl⟩ := h1.det hp
    simp
  | @star_step e p q r h1 h2 i1 i2 =>
    obtain ⟨N1, i1⟩ := i1 he
    obtain ⟨N2, i2⟩ := i2 he
    refine ⟨N1 + N2 + 2, fun n hn parent st hg => ?_⟩
    obtain ⟨m, rfl⟩ : ∃ m, n = m + 2 := ⟨n - 2, by omega⟩
    show repeatLoop _ _ (m + 1) _ _ ≠ .oof
    unfold repeatLoop
    refine Out.bind_no_oof (i1 (m + 1) (by omega) parent st hg) ?_
    rintro ⟨b', q', st'⟩ hc
    obtain ⟨hg', hp⟩ := hg.nextPeg hh hb (e := e) he hc
    obtain ⟨rfl, rfl⟩ := h1.det hp
    have h3 : repeatLoop (eval P src m e) parent m q st' ≠ .oof := i2 (m + 1) (by omega) parent st' hg'
    have h4 := repeatLoop_le (eval_le P src m (m + 1) (by omega) e) parent m m (by omega) q st'
    rw [← Out.le_eq h4 h3] at h3
    simpa using h3
  | @plus_ok e p q r h1 h2 i1 i2 =>
    obtain ⟨N1, i1⟩ := i1 he
    obtain ⟨N2, i2⟩ := i2 he
    refine ⟨N1 + N2 + 1, fun n hn parent st hg => ?_⟩
    obtain ⟨m, rfl⟩ : ∃ m, n = m + 1 := ⟨n - 1, by omega⟩
    refine Out.bind_no_oof (i1 m (by omega) parent st hg) ?_
    rintro ⟨b', q', st'⟩ hc
    obtain ⟨hg', hp⟩ := hg.nextPeg hh hb (e := e) he hc
    obtain ⟨rfl, rfl⟩ := h1.det hp
    have h3 := i2 (m + 1) (by omega) parent st' hg'
    simpa [eval, zeroOrMoreKernel] using h3
  | ref _ i =>
    obtain ⟨N, i⟩ := i (hb _)
    refine ⟨N + 1, fun n hn parent st hg => ?_⟩
    obtain ⟨m, rfl⟩ : ∃ m, n = m + 1 := ⟨n - 1, by omega⟩
    exact varName_no_oof hg fun parent st hg => i m (by omega) parent st hg
  | inl _ i =>
    obtain ⟨N, i⟩ := i (hb _)
    refine ⟨N + 1, fun n hn parent st hg => ?_⟩
    obtain ⟨m, rfl⟩ : ∃ m, n = m + 1 := ⟨n - 1, by omega⟩
    exact i m (by omega) parent st hg

end PP
