import Verif.Lemmas.Mini.CalcWorld
import Verif.Spec.Mini.Gives
import Verif.Props.Calc1
import Verif.Props.Maths
import Verif.Props.Example2

/-! # What the evaluators compute, for any crate that has what they need -/
namespace PP.Mini
open PP.Gen PP.Calc

theorem shown1 {text : Bytes} {n : Nat} {b : Bool} {q : Nat} {t : Publisher Ex1} (h : parse ex1Parser ⟨text⟩ n = .ok (b, q, t)) :
    ∀ m t', t.clearFalse .r_grammar m = .ok t' → ∀ nd ∈ t'.nodes, nd.rule.Shown := by
  intro m t' ht'
  have hh : ex1Parser.HooksOK ⟨text⟩ := plain_hooksOK _ _ _
  obtain rfl := (C80_clearing_again ex1Parser ⟨text⟩ hh h).2 m t' ht'
  exact store_rules ex1Parser ⟨text⟩ hh h trivial (by intro r; cases r <;> simp [ex1Parser, Parser.plain, Ex1.body, Expr.NamesIn, Ex1.Shown])

theorem shown3 {text : Bytes} {n : Nat} {b : Bool} {q : Nat} {t : Publisher Ex3} (h : parse ex3Parser ⟨text⟩ n = .ok (b, q, t)) :
    ∀ m t', t.clearFalse .r_grammar m = .ok t' → ∀ nd ∈ t'.nodes, nd.rule.Shown := by
  intro m t' ht'
  have hh : ex3Parser.HooksOK ⟨text⟩ := plain_hooksOK _ _ _
  obtain rfl := (C80_clearing_again ex3Parser ⟨text⟩ hh h).2 m t' ht'
  exact store_rules ex3Parser ⟨text⟩ hh h trivial (by intro r; cases r <;> simp [ex3Parser, Parser.plain, Ex3.body, Expr.NamesIn, Ex3.Shown])

theorem shown4 {text : Bytes} {n : Nat} {b : Bool} {q : Nat} {t : Publisher Ex4} (h : parse ex4Parser ⟨text⟩ n = .ok (b, q, t)) :
    ∀ m t', t.clearFalse .r_grammar m = .ok t' → ∀ nd ∈ t'.nodes, nd.rule.Shown := by
  intro m t' ht'
  have hh : ex4Parser.HooksOK ⟨text⟩ := plain_hooksOK _ _ _
  obtain rfl := (C80_clearing_again ex4Parser ⟨text⟩ hh h).2 m t' ht'
  exact store_rules ex4Parser ⟨text⟩ hh h trivial (by intro r; cases r <;> simp [ex4Parser, Parser.plain, Ex4.body, Expr.NamesIn, Ex4.Shown])

theorem evaluates1 {W : World Ex1 Unit} (hc : Computes W.Q ex1Parser W.vn) (H : HasUser (plainItems ++ Ast.calc1LibItems) W.Q)
    (hv : ∀ r, W.vn r = nameOf (variantOf (Files.ex1Enum.map utf8Of) (utf8Of (Files.ex1Name r))))
    (hvar : ∀ v ∈ Files.ex1Enum.map utf8Of, W.Q.isVariant n!"Rules" (nameOf v) = true)
    (htup : ∀ x, Prog.isTuple Ast.core x = false → x ≠ n!"UserState" → W.Q.isTuple x = false) :
    Evaluates W.Q (fun text m => do let x ← parse ex1Parser ⟨text⟩ m; calc1Tree true x.2.2 text m) .i64 := by
  refine evaluates_of hc (fun _ => plain_hooksOK _ _ _) (T := fun t text m => calc1Tree true t text m) ?_
  intro d text m₀ b q t hp n m m' hf hf' h
  refine Sim.mono (calc1_tree_sim (hasCalc1 H hv hvar htup) t text ?_ (shown1 hp) hf hf' h) fun _ _ _ k => k.1
  obtain ⟨_, _, _, h3⟩ := parse_len (lr := True) ex1Parser ⟨text⟩ (plain_hooksOK _ _ _) (fun _ => .inl trivial) hp
  exact Nat.lt_of_le_of_lt h3 (by decide)

theorem evaluates2 {W : World Ex2 Unit} (hc : Computes W.Q ex2Parser W.vn) (H : HasUser (plainItems ++ Ast.calc2LibItems) W.Q)
    (hv : ∀ r, W.vn r = nameOf (variantOf (Files.ex2Enum.map utf8Of) (utf8Of (Files.ex2Name r))))
    (hvar : ∀ v ∈ Files.ex2Enum.map utf8Of, W.Q.isVariant n!"Rules" (nameOf v) = true)
    (htup : ∀ x, Prog.isTuple Ast.core x = false → x ≠ n!"UserState" → W.Q.isTuple x = false) :
    Evaluates W.Q (fun text m => do let x ← parse ex2Parser ⟨text⟩ m; abTree x.2.2 m) .str := by
  refine evaluates_of hc (fun _ => plain_hooksOK _ _ _) (T := fun t text m => abTree t m) ?_
  intro d text m₀ b q t hp n m m' hf hf' h
  refine Sim.mono (ab_tree_sim (hasCalc2 H hv hvar htup) t text ?_ hf hf' h) fun _ _ _ k => k.1
  obtain ⟨_, _, _, h3⟩ := parse_len (lr := True) ex2Parser ⟨text⟩ (plain_hooksOK _ _ _) (fun _ => .inl trivial) hp
  exact Nat.lt_of_le_of_lt h3 (by decide)

theorem evaluates3 {W : World Ex3 Unit} (hc : Computes W.Q ex3Parser W.vn) (H : HasUser (plainItems ++ Ast.calc3LibItems) W.Q)
    (hv : ∀ r, W.vn r = nameOf (variantOf (Files.ex3Enum.map utf8Of) (utf8Of (Files.ex3Name r))))
    (hvar : ∀ v ∈ Files.ex3Enum.map utf8Of, W.Q.isVariant n!"Rules" (nameOf v) = true)
    (htup : ∀ x, Prog.isTuple Ast.core x = false → x ≠ n!"UserState" → W.Q.isTuple x = false) :
    Evaluates W.Q (fun text m => do let x ← parse ex3Parser ⟨text⟩ m; mathsTree ex3Maths true x.2.2 text m) .i64 := by
  refine evaluates_of hc (fun _ => plain_hooksOK _ _ _) (T := fun t text m => mathsTree ex3Maths true t text m) ?_
  intro d text m₀ b q t hp n m m' hf hf' h
  refine Sim.mono (calc3_tree_sim (hasCalc3 H hv hvar htup) t text ?_ (shown3 hp) hf hf' h) fun _ _ _ k => k.1
  obtain ⟨_, _, _, h3⟩ := parse_len (lr := True) ex3Parser ⟨text⟩ (plain_hooksOK _ _ _) (fun _ => .inl trivial) hp
  exact Nat.lt_of_le_of_lt h3 (by decide)

theorem evaluates4 {W : World Ex4 Unit} (hc : Computes W.Q ex4Parser W.vn) (H : HasUser (plainItems ++ Ast.calc4LibItems) W.Q)
    (hv : ∀ r, W.vn r = nameOf (variantOf (Files.ex4Enum.map utf8Of) (utf8Of (Files.ex4Name r))))
    (hvar : ∀ v ∈ Files.ex4Enum.map utf8Of, W.Q.isVariant n!"Rules" (nameOf v) = true)
    (htup : ∀ x, Prog.isTuple Ast.core x = false → x ≠ n!"UserState" → W.Q.isTuple x = false) :
    Evaluates W.Q (fun text m => do let x ← parse ex4Parser ⟨text⟩ m; mathsTree ex4Maths true x.2.2 text m) .i64 := by
  refine evaluates_of hc (fun _ => plain_hooksOK _ _ _) (T := fun t text m => mathsTree ex4Maths true t text m) ?_
  intro d text m₀ b q t hp n m m' hf hf' h
  refine Sim.mono (calc4_tree_sim (hasCalc4 H hv hvar htup) t text ?_ (shown4 hp) hf hf' h) fun _ _ _ k => k.1
  obtain ⟨_, _, _, h3⟩ := parse_len (lr := True) ex4Parser ⟨text⟩ (plain_hooksOK _ _ _) (fun _ => .inl trivial) hp
  exact Nat.lt_of_le_of_lt h3 (by decide)

theorem runCalc_le {Q : Prog} {text : Bytes} {n m : Nat} (hnm : n ≤ m) {v : Val} {h : Heap} (e : runCalc Q n text = .ok v h) :
    runCalc Q m text = .ok v h := by
  have hl : (runCalc Q n text).le (runCalc Q m text) := by
    unfold runCalc
    refine (run_le hnm _ _ _).bind fun w h => ?_
    split
    · exact run_le hnm _ _ _
    · exact .rfl
  rcases hl with h | h
  · rw [e] at h; cases h
  · rw [← h, e]

/-- If the program returns a result, so does the model's parser, and the result is the model's for every large enough bound. -/
theorem returned {R U : Type} [DecidableEq R] {β : Type} {Q : Prog} {P : Parser R U} {T : Publisher R → Bytes → Nat → Out β} {enc : β → Val}
    (he : Evaluates Q (fun text m => do let x ← parse P ⟨text⟩ m; T x.2.2 text m) enc) {text : Bytes} {n : Nat} {v : Val} {h : Heap}
    (e : runCalc Q n text = .ok v h) : ∃ m b q t, parse P ⟨text⟩ m = .ok (b, q, t) ∧
      (∀ M x, m ≤ M → T t text M = .ok x → v = enc x) ∧ (∀ M p, m ≤ M → T t text M ≠ .panic p) := by
  obtain ⟨m, x, h1, h2⟩ := he.sound text n v h e
  rw [Out.bind_eq_ok] at h1
  obtain ⟨⟨b, q, t⟩, hp, ht⟩ := h1
  have hM : ∀ M, m ≤ M → parse P ⟨text⟩ M = .ok (b, q, t) := fun M hM => by
    rw [parse_mono hM (by rw [hp]; simp), hp]
  refine ⟨m, b, q, t, hp, fun M y hm hy => ?_, fun M p hm hy => ?_⟩
  · obtain ⟨N, hN⟩ := he.complete text M y (by rw [hM M hm]; exact hy)
    obtain ⟨h', e'⟩ := hN (max N n) (by omega)
    rw [runCalc_le (Nat.le_max_right N n) e] at e'
    injection e'
  · obtain ⟨k, hk⟩ := (he.panics text).mpr ⟨M, p, by rw [hM M hm]; exact hy⟩
    have hl : (runCalc Q k text).le (runCalc Q (max k n) text) := by
      unfold runCalc
      refine (run_le (Nat.le_max_left ..) _ _ _).bind fun w h => ?_
      split
      · exact run_le (Nat.le_max_left ..) _ _ _
      · exact .rfl
    rw [hk, runCalc_le (Nat.le_max_right k n) e] at hl
    rcases hl with h | h <;> cases h

theorem calculates1 {Q : Prog} (he : Evaluates Q (fun text m => do let x ← parse ex1Parser ⟨text⟩ m; calc1Tree true x.2.2 text m) .i64) :
    ∀ s : Sum1, s.text.length < 2 ^ 32 →
    (∃ m, parse ex1Parser ⟨s.text⟩ m = .panic .keyOverflow) ∨ Gives Q s.text ((s.eval true).map .i64) := by
  intro s hs
  obtain ⟨N, hN⟩ := C64_computes s hs true
  rcases hN N (Nat.le_refl _) with h | h
  · exact .inl ⟨N, h⟩
  · refine .inr ?_
    cases hv : s.eval true with
    | some v =>
      rw [hv] at h
      refine he.complete s.text N v ?_
      simp only [calc1, Out.bind_eq_ok] at h ⊢
      obtain ⟨⟨b, q, t⟩, h1, w, h2, h3⟩ := h
      simp only [Out.ok.injEq, Prod.mk.injEq] at h3
      obtain ⟨-, -, rfl⟩ := h3
      exact ⟨_, h1, h2⟩
    | none =>
      rw [hv] at h
      obtain ⟨p, h⟩ := h
      refine (he.panics s.text).mpr ⟨N, p, ?_⟩
      simp only [calc1] at h
      cases hp : parse ex1Parser ⟨s.text⟩ N with
      | oof => rw [hp] at h; cases h
      | panic p' => rw [hp] at h; rw [show p' = p from by injection h]; rfl
      | ok x =>
        obtain ⟨b, q, t⟩ := x
        rw [hp] at h
        simp only [Out.bind_ok] at h ⊢
        cases ht : calc1Tree true t s.text N with
        | oof => rw [ht] at h; cases h
        | panic p' => rw [ht] at h; rw [show p' = p from by injection h]
        | ok x => rw [ht] at h; cases h

theorem calculates3 {Q : Prog} (he : Evaluates Q (fun text m => do let x ← parse ex3Parser ⟨text⟩ m; mathsTree ex3Maths true x.2.2 text m) .i64) :
    ∀ e : MExpr false, e.text.length < 2 ^ 32 →
    (∃ m, parse ex3Parser ⟨e.text⟩ m = .panic .keyOverflow) ∨ Gives Q e.text ((e.eval true).map .i64) := by
  intro e hs
  obtain ⟨N, hN⟩ := C65_computes e hs true
  rcases hN N (Nat.le_refl _) with h | h
  · exact .inl ⟨N, h⟩
  · refine .inr ?_
    cases hv : e.eval true with
    | some v =>
      rw [hv] at h
      refine he.complete e.text N v ?_
      simp only [calc3, Out.bind_eq_ok] at h ⊢
      obtain ⟨⟨b, q, t⟩, h1, w, h2, h3⟩ := h
      simp only [Out.ok.injEq, Prod.mk.injEq] at h3
      obtain ⟨-, -, rfl⟩ := h3
      exact ⟨_, h1, h2⟩
    | none =>
      rw [hv] at h
      obtain ⟨p, h⟩ := h
      refine (he.panics e.text).mpr ⟨N, p, ?_⟩
      simp only [calc3] at h
      cases hp : parse ex3Parser ⟨e.text⟩ N with
      | oof => rw [hp] at h; cases h
      | panic p' => rw [hp] at h; rw [show p' = p from by injection h]; rfl
      | ok x =>
        obtain ⟨b, q, t⟩ := x
        rw [hp] at h
        simp only [Out.bind_ok] at h ⊢
        cases ht : mathsTree ex3Maths true t e.text N with
        | oof => rw [ht] at h; cases h
        | panic p' => rw [ht] at h; rw [show p' = p from by injection h]
        | ok x => rw [ht] at h; cases h

theorem calculates4 {Q : Prog} (he : Evaluates Q (fun text m => do let x ← parse ex4Parser ⟨text⟩ m; mathsTree ex4Maths true x.2.2 text m) .i64) :
    ∀ e : MExpr true, e.text.length < 2 ^ 32 →
    (∃ m, parse ex4Parser ⟨e.text⟩ m = .panic .keyOverflow) ∨ Gives Q e.text ((e.eval true).map .i64) := by
  intro e hs
  obtain ⟨N, hN⟩ := C66_computes e hs true
  rcases hN N (Nat.le_refl _) with h | h
  · exact .inl ⟨N, h⟩
  · refine .inr ?_
    cases hv : e.eval true with
    | some v =>
      rw [hv] at h
      refine he.complete e.text N v ?_
      simp only [calc4, Out.bind_eq_ok] at h ⊢
      obtain ⟨⟨b, q, t⟩, h1, w, h2, h3⟩ := h
      simp only [Out.ok.injEq, Prod.mk.injEq] at h3
      obtain ⟨-, -, rfl⟩ := h3
      exact ⟨_, h1, h2⟩
    | none =>
      rw [hv] at h
      obtain ⟨p, h⟩ := h
      refine (he.panics e.text).mpr ⟨N, p, ?_⟩
      simp only [calc4] at h
      cases hp : parse ex4Parser ⟨e.text⟩ N with
      | oof => rw [hp] at h; cases h
      | panic p' => rw [hp] at h; rw [show p' = p from by injection h]; rfl
      | ok x =>
        obtain ⟨b, q, t⟩ := x
        rw [hp] at h
        simp only [Out.bind_ok] at h ⊢
        cases ht : mathsTree ex4Maths true t e.text N with
        | oof => rw [ht] at h; cases h
        | panic p' => rw [ht] at h; rw [show p' = p from by injection h]
        | ok x => rw [ht] at h; cases h

theorem exact1 {Q : Prog} (he : Evaluates Q (fun text m => do let x ← parse ex1Parser ⟨text⟩ m; calc1Tree true x.2.2 text m) .i64) :
    ∀ text n v h, Source.IsText ⟨text⟩ → text.length < 2 ^ 32 →
    runCalc Q n text = .ok v h →
    (∃ s : Sum1, s.text <+: text ∧ (∀ u : Sum1, u.text <+: text → u.text.length ≤ s.text.length) ∧ v = .i64 s.val) ∨
    (∀ u : Sum1, ¬ u.text <+: text) ∧ v = .i64 0 := by
  intro text n v h ht hs e
  obtain ⟨m, b, q, t, hp, h1, h2⟩ := returned he e
  obtain ⟨g1, g2⟩ := C64_evaluates ⟨text⟩ ht true hp
  obtain ⟨k1, k2⟩ := C64_longest_sum ⟨text⟩ hs hp
  cases b with
  | true =>
    obtain ⟨s, hs', he'⟩ := g1 rfl
    obtain ⟨s', j1, j2, j3, -⟩ := k1 rfl
    have he' := he' (max m (q + 2)) (by omega)
    have hpre : s.text <+: text := hs' ▸ List.take_prefix ..
    have hlen : s.text.length = q := by
      have : s'.text.length ≤ text.length := j1.length_le
      rw [hs', List.length_take]
      show min q text.length = q
      omega
    cases hv : s.eval true with
    | none => rw [hv] at he'; obtain ⟨p, hp⟩ := he'; exact absurd hp (h2 _ p (by omega))
    | some x =>
      rw [hv] at he'
      refine .inl ⟨s, hpre, fun u hu => by rw [hlen]; exact j3 u hu, ?_⟩
      rw [← (C64_debug_is_exact s hv).2]
      exact h1 _ _ (by omega) he'
  | false => exact .inr ⟨(k2 rfl).2.1, h1 (max m 1) 0 (by omega) (g2 rfl _ (by omega))⟩

theorem exact3 {Q : Prog} (he : Evaluates Q (fun text m => do let x ← parse ex3Parser ⟨text⟩ m; mathsTree ex3Maths true x.2.2 text m) .i64) :
    ∀ text n v h, Source.IsText ⟨text⟩ → text.length < 2 ^ 32 →
    runCalc Q n text = .ok v h →
    ∃ (e : MExpr false) (x : Int), e.text <+: text ∧ (∀ u : MExpr false, u.text <+: text → u.text.length ≤ e.text.length) ∧
      e.val = some x ∧ v = .i64 x := by
  intro text n v h ht hs e
  obtain ⟨m, b, q, t, hp, h1, h2⟩ := returned he e
  obtain ⟨g1, g2⟩ := C65_evaluates ⟨text⟩ ht true hp
  obtain ⟨k1, k2⟩ := C65_longest_expression ⟨text⟩ hs hp
  cases b with
  | true =>
    obtain ⟨s, hs', he'⟩ := g1 rfl
    obtain ⟨s', j1, j2, j3, -⟩ := k1 rfl
    have he' := he' (max m (6 * q + 5)) (by omega)
    have hpre : s.text <+: text := hs' ▸ List.take_prefix ..
    have hlen : s.text.length = q := by
      have : s'.text.length ≤ text.length := j1.length_le
      rw [hs', List.length_take]
      show min q text.length = q
      omega
    cases hv : s.eval true with
    | none => rw [hv] at he'; obtain ⟨p, hp⟩ := he'; exact absurd hp (h2 _ p (by omega))
    | some x =>
      rw [hv] at he'
      exact ⟨s, x, hpre, fun u hu => by rw [hlen]; exact j3 u hu, (C65_debug_is_exact s hv).2, h1 _ _ (by omega) he'⟩
  | false => obtain ⟨p, hp⟩ := g2 rfl (max m 1) (by omega); exact absurd hp (h2 _ p (by omega))

theorem exact4 {Q : Prog} (he : Evaluates Q (fun text m => do let x ← parse ex4Parser ⟨text⟩ m; mathsTree ex4Maths true x.2.2 text m) .i64) :
    ∀ text n v h, Source.IsText ⟨text⟩ → text.length < 2 ^ 32 →
    runCalc Q n text = .ok v h →
    ∃ (e : MExpr true) (x : Int), e.text <+: text ∧ (∀ u : MExpr true, u.text <+: text → u.text.length ≤ e.text.length) ∧
      e.eval true = some x ∧ v = .i64 x := by
  intro text n v h ht hs e
  obtain ⟨m, b, q, t, hp, h1, h2⟩ := returned he e
  obtain ⟨g1, g2⟩ := C66_evaluates ⟨text⟩ ht true hp
  obtain ⟨k1, k2⟩ := C66_longest_expression ⟨text⟩ hs hp
  cases b with
  | true =>
    obtain ⟨s, hs', he'⟩ := g1 rfl
    obtain ⟨s', j1, j2, j3, -⟩ := k1 rfl
    have he' := he' (max m (6 * q + 5)) (by omega)
    have hpre : s.text <+: text := hs' ▸ List.take_prefix ..
    have hlen : s.text.length = q := by
      have : s'.text.length ≤ text.length := j1.length_le
      rw [hs', List.length_take]
      show min q text.length = q
      omega
    cases hv : s.eval true with
    | none => rw [hv] at he'; obtain ⟨p, hp⟩ := he'; exact absurd hp (h2 _ p (by omega))
    | some x =>
      rw [hv] at he'
      exact ⟨s, x, hpre, fun u hu => by rw [hlen]; exact j3 u hu, hv, h1 _ _ (by omega) he'⟩
  | false => obtain ⟨p, hp⟩ := g2 rfl (max m 1) (by omega); exact absurd hp (h2 _ p (by omega))

theorem echoes2 {Q : Prog} (he : Evaluates Q (fun text m => do let x ← parse ex2Parser ⟨text⟩ m; abTree x.2.2 m) .str) :
    ∀ text : Bytes, text.length < 2 ^ 31 →
    ((∀ m, ¬ abWord m <+: text) ∧ Gives Q text (some (.str []))) ∨
    ∃ m, abWord m <+: text ∧ (∀ m', abWord m' <+: text → m' ≤ m) ∧ Gives Q text (some (.str (abWord m))) := by
  intro text hs
  rcases C73_covers text with ⟨h0, h1⟩ | ⟨h0, m, ⟨h1, h2⟩, h3⟩
  · refine .inl ⟨h1, ?_⟩
    obtain ⟨t, e1, -⟩ := C73_rejects ⟨text⟩ (by rw [getChar_small hs]; exact h0) 14 (Nat.le_refl _)
    refine he.complete text 14 [] ?_
    rw [e1]
    simpa using C73_evaluates ⟨text⟩ hs e1 14 (by omega)
  · refine .inr ⟨m, h1, fun m' hm => (h3 m').mp hm, ?_⟩
    obtain ⟨t, e1, -⟩ := C73_accepts ⟨text⟩ hs m h1 h2 (text.length + 14) (Nat.le_refl _)
    refine he.complete text (text.length + 14) (abWord m) ?_
    rw [e1]
    have hl := h1.length_le
    have := C73_evaluates ⟨text⟩ hs e1 (text.length + 14) (by omega)
    show abTree t _ = _
    rw [this]
    exact congrArg _ (List.prefix_iff_eq_take.mp h1).symm

end PP.Mini
