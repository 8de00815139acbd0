import Verif.Model.Depth
import Verif.Spec.Depth
import Verif.Lemmas.Complete
import Verif.Lemmas.PegTotal
import Verif.Lemmas.ParseSpec
import Verif.Lemmas.Gen.ClearConv

/-! # The depth of calls -/
set_option linter.unusedSectionVars false
namespace PP
variable {R U : Type} [DecidableEq R] {P : Parser R U} {src : Source}

/-- Separate limits never change an answer: more fuel of the one kind for both. -/
theorem evalD_le_eval (P : Parser R U) (src : Source) (m : Nat) : ∀ d (e : Expr R),
    PFn.le (evalD P src m d e) (eval P src (m + d) e) := by
  intro d
  induction d with
  | zero => intro e parent pos st; exact Or.inl rfl
  | succ n ih =>
    intro e
    cases e with
    | andPredicate e => exact fun _ _ _ => Out.le_bind (ih e _ _ _) fun _ => Out.le_refl _
    | notPredicate e => exact fun _ _ _ => Out.le_bind (ih e _ _ _) fun _ => Out.le_refl _
    | optional e => exact fun _ _ _ => Out.le_bind (ih e _ _ _) fun _ => Out.le_refl _
    | subexpression e => exact fun _ _ _ => Out.le_bind (ih e _ _ _) fun _ => Out.le_refl _
    | oneOrMore e =>
      intro parent pos st
      refine Out.le_bind (ih e _ _ _) ?_
      rintro ⟨b, q, st'⟩
      cases b
      · exact Or.inr rfl
      · exact repeatLoop_le (ih e) parent m (m + n) (by omega) q st'
    | zeroOrMore e => exact fun parent pos st => repeatLoop_le (ih e) parent m (m + n) (by omega) pos st
    | orderedChoice a b =>
      intro parent pos st
      refine Out.le_bind (ih a _ _ _) ?_
      rintro ⟨v, q, st'⟩
      cases v
      · exact Out.le_bind (ih b _ _ _) fun _ => Out.le_refl _
      · exact Or.inr rfl
    | sequence a b =>
      intro parent pos st
      refine Out.le_bind (ih a _ _ _) ?_
      rintro ⟨v, q, st'⟩
      cases v
      · exact Or.inr rfl
      · exact Out.le_bind (ih b _ _ _) fun _ => Out.le_refl _
    | terminal c => exact PFn.le_refl _
    | stringTerminal d => exact PFn.le_refl _
    | matchRange lo hi => exact PFn.le_refl _
    | varName r => exact varNameKernel_le (ih _) r
    | varNameLR inv r => exact varNameLRKernel_le (ih _) (Nat.le_add_right m n) inv r
    | inlined r => exact fun _ _ _ => ih _ _ _ _
    | hooked name e => exact fun _ _ _ => runHook_le (ih e) _ _ _

theorem eval_le_evalD (P : Parser R U) (src : Source) (m : Nat) : ∀ n, n ≤ m → ∀ (e : Expr R),
    PFn.le (eval P src n e) (evalD P src m n e) := by
  intro n
  induction n with
  | zero => intro _ e parent pos st; exact Or.inl rfl
  | succ n ih =>
    intro hm e
    have ih := ih (by omega)
    cases e with
    | andPredicate e => exact fun _ _ _ => Out.le_bind (ih e _ _ _) fun _ => Out.le_refl _
    | notPredicate e => exact fun _ _ _ => Out.le_bind (ih e _ _ _) fun _ => Out.le_refl _
    | optional e => exact fun _ _ _ => Out.le_bind (ih e _ _ _) fun _ => Out.le_refl _
    | subexpression e => exact fun _ _ _ => Out.le_bind (ih e _ _ _) fun _ => Out.le_refl _
    | oneOrMore e =>
      intro parent pos st
      refine Out.le_bind (ih e _ _ _) ?_
      rintro ⟨b, q, st'⟩
      cases b
      · exact Or.inr rfl
      · exact repeatLoop_le (ih e) parent n m (by omega) q st'
    | zeroOrMore e => exact fun parent pos st => repeatLoop_le (ih e) parent n m (by omega) pos st
    | orderedChoice a b =>
      intro parent pos st
      refine Out.le_bind (ih a _ _ _) ?_
      rintro ⟨v, q, st'⟩
      cases v
      · exact Out.le_bind (ih b _ _ _) fun _ => Out.le_refl _
      · exact Or.inr rfl
    | sequence a b =>
      intro parent pos st
      refine Out.le_bind (ih a _ _ _) ?_
      rintro ⟨v, q, st'⟩
      cases v
      · exact Or.inr rfl
      · exact Out.le_bind (ih b _ _ _) fun _ => Out.le_refl _
    | terminal c => exact PFn.le_refl _
    | stringTerminal d => exact PFn.le_refl _
    | matchRange lo hi => exact PFn.le_refl _
    | varName r => exact varNameKernel_le (ih _) r
    | varNameLR inv r => exact varNameLRKernel_le (ih _) (by omega) inv r
    | inlined r => exact fun _ _ _ => ih _ _ _ _
    | hooked name e => exact fun _ _ _ => runHook_le (ih e) _ _ _

theorem parseD_le_parse (P : Parser R U) (src : Source) (m d : Nat) : (parseD P src m d).le (parse P src (m + d)) := by
  unfold parseD parse
  exact Out.le_bind (evalD_le_eval P src m d _ _ _ _) fun x => Out.le_bind (clearFalse_le _ _ (by omega)) fun t => Out.le_refl _

theorem parse_le_parseD (P : Parser R U) (src : Source) (n : Nat) : (parse P src n).le (parseD P src n n) := by
  unfold parseD parse
  exact Out.le_bind (eval_le_evalD P src n n (Nat.le_refl _) _ _ _ _) fun x => Out.le_refl _

/-! ### Depth of evaluation -/

section
variable {K H W : Nat} {rank : R → Nat}

theorem varNameD_no_oof {m d : Nat} {r : R} {parent p : Nat} {st : St R U} (hg : Good False P src parent st)
    (h : ∀ parent st, Good False P src parent st → evalD P src m d (P.body r) parent p st ≠ .oof) :
    evalD P src m (d + 1) (.varName r) parent p st ≠ .oof := by
  simp only [evalD, varNameKernel]
  split
  · exact Out.bind_no_oof (connect_no_oof _ _ _) (by simp)
  · refine Out.bind_no_oof (reserve_no_oof _ _) ?_
    rintro ⟨ck, st1⟩ h1
    refine Out.bind_no_oof (h _ _ (hg.reserve h1)) ?_
    rintro ⟨b, q, st2⟩ _
    exact Out.bind_no_oof (updateEntry_no_oof _ _ _ _ _) fun _ _ =>
      Out.bind_no_oof (connect_no_oof _ _ _) (by simp)

theorem Expr.height_pos (e : Expr R) : 1 ≤ e.height := by cases e <;> simp [Expr.height]

theorem repeatLoop_depth (hh : P.HooksOK src) (hb : ∀ r, (P.body r).Plain) {e : Expr R} (he : e.Plain) (hne : ¬ MayBeEmpty P.body e)
    {m d : Nat} {parent : Nat} : ∀ l p st, Good False P src parent st → p ≤ src.len → src.len < p + l →
      (∀ q st, p ≤ q → q ≤ src.len → Good False P src parent st → evalD P src m d e parent q st ≠ .oof) →
      repeatLoop (evalD P src m d e) parent l p st ≠ .oof := by
  intro l
  induction l with
  | zero => intro p st _ _ hl; omega
  | succ l ih =>
    intro p st hg hp hl hf
    unfold repeatLoop
    refine Out.bind_no_oof (hf p st (Nat.le_refl _) hp hg) ?_
    rintro ⟨b, q, st'⟩ hc
    have hc' := Out.le_eq (evalD_le_eval P src m d e parent p st) (by rw [hc]; simp)
    rw [hc] at hc'
    obtain ⟨hg', hpeg⟩ := hg.nextPeg hh hb he hc'
    cases b with
    | false => simp
    | true =>
      have h1 := hpeg.bounds.2
      have h2 : q ≠ p := fun h => hne (hpeg.mayBeEmpty rfl h)
      simp only [Bool.not_true, Bool.false_eq_true, if_false]
      exact ih q st' hg' (by omega) (by omega) fun q' st hq' => hf q' st (by omega)

theorem evalD_depth (hh : P.HooksOK src) (hb : ∀ r, (P.body r).Plain) (hloop : ∀ r, NoEmptyLoop P.body (P.body r))
    (hrank : ∀ r r', FirstRef P.body (P.body r) r' → rank r' < rank r) (hW : ∀ r, rank r < W) (hH : ∀ r, (P.body r).height ≤ H)
    {m : Nat} (hm : src.len < m) : ∀ d (e : Expr R), e.Plain → NoEmptyLoop P.body e → ∀ k, (∀ r, FirstRef P.body e r → rank r < k) →
      ∀ p, p ≤ src.len → e.height + ((src.len - p) * (W * H) + k * H) ≤ d → ∀ parent st, Good False P src parent st →
        evalD P src m d e parent p st ≠ .oof := by
  intro d
  induction d with
  | zero => intro e _ _ k _ p _ hd; have := e.height_pos; omega
  | succ d ih =>
    intro e he hne k hk p hp hd parent st hg
    have slice : ∀ {q}, p ≤ q → (src.len - q) * (W * H) ≤ (src.len - p) * (W * H) := fun h => Nat.mul_le_mul_right _ (by omega)
    have drop : ∀ {q}, p < q → q ≤ src.len → (src.len - q) * (W * H) + W * H ≤ (src.len - p) * (W * H) := fun h h' => by
      rw [← Nat.succ_mul]; exact Nat.mul_le_mul_right _ (by omega)
    have next : ∀ {e : Expr R}, e.Plain → ∀ {st b q st'}, Good False P src parent st → evalD P src m d e parent p st = .ok (b, q, st') →
        Good False P src parent st' ∧ Peg P.body src e p b q := by
      intro e he st b q st' hg hc
      have hc' := Out.le_eq (evalD_le_eval P src m d e parent p st) (by rw [hc]; simp)
      rw [hc] at hc'
      exact hg.nextPeg hh hb he hc'
    have loop : ∀ {e : Expr R}, e.Plain → ¬ MayBeEmpty P.body e → NoEmptyLoop P.body e → (∀ r, FirstRef P.body e r → rank r < k) →
        e.height + ((src.len - p) * (W * H) + k * H) ≤ d → ∀ q st, p ≤ q → q ≤ src.len → Good False P src parent st →
        repeatLoop (evalD P src m d e) parent m q st ≠ .oof := by
      intro e he hm' hne hk hd q st hq hql hg
      refine repeatLoop_depth hh hb he hm' m q st hg hql (by omega) fun q' st hq' hl' hg' => ?_
      have := slice (q := q') (by omega)
      exact ih e he hne k hk q' hl' (by omega) parent st hg'
    cases e with
    | terminal c => simp [evalD, liftPure]
    | stringTerminal c => simp [evalD, liftPure]
    | matchRange lo hi => simp [evalD, liftPure]
    | andPredicate e =>
      simp only [Expr.height] at hd
      exact Out.bind_no_oof (ih e he hne k (fun r h => hk r (.andP h)) p hp (by omega) parent st hg) fun a _ => by
        obtain ⟨b, q, st'⟩ := a; dsimp only; split <;> simp
    | notPredicate e =>
      simp only [Expr.height] at hd
      exact Out.bind_no_oof (ih e he hne k (fun r h => hk r (.notP h)) p hp (by omega) parent st hg) fun a _ => by
        obtain ⟨b, q, st'⟩ := a; dsimp only; split <;> simp
    | optional e =>
      simp only [Expr.height] at hd
      exact Out.bind_no_oof (ih e he hne k (fun r h => hk r (.opt h)) p hp (by omega) parent st hg) fun a _ => by
        obtain ⟨b, q, st'⟩ := a; dsimp only; split <;> simp
    | subexpression e =>
      simp only [Expr.height] at hd
      exact Out.bind_no_oof (ih e he hne k (fun r h => hk r (.sub h)) p hp (by omega) parent st hg) fun a _ => by
        obtain ⟨b, q, st'⟩ := a; dsimp only; split <;> simp
    | zeroOrMore e =>
      simp only [Expr.height] at hd
      exact loop (e := e) he hne.1 hne.2 (fun r h => hk r (.star h)) (by omega) p st (Nat.le_refl _) hp hg
    | oneOrMore e =>
      simp only [Expr.height] at hd
      refine Out.bind_no_oof (ih e he hne.2 k (fun r h => hk r (.plus h)) p hp (by omega) parent st hg) ?_
      rintro ⟨b, q, st'⟩ hc
      obtain ⟨hg', hpeg⟩ := next (e := e) he hg hc
      cases b with
      | false => simp
      | true =>
        have := hpeg.bounds.2
        simp only [Bool.not_true, Bool.false_eq_true, if_false]
        exact loop (e := e) he hne.1 hne.2 (fun r h => hk r (.plus h)) (by omega) q st' (by omega) (by omega) hg'
    | orderedChoice a b =>
      simp only [Expr.height] at hd
      refine Out.bind_no_oof (ih a he.1 hne.1 k (fun r h => hk r (.left h)) p hp (by omega) parent st hg) ?_
      rintro ⟨v, q, st'⟩ hc
      obtain ⟨hg', hpeg⟩ := next he.1 hg hc
      cases v with
      | true => simp
      | false =>
        refine Out.bind_no_oof (ih b he.2 hne.2 k (fun r h => hk r (.right h)) p hp (by omega) parent st' hg') fun a _ => ?_
        obtain ⟨b, q, st'⟩ := a; dsimp only; split <;> simp
    | sequence a b =>
      simp only [Expr.height] at hd
      refine Out.bind_no_oof (ih a he.1 hne.1 k (fun r h => hk r (.fst h)) p hp (by omega) parent st hg) ?_
      rintro ⟨v, q, st'⟩ hc
      obtain ⟨hg', hpeg⟩ := next he.1 hg hc
      cases v with
      | false => simp
      | true =>
        have hbd := hpeg.bounds.2
        have : evalD P src m d b parent q st' ≠ .oof := by
          by_cases hq : q = p
          · subst hq
            exact ih b he.2 hne.2 k (fun r h => hk r (.snd (hpeg.mayBeEmpty rfl rfl) h)) q hp (by omega) parent st' hg'
          · have := drop (q := q) (by omega) (by omega)
            exact ih b he.2 hne.2 W (fun r _ => hW r) q (by omega) (by omega) parent st' hg'
        refine Out.bind_no_oof this fun a _ => ?_
        obtain ⟨b, q, st'⟩ := a; dsimp only; split <;> simp
    | varName r =>
      have h1 := hk r .ref
      have h2 : (rank r + 1) * H ≤ k * H := Nat.mul_le_mul_right _ h1
      have h3 := hH r
      rw [Nat.add_mul, Nat.one_mul] at h2
      simp only [Expr.height] at hd
      exact varNameD_no_oof hg fun parent st hg =>
        ih (P.body r) (hb r) (hloop r) (rank r) (fun r' h => hrank r r' h) p hp (by omega) parent st hg
    | inlined r =>
      have h1 := hk r .inl
      have h2 : (rank r + 1) * H ≤ k * H := Nat.mul_le_mul_right _ h1
      have h3 := hH r
      rw [Nat.add_mul, Nat.one_mul] at h2
      simp only [Expr.height] at hd
      exact ih (P.body r) (hb r) (hloop r) (rank r) (fun r' h => hrank r r' h) p hp (by omega) parent st hg
    | varNameLR inv r => exact he.elim
    | hooked name e => exact he.elim

end

/-! ### Depth of `clear_false` -/

theorem Tree.htL_append (ts us : List (Tree R)) : htL (ts ++ us) = max (htL ts) (htL us) := by
  induction ts with
  | nil => simp [htL]
  | cons t ts ih => obtain ⟨r, s, k⟩ := t; simp only [List.cons_append, htL, ih]; omega

theorem clear_depth (self : Publisher R) {ks : List Nat} {ts : List (Tree R)} (h : UnfL self.nodes ks ts) : ∀ n, Tree.htL ts ≤ n →
    ∀ nt parent, (ks.foldlM (fun t i => Publisher.clearFalseKernel self n t parent i) nt : Out _) ≠ .oof := by
  induction h with
  | nil => intro n _ nt parent; simp [List.foldlM, pure]
  | @cons k nd cs ks ts h1 h2 h3 ih1 ih2 =>
    intro n hn nt parent
    simp only [Tree.htL] at hn
    rw [List.foldlM_cons]
    refine Out.bind_no_oof ?_ fun nt' _ => ih2 n (by omega) nt' parent
    obtain ⟨n, rfl⟩ : ∃ m, n = m + 1 := ⟨n - 1, by omega⟩
    unfold Publisher.clearFalseKernel
    refine Out.bind_no_oof (by simp [Publisher.getNode, h1]) fun nd' hnd => ?_
    have : nd' = nd := by simpa [Publisher.getNode, h1] using hnd.symm
    subst this
    split
    · refine Out.bind_no_oof (by unfold Publisher.addNode; split <;> simp) ?_
      rintro ⟨ci, nt1⟩ _
      refine Out.bind_no_oof ?_ fun nt2 _ => ih1 n (by omega) nt2 ci
      unfold Publisher.connect
      split
      · simp
      · exact modify_no_oof _ _ _
    · simp

theorem clear_depth_lower (self : Publisher R) {ks : List Nat} {ts : List (Tree R)} (h : UnfL self.nodes ks ts) : ∀ n nt parent nt',
    (ks.foldlM (fun t i => Publisher.clearFalseKernel self n t parent i) nt : Out _) = .ok nt' → Tree.htL (Tree.prune.pruneL ts) ≤ n := by
  induction h with
  | nil => intro n nt parent nt' _; simp [Tree.prune.pruneL, Tree.htL]
  | @cons k nd cs ks ts h1 h2 h3 ih1 ih2 =>
    intro n nt parent nt' hn
    rw [List.foldlM_cons] at hn
    obtain ⟨nt1, hk, hn⟩ := Out.bind_eq_ok.mp hn
    have j2 := ih2 n _ _ _ hn
    rw [Tree.prune.pruneL, Tree.htL_append]
    refine Nat.max_le.mpr ⟨?_, j2⟩
    cases n with
    | zero => simp [Publisher.clearFalseKernel] at hk
    | succ n =>
      unfold Publisher.clearFalseKernel at hk
      obtain ⟨nd', hnd, hk⟩ := Out.bind_eq_ok.mp hk
      obtain rfl : nd' = nd := by simpa [Publisher.getNode, h1] using hnd.symm
      simp only [Node.spanOf]
      cases hres : nd'.result with
      | false => simp [Tree.prune, Tree.htL]
      | true =>
        by_cases hse : nd'.start = nd'.stop
        · simp [Tree.prune, Tree.htL, hse]
        · rw [hres, if_pos (by simpa using hse)] at hk
          obtain ⟨⟨ci, nt2⟩, _, hk⟩ := Out.bind_eq_ok.mp hk
          obtain ⟨nt3, _, hk⟩ := Out.bind_eq_ok.mp hk
          have j1 := ih1 n _ _ _ hk
          simp only [if_true, Tree.prune, if_neg hse, Tree.htL]
          omega

section
variable {W : Nat} {rank : R → Nat} {body : R → Expr R}

theorem PegT.htL_le (hrank : ∀ r r', FirstRef body (body r) r' → rank r' < rank r) (hW : ∀ r, rank r < W)
    {e : Expr R} {p b q ts} (h : PegT body src e p b q ts) : ∀ k, (∀ r, FirstRef body e r → rank r < k) →
      Tree.htL ts ≤ (src.len - p) * W + k := by
  have slice : ∀ {p q}, p ≤ q → (src.len - q) * W ≤ (src.len - p) * W := fun h => Nat.mul_le_mul_right _ (by omega)
  have drop : ∀ {p q}, p < q → q ≤ src.len → (src.len - q) * W + W ≤ (src.len - p) * W := fun h h' => by
    rw [← Nat.succ_mul]; exact Nat.mul_le_mul_right _ (by omega)
  induction h with
  | terminal_ok | terminal_fail | range_ok | range_fail | string_ok | string_fail => intro k _; simp [Tree.htL]
  | @seq_ok a b p q r ts us h1 h2 i1 i2 | @seq_fail2 a b p q r ts us h1 h2 i1 i2 =>
    intro k hk
    have j1 := i1 k fun r h => hk r (.fst h)
    have hbd := h1.peg.bounds.2
    rw [Tree.htL_append]
    by_cases hq : q = p
    · subst hq
      have j2 := i2 k fun r h => hk r (.snd (h1.peg.mayBeEmpty rfl rfl) h)
      omega
    · have j2 := i2 W fun r _ => hW r
      have := drop (p := p) (q := q) (by omega) (by omega)
      omega
  | seq_fail1 h1 i1 => intro k hk; exact i1 k fun r h => hk r (.fst h)
  | choice_left h1 i1 => intro k hk; exact i1 k fun r h => hk r (.left h)
  | choice_right h1 h2 i1 i2 | choice_fail h1 h2 i1 i2 =>
    intro k hk
    have j1 := i1 k fun r h => hk r (.left h)
    have j2 := i2 k fun r h => hk r (.right h)
    rw [Tree.htL_append]; omega
  | and_ok h1 i1 | and_fail h1 i1 => intro k hk; exact i1 k fun r h => hk r (.andP h)
  | not_ok h1 i1 | not_fail h1 i1 => intro k hk; exact i1 k fun r h => hk r (.notP h)
  | opt_some h1 i1 | opt_none h1 i1 => intro k hk; exact i1 k fun r h => hk r (.opt h)
  | star_stop h1 i1 => intro k hk; exact i1 k fun r h => hk r (.star h)
  | @star_step e p q r ts us h1 h2 i1 i2 =>
    intro k hk
    have j1 := i1 k fun r h => hk r (.star h)
    have j2 := i2 k hk
    have hbd := h1.peg.bounds.2
    have := slice (p := p) (q := q) (by omega)
    rw [Tree.htL_append]; omega
  | @plus_ok e p q r ts us h1 h2 i1 i2 =>
    intro k hk
    have j1 := i1 k fun r h => hk r (.plus h)
    have j2 := i2 k fun r h => hk r (by cases h with | star h => exact .plus h)
    have hbd := h1.peg.bounds.2
    have := slice (p := p) (q := q) (by omega)
    rw [Tree.htL_append]; omega
  | plus_fail h1 i1 => intro k hk; exact i1 k fun r h => hk r (.plus h)
  | sub_ok h1 i1 | sub_fail h1 i1 => intro k hk; exact i1 k fun r h => hk r (.sub h)
  | @ref r p b q ts h1 i1 =>
    intro k hk
    have j := i1 (rank r) fun r' h => hrank r r' h
    have := hk r .ref
    simp only [Tree.mk, Tree.htL]; omega
  | @inl r p b q ts h1 i1 =>
    intro k hk
    have j := i1 (rank r) fun r' h => hrank r r' h
    have := hk r .inl
    omega

end

end PP
