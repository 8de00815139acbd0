import Verif.Lemmas.Depth
import Verif.Lemmas.Term

/-! # The depth of calls with left recursion and hooks

The arguments of Lemmas/Term.lean, for any function that answers as evaluation does or gives up. -/
set_option linter.unusedSectionVars false
namespace PP
variable {R U : Type} [DecidableEq R]

section
variable {P : Parser R U} {src : Source} (hh : P.HooksOK src) {B : Nat} (hB : src.len ≤ B) (rules : List R)
  (univ : List (R × Nat))

theorem le_ok {f : PFn R U} {n : Nat} {e : Expr R} (hle : PFn.le f (eval P src n e)) {parent p : Nat} {st : St R U} {x}
    (h : f parent p st = .ok x) : eval P src n e parent p st = .ok x := by
  have := Out.le_eq (hle parent p st) (by rw [h]; simp)
  rw [this, h]

include hh hB in
theorem growthLoop_give {w : Nat} {r : R} {parent pos m : Nat} {prev : Option (R × Nat)} {f : PFn R U} (hle : PFn.le f (eval P src m (P.body r)))
    (hf : ∀ parent st, Good True P src parent st → wt rules univ st ≤ w → f parent pos st ≠ .oof) :
    ∀ n (last : Bool × Nat) (lk ck : Nat) (st : St R U), GrowInv P src r pos ck st →
      absent univ st * (rules.length + 1) + rules.length ≤ w → pos ≤ last.2 → B - last.2 + 1 ≤ n →
      growthLoop r f parent pos prev n last lk ck st ≠ .oof := by
  intro n
  induction n with
  | zero => intro last lk ck st _ _ _ h; omega
  | succ n ih =>
    intro last lk ck st hg hw hl hn
    obtain ⟨st1, e1, hg1, ha1, hab1, hnext⟩ := growInv_step univ hg
    unfold growthLoop
    rw [e1]
    simp only [Out.bind_ok]
    have hw1 : wt rules univ st1 ≤ w :=
      Nat.le_trans (wt_some_le ha1) (Nat.le_trans (Nat.add_le_add_right (Nat.mul_le_mul_right _ hab1) _) hw)
    refine Out.bind_no_oof (hf ck st1 hg1 hw1) ?_
    rintro ⟨b0, q0, st2⟩ hc
    have hc := le_ok hle hc
    obtain ⟨ck', b, q, st3, h1, h2, h3, h4, h5, h6⟩ := hnext b0 q0 st2 (fun D hi hck hl => by
      have := eval_ctr P src hh (lr := True) (fun _ => Or.inl trivial) m (P.body r) (Or.inl trivial) D st1 ck pos hi hck hl
      rwa [hc] at this)
    dsimp only
    rw [h1]
    dsimp only
    rw [h2]
    simp only [Out.bind_ok]
    split
    · exact Out.bind_no_oof (connect_no_oof _ _ _) (by simp)
    · next hcond =>
      refine Out.bind_no_oof (reserve_no_oof _ _) ?_
      rintro ⟨k, st4⟩ hr
      have hq : last.2 < q := by
        simp only [Bool.or_eq_true, decide_eq_true_eq, not_or, Nat.not_le] at hcond
        exact hcond.2
      have hab4 : absent univ st4 ≤ absent univ st := by
        have : absent univ st4 = absent univ st3 := by unfold absent; rw [reserve_cache hr]
        omega
      refine ih (b, q) ck' k st4 (h6 k st4 hr)
        (Nat.le_trans (Nat.add_le_add_right (Nat.mul_le_mul_right _ hab4) _) hw) ?_ ?_ <;> dsimp only <;> omega

include hh hB in
theorem growth_give {w : Nat} {r : R} {inv : List R} {parent pos m n : Nat} {st : St R U} {f : PFn R U} (hle : PFn.le f (eval P src m (P.body r)))
    (hf : ∀ parent st, Good True P src parent st → wt rules univ st ≤ w → f parent pos st ≠ .oof)
    (hg : Good True P src parent st)
    (hw : univ.countP (fun x => if x.1 = r ∧ x.2 = pos then false else (st.cache.heads x.1 x.2).isNone) *
      (rules.length + 1) + rules.length ≤ w)
    (hn : B - pos + 1 ≤ n) (lastLr : Option (R × Nat)) :
    growthFunction n inv r f lastLr parent pos (st.setActive (some (r, pos))) ≠ .oof := by
  unfold growthFunction
  refine Out.bind_no_oof (reserve_no_oof _ _) ?_
  rintro ⟨k1, st1⟩ h1
  refine Out.bind_no_oof (updateEntry_no_oof _ _ _ _ _) ?_
  rintro st2 h2
  refine Out.bind_no_oof (reserve_no_oof _ _) ?_
  rintro ⟨k2, st3⟩ h3
  obtain ⟨hg4, hab⟩ := growth_no_oof_aux univ (inv := inv) hg h1 h2 h3
  exact growthLoop_give hh hB rules univ hle hf n (false, pos) k1 k2 _ hg4 (by rw [hab]; exact hw) (Nat.le_refl _) hn

include hh hB in
theorem repeat_give {w L m : Nat} {e : Expr R} {f : PFn R U} (hle : PFn.le f (eval P src m e)) (hne : ¬ MayBeEmpty P.body e)
    (hf : ∀ parent p st, Good True P src parent st → wt rules univ st ≤ w → p ≤ B → B - p ≤ L →
      f parent p st ≠ .oof) :
    ∀ n parent p st, Good True P src parent st → wt rules univ st ≤ w → p ≤ B → B - p ≤ L → B - p + 1 ≤ n →
      repeatLoop f parent n p st ≠ .oof := by
  intro n
  induction n with
  | zero => intros; omega
  | succ n ih =>
    intro parent p st hg hw hp hL hn
    unfold repeatLoop
    refine Out.bind_no_oof (hf parent p st hg hw hp hL) ?_
    rintro ⟨b, q, st'⟩ hc
    have hc := le_ok hle hc
    obtain ⟨hg', ⟨ts, hr⟩, hw', _⟩ := hg.nextT hh rules univ hc
    dsimp only
    cases b with
    | false => simp
    | true =>
      rw [if_neg (by simp)]
      have h1 := hr.pos.2
      have h2 : q ≠ p := fun h => hne (hr.mayBeEmpty rfl h)
      exact ih parent q st' hg' (by omega) (by omega) (by omega) (by omega)

include hB in
theorem hook_give {w L m : Nat} {e : Expr R} {f : PFn R U} (hle : PFn.le f (eval P src m e)) {pos : Nat} (hpos : pos ≤ B) (hL : B - pos ≤ L) (hh : P.HooksOK src)
    (hf : ∀ parent p st, Good True P src parent st → wt rules univ st ≤ w → p ≤ B → B - p ≤ L →
      f parent p st ≠ .oof) :
    ∀ (prog : HookProg U) (seen : List Nat), HookOK src.len pos seen prog → ∀ parent st, Good True P src parent st →
      wt rules univ st ≤ w → runHook f parent prog st ≠ .oof := by
  intro prog
  induction prog with
  | ret u b q => intros; simp [runHook]
  | panic => intros; simp [runHook]
  | call u p k ih =>
    intro seen hk parent st hg hw
    cases hk with
    | call h1 h2 h3 =>
      simp only [runHook]
      have hg' : Good True P src parent { st with user := u } := by
        obtain ⟨D, hi, h⟩ := hg
        exact ⟨D, hi.setUser u, h⟩
      refine Out.bind_no_oof (hf parent p _ hg' hw (by omega) (by omega)) ?_
      rintro ⟨b, q, st'⟩ hc
      have hc := le_ok hle hc
      obtain ⟨hg'', ⟨_, hr⟩, hw', _⟩ := hg'.nextT hh rules univ hc
      exact ih st'.user b q _ (h3 st'.user b q hr.pos.1) parent st' hg'' (Nat.le_trans hw' hw)

variable (hrules : ∀ r : R, r ∈ rules) (huniv : ∀ (r : R) p, p ≤ B → (r, p) ∈ univ)

include hh hB hrules huniv in
theorem lr_give {w n : Nat} {r : R} {inv : List R} {m : Nat} {f : PFn R U} (hle : PFn.le f (eval P src n (P.body r))) {parent p : Nat} {st : St R U}
    (hg : Good True P src parent st) (hwt : wt rules univ st ≤ w) (hp : p ≤ B) (hm : B - p + 1 ≤ m)
    (hf : ∀ w', w' < w → ∀ parent st, Good True P src parent st → wt rules univ st ≤ w' → f parent p st ≠ .oof) :
    varNameLRKernel m inv r f parent p st ≠ .oof := by
  cases w with
  | zero =>
    -- no state has weight zero when a descent is possible
    simp only [varNameLRKernel, shouldGrow]
    obtain ⟨D, hi, hk, hl⟩ := hg
    cases ha : st.cache.active with
    | none => simp [wt, ha] at hwt
    | some act =>
      obtain ⟨ar, ap⟩ := act
      obtain ⟨hd, hhd⟩ := hi.active ar ap ha
      simp only [wt, ha, evalCnt, hhd, Nat.le_zero, Nat.add_eq_zero_iff, Nat.mul_eq_zero] at hwt
      have hinner : lrInner r f parent p st ≠ .oof := by
        unfold lrInner
        rw [ha]
        simp only [Cache.ruleInEvalSet, hhd, Out.bind_ok]
        have hns : hd.evalSet.contains r = false := by
          have := List.countP_eq_zero.mp hwt.2 r (hrules r)
          simpa using this
        rw [if_neg (by rw [hns]; simp)]
        split
        · exact Out.bind_no_oof (connectIf_no_oof _ _ _) (by simp)
        · simp
      simp only [Cache.checkHead]
      cases hhr : st.cache.heads r p with
      | some h => simpa using hinner
      | none =>
        have := hwt.1
        simp only [absent] at this
        rcases this with this | this
        · have := List.countP_eq_zero.mp this (r, p) (huniv r p hp)
          simp [hhr] at this
        · omega
  | succ w =>
    simp only [varNameLRKernel, shouldGrow]
    have hf := hf w (by omega)
    have hgr : ∀ lastLr, univ.countP (fun x => if x.1 = r ∧ x.2 = p then false else (st.cache.heads x.1 x.2).isNone) *
        (rules.length + 1) + rules.length ≤ w →
        growthFunction m inv r f lastLr parent p (st.setActive (some (r, p))) ≠ .oof :=
      fun lastLr hw => growth_give hh hB rules univ hle hf hg hw (by omega) lastLr
    obtain ⟨D, hi, hk, hl⟩ := id hg
    cases ha : st.cache.active with
    | none =>
      have h1 := hgr none (by
        have h2 : wt rules univ st = univ.length * (rules.length + 1) + rules.length + 1 := by simp [wt, ha]
        have h3 : univ.countP (fun x => if x.1 = r ∧ x.2 = p then false else (st.cache.heads x.1 x.2).isNone)
          ≤ univ.length := List.countP_le_length
        have := Nat.mul_le_mul_right (rules.length + 1) h3
        omega)
      simpa using h1
    | some act =>
      obtain ⟨ar, ap⟩ := act
      obtain ⟨hd, hhd⟩ := hi.active ar ap ha
      have hwt' : absent univ st * (rules.length + 1) + rules.countP (fun x => hd.evalSet.contains x) ≤ w + 1 := by
        simpa [wt, ha, evalCnt, hhd] using hwt
      have hinner : lrInner r f parent p st ≠ .oof := by
        unfold lrInner
        rw [ha]
        simp only [Cache.ruleInEvalSet, hhd, Out.bind_ok]
        split
        · next hin =>
          refine Out.bind_no_oof (reserve_no_oof _ _) ?_
          rintro ⟨k, st1⟩ hr
          have hc1 := reserve_cache hr
          have hg1 := hg.reserve hr
          refine Out.bind_no_oof (remove_no_oof _ _ _) ?_
          rintro st2 hr2
          have hst2 : st2 = { st1 with
              cache := st1.cache.putHead ar ap { hd with evalSet := hd.evalSet.filter (· ≠ r) } } := by
            simp only [St.removeFromEvalSet, Cache.removeFromEvalSet, hc1, hhd, Out.bind_ok] at hr2
            injection hr2 with hr2
            rw [← hr2, hc1]
          have hg2 : Good True P src k st2 := by
            obtain ⟨D1, hi1, hk1, hl1⟩ := hg1
            subst hst2
            refine ⟨D1, hi1.setCache _ rfl ?_, hk1, hl1⟩
            intro r' p' e
            simp only [Cache.putHead] at e ⊢
            split
            · exact ⟨_, rfl⟩
            · exact hi1.active r' p' e
          have hw2 : wt rules univ st2 ≤ w := by
            have h1 : wt rules univ st2 = absent univ st2 * (rules.length + 1) +
                rules.countP (fun x => (hd.evalSet.filter (· ≠ r)).contains x) := by
              subst hst2
              simp [wt, evalCnt, Cache.putHead, hc1, ha]
            have h2 : absent univ st2 ≤ absent univ st := by
              refine absent_mono fun r' p' h e => ?_
              subst hst2
              simp only [Cache.putHead, hc1]
              split
              · exact ⟨_, rfl⟩
              · exact ⟨h, e⟩
            have h3 : rules.countP (fun x => (hd.evalSet.filter (· ≠ r)).contains x) <
                rules.countP (fun x => hd.evalSet.contains x) := by
              refine countP_lt (y := r) ?_ (hrules r) ?_ hin
              · intro x _ hx
                simp at hx ⊢; exact hx.1
              · simp
            have := Nat.mul_le_mul_right (rules.length + 1) h2
            omega
          refine Out.bind_no_oof (hf _ _ hg2 hw2) ?_
          rintro ⟨b, q, st3⟩ _
          exact Out.bind_no_oof (updateEntry_no_oof _ _ _ _ _) fun _ _ =>
            Out.bind_no_oof (connect_no_oof _ _ _) (by simp)
        · split
          · exact Out.bind_no_oof (connectIf_no_oof _ _ _) (by simp)
          · simp
      simp only [Cache.checkHead]
      cases hhr : st.cache.heads r p with
      | some h => simpa using hinner
      | none =>
        simp only [Cache.ruleInInvolvedSet, hhd, Out.bind_ok]
        split
        · next hx => simpa [hx] using hinner
        · next hx =>
          have h1 := hgr (some (ar, ap)) (by
            have h2 : univ.countP (fun x => if x.1 = r ∧ x.2 = p then false else (st.cache.heads x.1 x.2).isNone)
                < absent univ st := by
              refine countP_lt (y := (r, p)) ?_ (huniv r p hp) (by simp) (by simp [hhr])
              intro x _ hx
              split at hx
              · simp at hx
              · exact hx
            have := Nat.mul_le_mul_right (rules.length + 1) (Nat.succ_le_of_lt h2)
            rw [Nat.succ_mul] at this
            omega)
          simpa [hx] using h1

variable {H W : Nat} {rank : R → Nat}

include hh hB hrules huniv in
/-- Every call keeps or lowers the weight and the number of bytes left; a left-recursive call lowers the weight. -/
theorem evalD_depthLR (hloop : ∀ r, NoEmptyLoop P.body (P.body r))
    (hrank : ∀ r r', FirstRef P.body (P.body r) r' → rank r' < rank r) (hW : ∀ r, rank r < W) (hH : ∀ r, (P.body r).height ≤ H)
    {m : Nat} (hm : B < m) : ∀ d (e : Expr R), NoEmptyLoop P.body e → ∀ k, (∀ r, FirstRef P.body e r → rank r < k) →
      ∀ w p, p ≤ B → e.height + ((w + (B - p)) * (W * H) + k * H) ≤ d → ∀ parent st, Good True P src parent st →
        wt rules univ st ≤ w → evalD P src m d e parent p st ≠ .oof := by
  intro d
  induction d with
  | zero => intro e _ k _ w p _ hd; have := e.height_pos; omega
  | succ d ih =>
    intro e hne k hk w p hp hd parent st hg hwt
    have slice : ∀ {q}, p ≤ q → (w + (B - q)) * (W * H) ≤ (w + (B - p)) * (W * H) := fun h => Nat.mul_le_mul_right _ (by omega)
    have drop : ∀ {v q}, v + (B - q) < w + (B - p) → (v + (B - q)) * (W * H) + W * H ≤ (w + (B - p)) * (W * H) := fun h => by
      rw [← Nat.succ_mul]; exact Nat.mul_le_mul_right _ (by omega)
    have hle := fun e => evalD_le_eval P src m d e
    have next : ∀ {e : Expr R} {st b q st'}, Good True P src parent st → wt rules univ st ≤ w → evalD P src m d e parent p st = .ok (b, q, st') →
        Good True P src parent st' ∧ (∃ ts, Run True P.body src e p b q ts) ∧ wt rules univ st' ≤ w := by
      intro e st b q st' hg hw hc
      obtain ⟨h1, h2, h3, _⟩ := hg.nextT hh rules univ (le_ok (hle e) hc)
      exact ⟨h1, h2, Nat.le_trans h3 hw⟩
    have loop : ∀ {e : Expr R}, ¬ MayBeEmpty P.body e → NoEmptyLoop P.body e → (∀ r, FirstRef P.body e r → rank r < k) →
        e.height + ((w + (B - p)) * (W * H) + k * H) ≤ d → ∀ q st, p ≤ q → q ≤ B → Good True P src parent st → wt rules univ st ≤ w →
        repeatLoop (evalD P src m d e) parent m q st ≠ .oof := by
      intro e hm' hne hk hd q st hq hql hg hw
      refine repeat_give hh hB rules univ (w := w) (L := B - q) (hle e) hm' (fun parent q' st hg hw hq' hL => ?_) m parent q st hg hw hql (Nat.le_refl _)
        (by omega)
      have := slice (q := q') (by omega)
      exact ih e hne k hk w q' hq' (by omega) parent st hg hw
    cases e with
    | terminal c => simp [evalD, liftPure]
    | stringTerminal c => simp [evalD, liftPure]
    | matchRange lo hi => simp [evalD, liftPure]
    | andPredicate e =>
      simp only [Expr.height] at hd
      exact Out.bind_no_oof (ih e hne k (fun r h => hk r (.andP h)) w p hp (by omega) parent st hg hwt) fun a _ => by
        obtain ⟨b, q, st'⟩ := a; dsimp only; split <;> simp
    | notPredicate e =>
      simp only [Expr.height] at hd
      exact Out.bind_no_oof (ih e hne k (fun r h => hk r (.notP h)) w p hp (by omega) parent st hg hwt) fun a _ => by
        obtain ⟨b, q, st'⟩ := a; dsimp only; split <;> simp
    | optional e =>
      simp only [Expr.height] at hd
      exact Out.bind_no_oof (ih e hne k (fun r h => hk r (.opt h)) w p hp (by omega) parent st hg hwt) fun a _ => by
        obtain ⟨b, q, st'⟩ := a; dsimp only; split <;> simp
    | subexpression e =>
      simp only [Expr.height] at hd
      exact Out.bind_no_oof (ih e hne k (fun r h => hk r (.sub h)) w p hp (by omega) parent st hg hwt) fun a _ => by
        obtain ⟨b, q, st'⟩ := a; dsimp only; split <;> simp
    | zeroOrMore e =>
      simp only [Expr.height] at hd
      exact loop (e := e) hne.1 hne.2 (fun r h => hk r (.star h)) (by omega) p st (Nat.le_refl _) hp hg hwt
    | oneOrMore e =>
      simp only [Expr.height] at hd
      refine Out.bind_no_oof (ih e hne.2 k (fun r h => hk r (.plus h)) w p hp (by omega) parent st hg hwt) ?_
      rintro ⟨b, q, st'⟩ hc
      obtain ⟨hg', ⟨ts, hr⟩, hw'⟩ := next (e := e) hg hwt hc
      cases b with
      | false => simp
      | true =>
        have := hr.pos.2
        simp only [Bool.not_true, Bool.false_eq_true, if_false]
        exact loop (e := e) hne.1 hne.2 (fun r h => hk r (.plus h)) (by omega) q st' hr.le (by omega) hg' hw'
    | orderedChoice a b =>
      simp only [Expr.height] at hd
      refine Out.bind_no_oof (ih a hne.1 k (fun r h => hk r (.left h)) w p hp (by omega) parent st hg hwt) ?_
      rintro ⟨v, q, st'⟩ hc
      obtain ⟨hg', _, hw'⟩ := next hg hwt hc
      cases v with
      | true => simp
      | false =>
        refine Out.bind_no_oof (ih b hne.2 k (fun r h => hk r (.right h)) w p hp (by omega) parent st' hg' hw') fun a _ => ?_
        obtain ⟨b, q, st'⟩ := a; dsimp only; split <;> simp
    | sequence a b =>
      simp only [Expr.height] at hd
      refine Out.bind_no_oof (ih a hne.1 k (fun r h => hk r (.fst h)) w p hp (by omega) parent st hg hwt) ?_
      rintro ⟨v, q, st'⟩ hc
      obtain ⟨hg', ⟨ts, hr⟩, hw'⟩ := next hg hwt hc
      cases v with
      | false => simp
      | true =>
        have hbd := hr.pos.2
        have : evalD P src m d b parent q st' ≠ .oof := by
          by_cases hq : q = p
          · subst hq
            exact ih b hne.2 k (fun r h => hk r (.snd (hr.mayBeEmpty rfl rfl) h)) w q hp (by omega) parent st' hg' hw'
          · have := drop (v := w) (q := q) (by omega)
            exact ih b hne.2 W (fun r _ => hW r) w q (by omega) (by omega) parent st' hg' hw'
        refine Out.bind_no_oof this fun a _ => ?_
        obtain ⟨b, q, st'⟩ := a; dsimp only; split <;> simp
    | varName r =>
      have h1 := hk r .ref
      have h2 : (rank r + 1) * H ≤ k * H := Nat.mul_le_mul_right _ h1
      have h3 := hH r
      rw [Nat.add_mul, Nat.one_mul] at h2
      simp only [Expr.height] at hd
      simp only [evalD, varNameKernel]
      split
      · exact Out.bind_no_oof (connect_no_oof _ _ _) (by simp)
      · refine Out.bind_no_oof (reserve_no_oof _ _) ?_
        rintro ⟨ck, st1⟩ h1
        refine Out.bind_no_oof (ih (P.body r) (hloop r) (rank r) (fun r' h => hrank r r' h) w p hp (by omega) _ _ (hg.reserve h1)
          (by rw [wt_congr (reserve_cache h1)]; exact hwt)) ?_
        rintro ⟨b, q, st2⟩ _
        exact Out.bind_no_oof (updateEntry_no_oof _ _ _ _ _) fun _ _ =>
          Out.bind_no_oof (connect_no_oof _ _ _) (by simp)
    | inlined r =>
      have h1 := hk r .inl
      have h2 : (rank r + 1) * H ≤ k * H := Nat.mul_le_mul_right _ h1
      have h3 := hH r
      rw [Nat.add_mul, Nat.one_mul] at h2
      simp only [Expr.height] at hd
      exact ih (P.body r) (hloop r) (rank r) (fun r' h => hrank r r' h) w p hp (by omega) parent st hg hwt
    | varNameLR inv r =>
      simp only [Expr.height] at hd
      simp only [evalD]
      refine lr_give hh hB rules univ hrules huniv (hle (P.body r)) hg hwt hp (by omega) fun w' hw' parent st hg hwt => ?_
      have h1 := drop (v := w') (q := p) (by omega)
      have h2 : (rank r + 1) * H ≤ W * H := Nat.mul_le_mul_right _ (hW r)
      have h3 := hH r
      rw [Nat.add_mul, Nat.one_mul] at h2
      exact ih (P.body r) (hloop r) (rank r) (fun r' h => hrank r r' h) w' p hp (by omega) parent st hg hwt
    | hooked name e =>
      simp only [Expr.height] at hd
      simp only [evalD]
      refine hook_give hB rules univ (w := w) (L := B - p) (hle e) hp (Nat.le_refl _) hh (fun parent q st hg hw hq hL => ?_) _ []
        (hh name p st.user) parent st hg hwt
      have := slice (q := q) (by omega)
      exact ih e hne k (fun r h => hk r (.hook h)) w q hq (by omega) parent st hg hw

end

/-- The weight of any state. -/
theorem wt_le (rules : List R) (univ : List (R × Nat)) (st : St R U) :
    wt rules univ st ≤ univ.length * (rules.length + 1) + rules.length + 1 := by
  unfold wt
  split
  · omega
  · have h1 := Nat.mul_le_mul_right (rules.length + 1) (absent_le univ st)
    have h2 := evalCnt_le rules st
    omega

end PP
