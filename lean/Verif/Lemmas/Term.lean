import Verif.Lemmas.NoOof
import Verif.Spec.WellFormed

/-! # Termination of well-formed grammars, left recursion included -/
set_option linter.unusedSectionVars false
namespace PP
variable {R U : Type}

theorem Run.mayBeEmpty {lr : Prop} {body : R → Expr R} {src : Source} {e : Expr R} {p b q ts}
    (h : Run lr body src e p b q ts) : b = true → q = p → MayBeEmpty body e := by
  induction h with
  | terminal_ok => intros; omega
  | range_ok => intros; omega
  | @string_ok d p _ _ =>
    intro _ h
    have : d = [] := List.eq_nil_of_length_eq_zero (by omega)
    subst this; exact .string
  | seq_ok h1 h2 i1 i2 =>
    intro _ h
    have := h1.le; have := h2.le
    exact .seq (i1 rfl (by omega)) (i2 rfl (by omega))
  | choice_left _ i => intro _ h; exact .left (i rfl h)
  | choice_right _ _ _ i => intro _ h; exact .right (i rfl h)
  | and_ok => intros; exact .andP
  | not_ok => intros; exact .notP
  | opt_some => intros; exact .opt
  | opt_none => intros; exact .opt
  | star_stop => intros; exact .star
  | star_step => intros; exact .star
  | plus_ok h1 h2 i1 i2 =>
    intro _ h
    have := h1.le; have := h2.le
    exact .plus (i1 rfl (by omega))
  | sub_ok _ i => intro _ h; exact .sub (i rfl h)
  | ref _ i => intro hb h; exact .ref (i hb h)
  | inl _ i => intro hb h; exact .inl (i hb h)
  | lr_node _ _ i => intro hb h; exact .lr (i hb h)
  | lr_dup _ _ i => intro hb h; exact .lr (i hb h)
  | hook_call _ _ _ _ i => exact i
  | hook_ok _ _ i _ => intro _ h; exact .hook (i rfl h)
  | _ => intro hb; cases hb

theorem countP_lt {α : Type} {l : List α} {f g : α → Bool} (h : ∀ x ∈ l, f x = true → g x = true) {y : α} (hy : y ∈ l)
    (hf : f y = false) (hg : g y = true) : l.countP f < l.countP g := by
  induction l with
  | nil => simp at hy
  | cons a l ih =>
    have hle : l.countP f ≤ l.countP g := List.countP_mono_left fun x hx => h x (by simp [hx])
    rw [List.countP_cons, List.countP_cons]
    rcases List.mem_cons.mp hy with rfl | hy
    · simp [hf, hg]; omega
    · have := ih (fun x hx => h x (by simp [hx])) hy
      have h2 := h a (by simp)
      split
      · next ha => rw [if_pos (h2 ha)]; omega
      · omega

variable [DecidableEq R]

/-- Number of (rule, position) pairs without a head. -/
def absent (univ : List (R × Nat)) (st : St R U) : Nat := univ.countP fun x => (st.cache.heads x.1 x.2).isNone

/-- Number of rules in the evaluation set of the active head. -/
def evalCnt (rules : List R) (st : St R U) : Nat :=
  match st.cache.active with
  | none => 0
  | some (r, p) =>
    match st.cache.heads r p with
    | none => 0
    | some h => rules.countP fun x => h.evalSet.contains x

/-- The weight that every left-recursive descent decreases. -/
def wt (rules : List R) (univ : List (R × Nat)) (st : St R U) : Nat :=
  match st.cache.active with
  | none => univ.length * (rules.length + 1) + rules.length + 1
  | some _ => absent univ st * (rules.length + 1) + evalCnt rules st

theorem absent_le (univ : List (R × Nat)) (st : St R U) : absent univ st ≤ univ.length := List.countP_le_length

theorem evalCnt_le (rules : List R) (st : St R U) : evalCnt rules st ≤ rules.length := by
  unfold evalCnt
  split
  · omega
  · split
    · omega
    · exact List.countP_le_length

theorem absent_mono {univ : List (R × Nat)} {st st' : St R U}
    (h : ∀ r p hd, st.cache.heads r p = some hd → ∃ h', st'.cache.heads r p = some h') : absent univ st' ≤ absent univ st := by
  refine List.countP_mono_left fun x _ hx => ?_
  cases e : st.cache.heads x.1 x.2 with
  | none => rfl
  | some hd =>
    obtain ⟨h', e'⟩ := h _ _ _ e
    rw [e'] at hx; simp at hx

theorem absent_keep {univ : List (R × Nat)} {st st' : St R U} (h : Keep st st') : absent univ st' ≤ absent univ st :=
  absent_mono fun r p hd e => by
    obtain ⟨h', e', _⟩ := h.heads r p hd e
    exact ⟨h', e'⟩

theorem wt_keep {rules : List R} {univ : List (R × Nat)} {st st' : St R U} (h : Keep st st')
    (ha : ∀ r p, st.cache.active = some (r, p) → ∃ h, st.cache.heads r p = some h) :
    wt rules univ st' ≤ wt rules univ st := by
  unfold wt
  rw [h.active]
  cases e : st.cache.active with
  | none => exact Nat.le_refl _
  | some a =>
    obtain ⟨r, p⟩ := a
    dsimp only
    have h1 := absent_keep (univ := univ) h
    have h2 : evalCnt rules st' ≤ evalCnt rules st := by
      obtain ⟨hd, e1⟩ := ha r p e
      obtain ⟨h', e2, h3⟩ := h.heads r p hd e1
      have h3 := (h3 (by simp [e])).2
      unfold evalCnt
      rw [h.active, e]
      dsimp only
      rw [e1, e2]
      dsimp only
      refine List.countP_mono_left fun x _ hx => ?_
      have : x ∈ h'.evalSet := by simpa using hx
      simpa using h3.subset this
    exact Nat.add_le_add (Nat.mul_le_mul_right _ h1) h2

theorem wt_congr {rules : List R} {univ : List (R × Nat)} {st st' : St R U} (h : st'.cache = st.cache) :
    wt rules univ st' = wt rules univ st := by
  unfold wt absent evalCnt; rw [h]

theorem wt_some_le {rules : List R} {univ : List (R × Nat)} {st : St R U} {a} (h : st.cache.active = some a) :
    wt rules univ st ≤ absent univ st * (rules.length + 1) + rules.length := by
  unfold wt; rw [h]
  exact Nat.add_le_add_left (evalCnt_le _ _) _

/-- Calls keep states good, obey the run relation and do not raise the weight. -/
theorem Good.nextT {P : Parser R U} {src : Source} (hh : P.HooksOK src) {parent : Nat} {st : St R U}
    (h : Good True P src parent st) (rules : List R) (univ : List (R × Nat)) {n : Nat} {e : Expr R} {p b q st'}
    (hc : eval P src n e parent p st = .ok (b, q, st')) :
    Good True P src parent st' ∧ (∃ ts, Run True P.body src e p b q ts) ∧ wt rules univ st' ≤ wt rules univ st ∧
      Keep st st' := by
  obtain ⟨D, hi, hk, hl⟩ := h
  have := eval_ctr P src hh (lr := True) (fun _ => Or.inl trivial) n e (Or.inl trivial) D st parent p hi hk hl
  rw [hc] at this
  obtain ⟨D', ks, ts, h1, h2, h3, h4, h5, h6⟩ := this
  refine ⟨⟨D', h1, fun h => ?_, Nat.lt_of_lt_of_le hl h2.len⟩, ⟨ts, h6⟩, wt_keep h3 hi.active, h3⟩
  rcases h2.fresh _ h with h | h
  · exact hk h
  · omega

theorem reserve_cache {st st' : St R U} {r : R} {k : Nat} (h : st.reserve r = .ok (k, st')) : st'.cache = st.cache := by
  rcases reserve_cases st r with e | e
  · rw [e] at h; cases h
  · rw [e] at h
    injection h with h
    obtain ⟨_, rfl⟩ := Prod.mk.inj h
    rfl

section
variable {P : Parser R U} {src : Source} (hh : P.HooksOK src) {B : Nat} (hB : src.len ≤ B) (rules : List R)
  (univ : List (R × Nat))

/-- Evaluating `e` from any good state of weight at most `w`, with at most `L` positions left, does not run out of fuel. -/
def Halts (P : Parser R U) (src : Source) (B : Nat) (rules : List R) (univ : List (R × Nat)) (w L : Nat) (e : Expr R) :
    Prop :=
  ∃ N, ∀ n, N ≤ n → ∀ parent p st, Good True P src parent st → wt rules univ st ≤ w → p ≤ B → B - p ≤ L →
    eval P src n e parent p st ≠ .oof

/-- The state of a growth loop between two iterations. -/
def GrowInv (P : Parser R U) (src : Source) (r : R) (pos ck : Nat) (st : St R U) : Prop :=
  ∃ D nd, Inv True P.body src D st ∧ ¬ D ck ∧ ck ≠ 0 ∧ st.pub.nodes[ck]? = some nd ∧ nd.rule = r ∧ nd.children = [] ∧
    st.cache.active = some (r, pos)

/-- One iteration of the growth loop, up to the update of the node. -/
theorem growInv_step {r : R} {pos ck : Nat} {st : St R U} (hg : GrowInv P src r pos ck st) :
    ∃ st1, st.reinitializeEvalSet r pos = .ok st1 ∧ Good True P src ck st1 ∧ st1.cache.active = some (r, pos) ∧
      absent univ st1 ≤ absent univ st ∧
      ∀ b0 q0 st2, (∀ D, Inv True P.body src D st1 → ¬ D ck → ck < st1.pub.nodes.length →
          Post True P.body src D st1 ck (Run True P.body src (P.body r) pos) (.ok (b0, q0, st2))) →
        ∃ ck' b q st3, growthPick st2 r pos ck b0 q0 = (ck', b, q) ∧ st2.updateEntry ck' b pos q = .ok st3 ∧
          st3.cache = st2.cache ∧ absent univ st3 ≤ absent univ st1 ∧ (q = pos ∨ (pos < q ∧ q ≤ src.len)) ∧
          ∀ k st4, st3.reserve r = .ok (k, st4) → GrowInv P src r pos k st4 := by
  obtain ⟨D, nd, hi, hck, hck0, hnd, hndr, hndc, ha⟩ := hg
  obtain ⟨hd, hhd⟩ := hi.active r pos ha
  have hre : st.reinitializeEvalSet r pos =
      .ok { st with cache := st.cache.putHead r pos { hd with evalSet := hd.involved } } := by
    simp [St.reinitializeEvalSet, Cache.reinitializeEvalSet, hhd]
  have hi1 := hi.setCache (st.cache.putHead r pos { hd with evalSet := hd.involved }) rfl (by
    intro r' p' e
    simp only [Cache.putHead] at e ⊢
    split
    · exact ⟨_, rfl⟩
    · exact hi.active r' p' e)
  refine ⟨_, hre, ⟨D, hi1, hck, lt_of_getElem?_some hnd⟩, ha, ?_, ?_⟩
  · refine absent_mono fun r' p' h e => ?_
    simp only [Cache.putHead]
    split
    · exact ⟨_, rfl⟩
    · exact ⟨h, e⟩
  have hnd1 : ({ st with cache := st.cache.putHead r pos { hd with evalSet := hd.involved } } : St R U).pub.nodes[ck]?
      = some nd := hnd
  have ha1 : ({ st with cache := st.cache.putHead r pos { hd with evalSet := hd.involved } } : St R U).cache.active
      = some (r, pos) := ha
  generalize ({ st with cache := st.cache.putHead r pos { hd with evalSet := hd.involved } } : St R U) = st1 at *
  intro b0 q0 st2 hpost
  obtain ⟨D2, ks, ts, hi2, hs2, hk2, hks, hu2, hrun⟩ := hpost D hi1 hck (lt_of_getElem?_some hnd1)
  have hck2 : ¬ D2 ck := fun h => by
    rcases hs2.fresh ck h with h | h
    · exact hck h
    · have := lt_of_getElem?_some hnd1; omega
  have hnd2 := hs2.par nd hnd1
  rw [hndc, List.nil_append] at hnd2
  have key : ∃ ck' b q st3 D3 t3,
      growthPick st2 r pos ck b0 q0 = (ck', b, q) ∧
      st2.updateEntry ck' b pos q = .ok st3 ∧ st3.cache = st2.cache ∧
      Inv True P.body src D3 st3 ∧ MemoOK True P.body src r pos b q t3 := by
    unfold growthPick Cache.check
    cases hm : st2.cache.memo r pos with
    | none =>
      obtain ⟨hi3, hu3, hst3⟩ := hi2.finish hck2 hck0 hnd2 hu2 b0 pos q0
      exact ⟨ck, b0, q0, _, _, _, rfl, updateEntry_eq hnd2 b0 pos q0, rfl, hi3, Or.inl ⟨ts, hrun, rfl⟩⟩
    | some v =>
      obtain ⟨mb, mq, mk⟩ := v
      obtain ⟨hmk, t, hut, hok⟩ := hi2.memo r pos mb mq mk hm
      obtain ⟨ndm, hndm⟩ := exists_getElem? (hi2.bound mk hmk)
      have hsp : ndm.spanOf = if mb then some (pos, mq) else none := by
        cases hut with
        | cons e1 _ _ =>
          rw [hndm] at e1
          obtain rfl := Option.some.inj e1
          rcases hok with ⟨ts', _, ht⟩ | ⟨_, rfl, rfl, ht⟩
          · simp only [Tree.mk, Tree.node.injEq] at ht; exact ht.2.1
          · simp only [Tree.mk, Tree.node.injEq] at ht; simpa using ht.2.1
      obtain ⟨hi3, hst3, hsim⟩ := hi2.rewrite hndm hsp
      exact ⟨mk, mb, mq, _, D2, t, rfl, updateEntry_eq hndm mb pos mq, rfl, hi3, hok⟩
  obtain ⟨ck', b, q, st3, D3, t3, he1, he2, hc3, hi3, hm3⟩ := key
  refine ⟨ck', b, q, st3, he1, he2, hc3, ?_, ?_, ?_⟩
  · have : absent univ st3 = absent univ st2 := by unfold absent; rw [hc3]
    rw [this]; exact absent_keep hk2
  · rcases hm3 with ⟨ts', h, _⟩ | ⟨_, _, h, _⟩
    · exact h.pos.2
    · exact Or.inl h
  · intro k st4 hr
    have hc := reserve_cache hr
    rcases reserve_cases st3 r with e | e
    · rw [e] at hr; cases hr
    · rw [e] at hr
      injection hr with hr
      obtain ⟨rfl, rfl⟩ := Prod.mk.inj hr
      refine ⟨D3, blank st3.pub.nodes.length r, hi3.reserve r, ?_, ?_, by simp, rfl, rfl, ?_⟩
      · intro h; have := hi3.bound _ h; omega
      · have := hi3.pos; omega
      · rw [hc, hc3, hk2.active, ha1]

include hh hB in
theorem growthLoop_no_oof {w : Nat} {r : R} {parent pos m : Nat} {prev : Option (R × Nat)}
    (hf : ∀ parent st, Good True P src parent st → wt rules univ st ≤ w → eval P src m (P.body r) parent pos st ≠ .oof) :
    ∀ n (last : Bool × Nat) (lk ck : Nat) (st : St R U), GrowInv P src r pos ck st →
      absent univ st * (rules.length + 1) + rules.length ≤ w → pos ≤ last.2 → B - last.2 + 1 ≤ n →
      growthLoop r (eval P src m (P.body r)) parent pos prev n last lk ck st ≠ .oof := by
  intro n
  induction n with
  | zero => intro last lk ck st _ _ _ h; omega
  | succ n ih =>
    intro last lk ck st hg hw hl hn
    obtain ⟨st1, e1, hg1, ha1, hab1, hnext⟩ := growInv_step univ hg
    unfold growthLoop
    rw [e1]
    simp only [Out.bind_ok]
    have hw1 : wt rules univ st1 ≤ w :=
      Nat.le_trans (wt_some_le ha1) (Nat.le_trans (Nat.add_le_add_right (Nat.mul_le_mul_right _ hab1) _) hw)
    refine Out.bind_no_oof (hf ck st1 hg1 hw1) ?_
    rintro ⟨b0, q0, st2⟩ hc
    obtain ⟨ck', b, q, st3, h1, h2, h3, h4, h5, h6⟩ := hnext b0 q0 st2 (fun D hi hck hl => by
      have := eval_ctr P src hh (lr := True) (fun _ => Or.inl trivial) m (P.body r) (Or.inl trivial) D st1 ck pos hi hck hl
      rwa [hc] at this)
    dsimp only
    rw [h1]
    dsimp only
    rw [h2]
    simp only [Out.bind_ok]
    split
    · exact Out.bind_no_oof (connect_no_oof _ _ _) (by simp)
    · next hcond =>
      refine Out.bind_no_oof (reserve_no_oof _ _) ?_
      rintro ⟨k, st4⟩ hr
      have hq : last.2 < q := by
        simp only [Bool.or_eq_true, decide_eq_true_eq, not_or, Nat.not_le] at hcond
        exact hcond.2
      have hab4 : absent univ st4 ≤ absent univ st := by
        have : absent univ st4 = absent univ st3 := by unfold absent; rw [reserve_cache hr]
        omega
      refine ih (b, q) ck' k st4 (h6 k st4 hr)
        (Nat.le_trans (Nat.add_le_add_right (Nat.mul_le_mul_right _ hab4) _) hw) ?_ ?_ <;> dsimp only <;> omega

theorem growth_no_oof_aux {r : R} {parent pos : Nat} {st : St R U} {inv : List R} (hg : Good True P src parent st)
    {k1 k2 : Nat} {st1 st2 st3 : St R U}
    (h1 : (st.setActive (some (r, pos))).reserve r = .ok (k1, st1)) (h2 : st1.updateEntry k1 false 0 0 = .ok st2)
    (h3 : st2.reserve r = .ok (k2, st3)) :
    GrowInv P src r pos k2 (st3.setHead pos r (toBTreeSet inv)) ∧
      absent univ (st3.setHead pos r (toBTreeSet inv)) =
        univ.countP (fun x => if x.1 = r ∧ x.2 = pos then false else (st.cache.heads x.1 x.2).isNone) := by
  obtain ⟨D, hi, hk, hl⟩ := hg
  have hpos := hi.pos
  rcases reserve_cases (st.setActive (some (r, pos))) r with e | e
  · rw [e] at h1; cases h1
  rw [e] at h1
  injection h1 with h1
  obtain ⟨rfl, rfl⟩ := Prod.mk.inj h1
  have hlen : (st.setActive (some (r, pos))).pub.nodes = st.pub.nodes := rfl
  rw [hlen] at h2
  have hi1 := hi.reserve r
  have hnb : (st.pub.nodes ++ [blank st.pub.nodes.length r])[st.pub.nodes.length]? = some (blank st.pub.nodes.length r) := by
    simp
  have hkD : ¬ D st.pub.nodes.length := fun h => by have := hi.bound _ h; omega
  rw [updateEntry_eq (st := { st.setActive (some (r, pos)) with pub := _ }) hnb false 0 0] at h2
  injection h2 with h2
  obtain ⟨hi2, _, _⟩ := hi1.finish hkD (by omega) (nd := blank st.pub.nodes.length r) (by simpa using hnb)
    (ts := []) .nil false 0 0
  generalize hst2 : ({ st with pub := { nodes := st.pub.nodes ++ [blank st.pub.nodes.length r] } } : St R U).updated
    st.pub.nodes.length (blank st.pub.nodes.length r) false 0 0 = st2' at *
  have hc2 : st2'.cache = st.cache := by subst hst2; rfl
  have heq : st2 = st2'.setActive (some (r, pos)) := by
    subst h2; subst hst2; rfl
  subst heq
  clear h2 hst2
  rcases reserve_cases (st2'.setActive (some (r, pos))) r with e2 | e2
  · rw [e2] at h3; cases h3
  rw [e2] at h3
  injection h3 with h3
  obtain ⟨rfl, rfl⟩ := Prod.mk.inj h3
  have hlen2 : (st2'.setActive (some (r, pos))).pub.nodes = st2'.pub.nodes := rfl
  have hi4 := (hi2.reserve r).setCache ((st2'.cache.setActive (some (r, pos))).setHead pos r (toBTreeSet inv)) rfl (by
    intro r' p' e
    simp only [Cache.setHead, Cache.putHead, Cache.setActive, Option.some.injEq, Prod.mk.injEq] at e ⊢
    simp [e.1, e.2])
  refine ⟨⟨_, blank st2'.pub.nodes.length r, hi4, ?_, ?_, by simp [St.setHead, hlen2], rfl, rfl, rfl⟩, ?_⟩
  · rw [hlen2]; intro h
    have := hi2.bound _ h; omega
  · rw [hlen2]; have := hi2.pos; omega
  · unfold absent
    congr 1
    funext x
    simp only [St.setHead, St.setActive, Cache.setHead, Cache.putHead, Cache.setActive, hc2]
    split <;> simp

include hh hB in
theorem growth_no_oof {w : Nat} {r : R} {inv : List R} {parent pos m n : Nat} {st : St R U}
    (hf : ∀ parent st, Good True P src parent st → wt rules univ st ≤ w → eval P src m (P.body r) parent pos st ≠ .oof)
    (hg : Good True P src parent st)
    (hw : univ.countP (fun x => if x.1 = r ∧ x.2 = pos then false else (st.cache.heads x.1 x.2).isNone) *
      (rules.length + 1) + rules.length ≤ w)
    (hn : B - pos + 1 ≤ n) (lastLr : Option (R × Nat)) :
    growthFunction n inv r (eval P src m (P.body r)) lastLr parent pos (st.setActive (some (r, pos))) ≠ .oof := by
  unfold growthFunction
  refine Out.bind_no_oof (reserve_no_oof _ _) ?_
  rintro ⟨k1, st1⟩ h1
  refine Out.bind_no_oof (updateEntry_no_oof _ _ _ _ _) ?_
  rintro st2 h2
  refine Out.bind_no_oof (reserve_no_oof _ _) ?_
  rintro ⟨k2, st3⟩ h3
  obtain ⟨hg4, hab⟩ := growth_no_oof_aux univ (inv := inv) hg h1 h2 h3
  exact growthLoop_no_oof hh hB rules univ hf n (false, pos) k1 k2 _ hg4 (by rw [hab]; exact hw) (Nat.le_refl _) hn

variable (hrules : ∀ r : R, r ∈ rules) (huniv : ∀ (r : R) p, p ≤ B → (r, p) ∈ univ)

include hh hB hrules huniv in
theorem lr_no_oof {w L : Nat} {r : R} {inv : List R} (hw : ∀ w', w' < w → Halts P src B rules univ w' L (P.body r)) :
    Halts P src B rules univ w L (.varNameLR inv r) := by
  cases w with
  | zero =>
    -- no state has weight zero when a descent is possible
    refine ⟨1, fun n hn parent p st hg hwt hp hL => ?_⟩
    obtain ⟨m, rfl⟩ : ∃ m, n = m + 1 := ⟨n - 1, by omega⟩
    simp only [eval, varNameLRKernel, shouldGrow]
    obtain ⟨D, hi, hk, hl⟩ := hg
    cases ha : st.cache.active with
    | none => simp [wt, ha] at hwt
    | some act =>
      obtain ⟨ar, ap⟩ := act
      obtain ⟨hd, hhd⟩ := hi.active ar ap ha
      simp only [wt, ha, evalCnt, hhd, Nat.le_zero, Nat.add_eq_zero_iff, Nat.mul_eq_zero] at hwt
      have hinner : lrInner r (eval P src m (P.body r)) parent p st ≠ .oof := by
        unfold lrInner
        rw [ha]
        simp only [Cache.ruleInEvalSet, hhd, Out.bind_ok]
        have hns : hd.evalSet.contains r = false := by
          have := List.countP_eq_zero.mp hwt.2 r (hrules r)
          simpa using this
        rw [if_neg (by rw [hns]; simp)]
        split
        · exact Out.bind_no_oof (connectIf_no_oof _ _ _) (by simp)
        · simp
      simp only [Cache.checkHead]
      cases hhr : st.cache.heads r p with
      | some h => simpa using hinner
      | none =>
        have := hwt.1
        simp only [absent] at this
        rcases this with this | this
        · have := List.countP_eq_zero.mp this (r, p) (huniv r p hp)
          simp [hhr] at this
        · omega
  | succ w =>
    obtain ⟨N, hN⟩ := hw w (by omega)
    refine ⟨N + B + 2, fun n hn parent p st hg hwt hp hL => ?_⟩
    obtain ⟨m, rfl⟩ : ∃ m, n = m + 1 := ⟨n - 1, by omega⟩
    simp only [eval, varNameLRKernel, shouldGrow]
    have hf : ∀ parent st, Good True P src parent st → wt rules univ st ≤ w →
        eval P src m (P.body r) parent p st ≠ .oof := fun parent st hg hw => hN m (by omega) parent p st hg hw hp hL
    have hgr : ∀ lastLr, univ.countP (fun x => if x.1 = r ∧ x.2 = p then false else (st.cache.heads x.1 x.2).isNone) *
        (rules.length + 1) + rules.length ≤ w →
        growthFunction m inv r (eval P src m (P.body r)) lastLr parent p (st.setActive (some (r, p))) ≠ .oof :=
      fun lastLr hw => growth_no_oof hh hB rules univ hf hg hw (by omega) lastLr
    obtain ⟨D, hi, hk, hl⟩ := id hg
    cases ha : st.cache.active with
    | none =>
      have h1 := hgr none (by
        have h2 : wt rules univ st = univ.length * (rules.length + 1) + rules.length + 1 := by simp [wt, ha]
        have h3 : univ.countP (fun x => if x.1 = r ∧ x.2 = p then false else (st.cache.heads x.1 x.2).isNone)
          ≤ univ.length := List.countP_le_length
        have := Nat.mul_le_mul_right (rules.length + 1) h3
        omega)
      simpa using h1
    | some act =>
      obtain ⟨ar, ap⟩ := act
      obtain ⟨hd, hhd⟩ := hi.active ar ap ha
      have hwt' : absent univ st * (rules.length + 1) + rules.countP (fun x => hd.evalSet.contains x) ≤ w + 1 := by
        simpa [wt, ha, evalCnt, hhd] using hwt
      have hinner : lrInner r (eval P src m (P.body r)) parent p st ≠ .oof := by
        unfold lrInner
        rw [ha]
        simp only [Cache.ruleInEvalSet, hhd, Out.bind_ok]
        split
        · next hin =>
          refine Out.bind_no_oof (reserve_no_oof _ _) ?_
          rintro ⟨k, st1⟩ hr
          have hc1 := reserve_cache hr
          have hg1 := hg.reserve hr
          refine Out.bind_no_oof (remove_no_oof _ _ _) ?_
          rintro st2 hr2
          have hst2 : st2 = { st1 with
              cache := st1.cache.putHead ar ap { hd with evalSet := hd.evalSet.filter (· ≠ r) } } := by
            simp only [St.removeFromEvalSet, Cache.removeFromEvalSet, hc1, hhd, Out.bind_ok] at hr2
            injection hr2 with hr2
            rw [← hr2, hc1]
          have hg2 : Good True P src k st2 := by
            obtain ⟨D1, hi1, hk1, hl1⟩ := hg1
            subst hst2
            refine ⟨D1, hi1.setCache _ rfl ?_, hk1, hl1⟩
            intro r' p' e
            simp only [Cache.putHead] at e ⊢
            split
            · exact ⟨_, rfl⟩
            · exact hi1.active r' p' e
          have hw2 : wt rules univ st2 ≤ w := by
            have h1 : wt rules univ st2 = absent univ st2 * (rules.length + 1) +
                rules.countP (fun x => (hd.evalSet.filter (· ≠ r)).contains x) := by
              subst hst2
              simp [wt, evalCnt, Cache.putHead, hc1, ha]
            have h2 : absent univ st2 ≤ absent univ st := by
              refine absent_mono fun r' p' h e => ?_
              subst hst2
              simp only [Cache.putHead, hc1]
              split
              · exact ⟨_, rfl⟩
              · exact ⟨h, e⟩
            have h3 : rules.countP (fun x => (hd.evalSet.filter (· ≠ r)).contains x) <
                rules.countP (fun x => hd.evalSet.contains x) := by
              refine countP_lt (y := r) ?_ (hrules r) ?_ hin
              · intro x _ hx
                simp at hx ⊢; exact hx.1
              · simp
            have := Nat.mul_le_mul_right (rules.length + 1) h2
            omega
          refine Out.bind_no_oof (hf _ _ hg2 hw2) ?_
          rintro ⟨b, q, st3⟩ _
          exact Out.bind_no_oof (updateEntry_no_oof _ _ _ _ _) fun _ _ =>
            Out.bind_no_oof (connect_no_oof _ _ _) (by simp)
        · split
          · exact Out.bind_no_oof (connectIf_no_oof _ _ _) (by simp)
          · simp
      simp only [Cache.checkHead]
      cases hhr : st.cache.heads r p with
      | some h => simpa using hinner
      | none =>
        simp only [Cache.ruleInInvolvedSet, hhd, Out.bind_ok]
        split
        · next hx => simpa [hx] using hinner
        · next hx =>
          have h1 := hgr (some (ar, ap)) (by
            have h2 : univ.countP (fun x => if x.1 = r ∧ x.2 = p then false else (st.cache.heads x.1 x.2).isNone)
                < absent univ st := by
              refine countP_lt (y := (r, p)) ?_ (huniv r p hp) (by simp) (by simp [hhr])
              intro x _ hx
              split at hx
              · simp at hx
              · exact hx
            have := Nat.mul_le_mul_right (rules.length + 1) (Nat.succ_le_of_lt h2)
            rw [Nat.succ_mul] at this
            omega)
          simpa [hx] using h1

include hh hB in
theorem repeat_no_oof {w L m : Nat} {e : Expr R} (hne : ¬ MayBeEmpty P.body e)
    (hf : ∀ parent p st, Good True P src parent st → wt rules univ st ≤ w → p ≤ B → B - p ≤ L →
      eval P src m e parent p st ≠ .oof) :
    ∀ n parent p st, Good True P src parent st → wt rules univ st ≤ w → p ≤ B → B - p ≤ L → B - p + 1 ≤ n →
      repeatLoop (eval P src m e) parent n p st ≠ .oof := by
  intro n
  induction n with
  | zero => intros; omega
  | succ n ih =>
    intro parent p st hg hw hp hL hn
    unfold repeatLoop
    refine Out.bind_no_oof (hf parent p st hg hw hp hL) ?_
    rintro ⟨b, q, st'⟩ hc
    obtain ⟨hg', ⟨ts, hr⟩, hw', _⟩ := hg.nextT hh rules univ hc
    dsimp only
    cases b with
    | false => simp
    | true =>
      rw [if_neg (by simp)]
      have h1 := hr.pos.2
      have h2 : q ≠ p := fun h => hne (hr.mayBeEmpty rfl h)
      exact ih parent q st' hg' (by omega) (by omega) (by omega) (by omega)

include hB in
theorem hook_no_oof {w L m : Nat} {e : Expr R} {pos : Nat} (hpos : pos ≤ B) (hL : B - pos ≤ L) (hh : P.HooksOK src)
    (hf : ∀ parent p st, Good True P src parent st → wt rules univ st ≤ w → p ≤ B → B - p ≤ L →
      eval P src m e parent p st ≠ .oof) :
    ∀ (prog : HookProg U) (seen : List Nat), HookOK src.len pos seen prog → ∀ parent st, Good True P src parent st →
      wt rules univ st ≤ w → runHook (eval P src m e) parent prog st ≠ .oof := by
  intro prog
  induction prog with
  | ret u b q => intros; simp [runHook]
  | panic => intros; simp [runHook]
  | call u p k ih =>
    intro seen hk parent st hg hw
    cases hk with
    | call h1 h2 h3 =>
      simp only [runHook]
      have hg' : Good True P src parent { st with user := u } := by
        obtain ⟨D, hi, h⟩ := hg
        exact ⟨D, hi.setUser u, h⟩
      refine Out.bind_no_oof (hf parent p _ hg' hw (by omega) (by omega)) ?_
      rintro ⟨b, q, st'⟩ hc
      obtain ⟨hg'', ⟨_, hr⟩, hw', _⟩ := hg'.nextT hh rules univ hc
      exact ih st'.user b q _ (h3 st'.user b q hr.pos.1) parent st' hg'' (Nat.le_trans hw' hw)

include hh hB hrules huniv in
theorem expr_halts {w : Nat} (hw : ∀ w', w' < w → ∀ L r, Halts P src B rules univ w' L (P.body r)) (e : Expr R)
    (hne : NoEmptyLoop P.body e) : ∀ L, (∀ L', L' < L → ∀ r, Halts P src B rules univ w L' (P.body r)) →
      (∀ r, FirstRef P.body e r → Halts P src B rules univ w L (P.body r)) → Halts P src B rules univ w L e := by
  have leaf : ∀ (e : Expr R) (L : Nat), (∀ n parent p st, eval P src (n + 1) e parent p st ≠ .oof) →
      Halts P src B rules univ w L e := by
    intro e L h
    refine ⟨1, fun n hn parent p st _ _ _ _ => ?_⟩
    obtain ⟨m, rfl⟩ : ∃ m, n = m + 1 := ⟨n - 1, by omega⟩
    exact h m parent p st
  induction e with
  | terminal c => intro L _ _; exact leaf _ _ fun n parent p st => by simp [eval, liftPure]
  | stringTerminal d => intro L _ _; exact leaf _ _ fun n parent p st => by simp [eval, liftPure]
  | matchRange lo hi => intro L _ _; exact leaf _ _ fun n parent p st => by simp [eval, liftPure]
  | andPredicate e ih =>
    intro L hL hr
    obtain ⟨N, hN⟩ := ih hne L hL fun r h => hr r (.andP h)
    refine ⟨N + 1, fun n hn parent p st hg hwt hp hLp => ?_⟩
    obtain ⟨m, rfl⟩ : ∃ m, n = m + 1 := ⟨n - 1, by omega⟩
    refine Out.bind_no_oof (hN m (by omega) parent p st hg hwt hp hLp) ?_
    rintro ⟨b', q', st'⟩ _
    dsimp only; split <;> simp
  | notPredicate e ih =>
    intro L hL hr
    obtain ⟨N, hN⟩ := ih hne L hL fun r h => hr r (.notP h)
    refine ⟨N + 1, fun n hn parent p st hg hwt hp hLp => ?_⟩
    obtain ⟨m, rfl⟩ : ∃ m, n = m + 1 := ⟨n - 1, by omega⟩
    refine Out.bind_no_oof (hN m (by omega) parent p st hg hwt hp hLp) ?_
    rintro ⟨b', q', st'⟩ _
    dsimp only; split <;> simp
  | optional e ih =>
    intro L hL hr
    obtain ⟨N, hN⟩ := ih hne L hL fun r h => hr r (.opt h)
    refine ⟨N + 1, fun n hn parent p st hg hwt hp hLp => ?_⟩
    obtain ⟨m, rfl⟩ : ∃ m, n = m + 1 := ⟨n - 1, by omega⟩
    refine Out.bind_no_oof (hN m (by omega) parent p st hg hwt hp hLp) ?_
    rintro ⟨b', q', st'⟩ _
    dsimp only; split <;> simp
  | subexpression e ih =>
    intro L hL hr
    obtain ⟨N, hN⟩ := ih hne L hL fun r h => hr r (.sub h)
    refine ⟨N + 1, fun n hn parent p st hg hwt hp hLp => ?_⟩
    obtain ⟨m, rfl⟩ : ∃ m, n = m + 1 := ⟨n - 1, by omega⟩
    refine Out.bind_no_oof (hN m (by omega) parent p st hg hwt hp hLp) ?_
    rintro ⟨b', q', st'⟩ _
    dsimp only; split <;> simp
  | zeroOrMore e ih =>
    intro L hL hr
    obtain ⟨N, hN⟩ := ih hne.2 L hL fun r h => hr r (.star h)
    refine ⟨N + B + 2, fun n hn parent p st hg hwt hp hLp => ?_⟩
    obtain ⟨m, rfl⟩ : ∃ m, n = m + 1 := ⟨n - 1, by omega⟩
    exact repeat_no_oof hh hB rules univ hne.1 (hN m (by omega)) m parent p st hg hwt hp hLp (by omega)
  | oneOrMore e ih =>
    intro L hL hr
    obtain ⟨N, hN⟩ := ih hne.2 L hL fun r h => hr r (.plus h)
    refine ⟨N + B + 2, fun n hn parent p st hg hwt hp hLp => ?_⟩
    obtain ⟨m, rfl⟩ : ∃ m, n = m + 1 := ⟨n - 1, by omega⟩
    refine Out.bind_no_oof (hN m (by omega) parent p st hg hwt hp hLp) ?_
    rintro ⟨b, q, st'⟩ hc
    obtain ⟨hg', ⟨ts, hrun⟩, hw', _⟩ := hg.nextT hh rules univ hc
    have := hrun.pos.2
    dsimp only
    split
    · simp
    · exact repeat_no_oof hh hB rules univ hne.1 (hN m (by omega)) m parent q st' hg' (by omega) (by omega) (by omega)
        (by omega)
  | orderedChoice a b iha ihb =>
    intro L hL hr
    obtain ⟨N1, h1⟩ := iha hne.1 L hL fun r h => hr r (.left h)
    obtain ⟨N2, h2⟩ := ihb hne.2 L hL fun r h => hr r (.right h)
    refine ⟨N1 + N2 + 1, fun n hn parent p st hg hwt hp hLp => ?_⟩
    obtain ⟨m, rfl⟩ : ∃ m, n = m + 1 := ⟨n - 1, by omega⟩
    refine Out.bind_no_oof (h1 m (by omega) parent p st hg hwt hp hLp) ?_
    rintro ⟨b', q', st'⟩ hc
    obtain ⟨hg', _, hw', _⟩ := hg.nextT hh rules univ hc
    dsimp only
    split
    · simp
    · refine Out.bind_no_oof (h2 m (by omega) parent p st' hg' (by omega) hp hLp) ?_
      rintro ⟨b'', q'', st''⟩ _
      dsimp only; split <;> simp
  | sequence a b iha ihb =>
    intro L hL hr
    obtain ⟨N1, h1⟩ := iha hne.1 L hL fun r h => hr r (.fst h)
    -- the second part is called at a later position, or the first part may be empty
    have h2 : ∃ N, ∀ n, N ≤ n → ∀ parent p q st, Good True P src parent st → wt rules univ st ≤ w → q ≤ B → p ≤ q →
        B - p ≤ L → (q = p → MayBeEmpty P.body a) → eval P src n b parent q st ≠ .oof := by
      by_cases hm : MayBeEmpty P.body a
      · obtain ⟨N, hN⟩ := ihb hne.2 L hL fun r h => hr r (.snd hm h)
        exact ⟨N, fun n hn parent p q st hg hw hq hpq hLp _ => hN n hn parent q st hg hw hq (by omega)⟩
      · cases L with
        | zero =>
          exact ⟨0, fun n hn parent p q st hg hw hq hpq hLp h => absurd (h (by omega)) hm⟩
        | succ L =>
          obtain ⟨N, hN⟩ := ihb hne.2 L (fun L' h => hL L' (by omega)) fun r _ => hL L (by omega) r
          refine ⟨N, fun n hn parent p q st hg hw hq hpq hLp h => hN n hn parent q st hg hw hq ?_⟩
          have : q ≠ p := fun e => hm (h e)
          omega
    obtain ⟨N2, h2⟩ := h2
    refine ⟨N1 + N2 + 1, fun n hn parent p st hg hwt hp hLp => ?_⟩
    obtain ⟨m, rfl⟩ : ∃ m, n = m + 1 := ⟨n - 1, by omega⟩
    refine Out.bind_no_oof (h1 m (by omega) parent p st hg hwt hp hLp) ?_
    rintro ⟨b', q', st'⟩ hc
    obtain ⟨hg', ⟨ts, hrun⟩, hw', _⟩ := hg.nextT hh rules univ hc
    dsimp only
    cases b' with
    | false => simp
    | true =>
      have := hrun.pos.2
      rw [if_pos rfl]
      refine Out.bind_no_oof (h2 m (by omega) parent p q' st' hg' (by omega) (by omega) hrun.le hLp
        (hrun.mayBeEmpty rfl)) ?_
      rintro ⟨b'', q'', st''⟩ _
      dsimp only; split <;> simp
  | varName r =>
    intro L hL hr
    obtain ⟨N, hN⟩ := hr r .ref
    refine ⟨N + 1, fun n hn parent p st hg hwt hp hLp => ?_⟩
    obtain ⟨m, rfl⟩ : ∃ m, n = m + 1 := ⟨n - 1, by omega⟩
    simp only [eval, varNameKernel]
    split
    · exact Out.bind_no_oof (connect_no_oof _ _ _) (by simp)
    · refine Out.bind_no_oof (reserve_no_oof _ _) ?_
      rintro ⟨ck, st1⟩ h1
      refine Out.bind_no_oof (hN m (by omega) _ _ _ (hg.reserve h1) (by rw [wt_congr (reserve_cache h1)]; exact hwt)
        hp hLp) ?_
      rintro ⟨b, q, st2⟩ _
      exact Out.bind_no_oof (updateEntry_no_oof _ _ _ _ _) fun _ _ =>
        Out.bind_no_oof (connect_no_oof _ _ _) (by simp)
  | inlined r =>
    intro L hL hr
    obtain ⟨N, hN⟩ := hr r .inl
    refine ⟨N + 1, fun n hn parent p st hg hwt hp hLp => ?_⟩
    obtain ⟨m, rfl⟩ : ∃ m, n = m + 1 := ⟨n - 1, by omega⟩
    exact hN m (by omega) parent p st hg hwt hp hLp
  | varNameLR inv r =>
    intro L hL hr
    exact lr_no_oof hh hB rules univ hrules huniv fun w' h => hw w' h L r
  | hooked name e ih =>
    intro L hL hr
    obtain ⟨N, hN⟩ := ih hne L hL fun r h => hr r (.hook h)
    refine ⟨N + 1, fun n hn parent p st hg hwt hp hLp => ?_⟩
    obtain ⟨m, rfl⟩ : ∃ m, n = m + 1 := ⟨n - 1, by omega⟩
    exact hook_no_oof hB rules univ hp hLp hh (hN m (by omega)) _ [] (hh name p st.user) parent st hg hwt

include hh hB hrules huniv in
theorem body_halts (hwf : WellFormed P.body) : ∀ w L r, Halts P src B rules univ w L (P.body r) := by
  intro w
  induction w using Nat.strongRecOn with
  | ind w hw =>
    intro L
    induction L using Nat.strongRecOn with
    | ind L hL =>
      intro r
      induction r using hwf.noCycle.induction with
      | _ r ih => exact expr_halts hh hB rules univ hrules huniv hw _ (hwf.noLoop r) L hL ih

end

/-- Every well-formed expression evaluated at any position terminates. -/
theorem eval_halts {P : Parser R U} {src : Source} (hh : P.HooksOK src) (rules : List R) (hrules : ∀ r : R, r ∈ rules)
    (hwf : WellFormed P.body) {e : Expr R} (he : NoEmptyLoop P.body e) (p : Nat) :
    ∃ N, ∀ n, N ≤ n → ∀ parent st, Good True P src parent st → eval P src n e parent p st ≠ .oof := by
  let B := src.len + p
  let univ : List (R × Nat) := rules.flatMap fun r => (List.range (B + 1)).map fun i => (r, i)
  have huniv : ∀ (r : R) p, p ≤ B → (r, p) ∈ univ := by
    intro r p hp
    simp only [univ, List.mem_flatMap, List.mem_map, List.mem_range]
    exact ⟨r, hrules r, p, by omega, rfl⟩
  have hb := body_halts (P := P) hh (B := B) (by omega) rules univ hrules huniv hwf
  obtain ⟨N, hN⟩ := expr_halts (P := P) hh (B := B) (by omega) rules univ hrules huniv
    (w := univ.length * (rules.length + 1) + rules.length + 1) (fun w' _ L r => hb w' L r) e he B
    (fun L' _ r => hb _ L' r) (fun r _ => hb _ B r)
  refine ⟨N, fun n hn parent st hg => hN n hn parent p st hg ?_ (by omega) (by omega)⟩
  unfold wt
  split
  · omega
  · have h1 := Nat.mul_le_mul_right (rules.length + 1) (absent_le univ st)
    have h2 := evalCnt_le rules st
    omega

end PP
