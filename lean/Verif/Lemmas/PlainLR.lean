import Verif.Lemmas.DirectLR
import Verif.Spec.PlainLR

/-! # A left-recursive rule over rules without left recursion -/
set_option linter.unusedSectionVars false
namespace PP
variable {R U : Type} [DecidableEq R]

theorem Advance.le {body : R → Expr R} {src : Source} {b : Expr R} {s q} (h : Advance body src b s q) : s ≤ q := by
  induction h with
  | fail | still => exact Nat.le_refl _
  | step => omega

theorem Advance.end_ {body : R → Expr R} {src : Source} {b : Expr R} {s q} (h : Advance body src b s q) :
    Peg body src b q false q ∨ Peg body src b q true q := by
  induction h with
  | fail h => exact Or.inl h
  | still h => exact Or.inr h
  | step _ _ _ ih => exact ih

theorem Advance.det {body : R → Expr R} {src : Source} {b : Expr R} {s q q'} (h : Advance body src b s q)
    (h' : Advance body src b s q') : q = q' := by
  induction h with
  | fail h =>
    cases h' with
    | fail | still => rfl
    | step g _ _ => have := (h.det g).1; cases this
  | still h =>
    cases h' with
    | fail | still => rfl
    | step g hl _ => have := (h.det g).2; omega
  | step h hl _ ih =>
    cases h' with
    | fail g => have := (h.det g).1; cases this
    | still g => have := (h.det g).2; omega
    | step g _ g' =>
      obtain rfl := (h.det g).2
      exact ih g'

section
variable (P : Parser R U) (src : Source) (S : R → Prop)

/-- Memoised results of the rules of `S` are correct. -/
def SOK (st : St R U) : Prop :=
  ∀ r p b q k, S r → st.cache.memo r p = some (b, q, k) → Peg P.body src (.varName r) p b q

/-- What a call over `S` leaves alone. -/
structure SFr (st st' : St R U) : Prop where
  active : st'.cache.active = st.cache.active
  heads : st'.cache.heads = st.cache.heads
  memo : ∀ r p, ¬ S r → st'.cache.memo r p = st.cache.memo r p

/-- Correctness of expressions over `S`, at fuel `n`. -/
def SClaim (n : Nat) : Prop :=
  ∀ (e : Expr R) parent p st b q st', e.Over S → SOK P src S st → eval P src n e parent p st = .ok (b, q, st') →
    Peg P.body src e p b q ∧ SOK P src S st' ∧ SFr S st st'

variable {P src S}

theorem SFr.refl {st : St R U} : SFr S st st := ⟨rfl, rfl, fun _ _ _ => rfl⟩
theorem SFr.trans {a b c : St R U} (h : SFr S a b) (h' : SFr S b c) : SFr S a c :=
  ⟨h'.active.trans h.active, h'.heads.trans h.heads, fun r p hr => (h'.memo r p hr).trans (h.memo r p hr)⟩
theorem SFr.of_cache {st st' : St R U} (h : st'.cache = st.cache) : SFr S st st' := by constructor <;> simp [h]
theorem SOK.of_cache {st st' : St R U} (h : SOK P src S st) (hc : st'.cache = st.cache) : SOK P src S st' := by
  unfold SOK; rw [hc]; exact h

theorem sclaim_all (hS : ∀ r, S r → (P.body r).Over S) : ∀ n, SClaim P src S n := by
  intro n
  induction n with
  | zero => intro e parent p st b q st' _ _ h; cases h
  | succ n hn =>
    have loop : ∀ (e : Expr R), e.Over S → ∀ f parent p st b q st', SOK P src S st →
        repeatLoop (eval P src n e) parent f p st = .ok (b, q, st') →
        b = true ∧ Peg P.body src (.zeroOrMore e) p true q ∧ SOK P src S st' ∧ SFr S st st' := by
      intro e he f
      induction f with
      | zero => intro parent p st b q st' _ h; cases h
      | succ f ihf =>
        intro parent p st b q st' ho h
        unfold repeatLoop at h
        rw [Out.bind_eq_ok] at h
        obtain ⟨⟨b1, q1, st1⟩, h1, h2⟩ := h
        obtain ⟨g1, g2, g3⟩ := hn e parent p st b1 q1 st1 he ho h1
        dsimp only at h2
        cases b1 with
        | false =>
          simp at h2
          obtain ⟨rfl, rfl, rfl⟩ := h2
          exact ⟨rfl, .star_stop g1, g2, g3⟩
        | true =>
          simp only [Bool.not_true, Bool.false_eq_true, if_false] at h2
          obtain ⟨i0, i1, i2, i3⟩ := ihf parent q1 st1 b q st' g2 h2
          exact ⟨i0, .star_step g1 i1, i2, g3.trans i3⟩
    intro e parent p st b q st' he ho h
    cases e with
    | andPredicate e =>
      simp only [eval, andPredicateKernel] at h
      rw [Out.bind_eq_ok] at h
      obtain ⟨⟨b1, q1, st1⟩, h1, h2⟩ := h
      obtain ⟨g1, g2, g3⟩ := hn e parent p st b1 q1 st1 he ho h1
      dsimp only at h2
      cases b1 <;> simp at h2 <;> obtain ⟨rfl, rfl, rfl⟩ := h2
      · exact ⟨.and_fail g1, g2, g3⟩
      · exact ⟨.and_ok g1, g2, g3⟩
    | notPredicate e =>
      simp only [eval, notPredicateKernel] at h
      rw [Out.bind_eq_ok] at h
      obtain ⟨⟨b1, q1, st1⟩, h1, h2⟩ := h
      obtain ⟨g1, g2, g3⟩ := hn e parent p st b1 q1 st1 he ho h1
      dsimp only at h2
      cases b1 <;> simp at h2 <;> obtain ⟨rfl, rfl, rfl⟩ := h2
      · exact ⟨.not_ok g1, g2, g3⟩
      · exact ⟨.not_fail g1, g2, g3⟩
    | oneOrMore e =>
      simp only [eval, oneOrMoreKernel] at h
      rw [Out.bind_eq_ok] at h
      obtain ⟨⟨b1, q1, st1⟩, h1, h2⟩ := h
      obtain ⟨g1, g2, g3⟩ := hn e parent p st b1 q1 st1 he ho h1
      dsimp only at h2
      cases b1 with
      | false =>
        simp at h2
        obtain ⟨rfl, rfl, rfl⟩ := h2
        exact ⟨.plus_fail g1, g2, g3⟩
      | true =>
        simp only [Bool.not_true, Bool.false_eq_true, if_false] at h2
        obtain ⟨i0, i1, i2, i3⟩ := loop e he _ parent q1 st1 b q st' g2 h2
        subst i0
        exact ⟨.plus_ok g1 i1, i2, g3.trans i3⟩
    | zeroOrMore e =>
      obtain ⟨i0, i1, i2, i3⟩ := loop e he _ parent p st b q st' ho h
      subst i0
      exact ⟨i1, i2, i3⟩
    | optional e =>
      simp only [eval, optionalKernel] at h
      rw [Out.bind_eq_ok] at h
      obtain ⟨⟨b1, q1, st1⟩, h1, h2⟩ := h
      obtain ⟨g1, g2, g3⟩ := hn e parent p st b1 q1 st1 he ho h1
      dsimp only at h2
      cases b1 <;> simp at h2 <;> obtain ⟨rfl, rfl, rfl⟩ := h2
      · exact ⟨.opt_none g1, g2, g3⟩
      · exact ⟨.opt_some g1, g2, g3⟩
    | subexpression e =>
      simp only [eval, subexpressionKernel] at h
      rw [Out.bind_eq_ok] at h
      obtain ⟨⟨b1, q1, st1⟩, h1, h2⟩ := h
      obtain ⟨g1, g2, g3⟩ := hn e parent p st b1 q1 st1 he ho h1
      dsimp only at h2
      cases b1 <;> simp at h2 <;> obtain ⟨rfl, rfl, rfl⟩ := h2
      · exact ⟨.sub_fail g1, g2, g3⟩
      · exact ⟨.sub_ok g1, g2, g3⟩
    | orderedChoice a c =>
      simp only [eval, orderedChoiceKernel] at h
      rw [Out.bind_eq_ok] at h
      obtain ⟨⟨b1, q1, st1⟩, h1, h2⟩ := h
      obtain ⟨g1, g2, g3⟩ := hn a parent p st b1 q1 st1 he.1 ho h1
      dsimp only at h2
      cases b1 with
      | true =>
        simp at h2
        obtain ⟨rfl, rfl, rfl⟩ := h2
        exact ⟨.choice_left g1, g2, g3⟩
      | false =>
        simp only [Bool.false_eq_true, if_false] at h2
        rw [Out.bind_eq_ok] at h2
        obtain ⟨⟨b2, q2, st2⟩, h3, h4⟩ := h2
        obtain ⟨i1, i2, i3⟩ := hn c parent p st1 b2 q2 st2 he.2 g2 h3
        dsimp only at h4
        cases b2 <;> simp at h4 <;> obtain ⟨rfl, rfl, rfl⟩ := h4
        · exact ⟨.choice_fail g1 i1, i2, g3.trans i3⟩
        · exact ⟨.choice_right g1 i1, i2, g3.trans i3⟩
    | sequence a c =>
      simp only [eval, sequenceKernel] at h
      rw [Out.bind_eq_ok] at h
      obtain ⟨⟨b1, q1, st1⟩, h1, h2⟩ := h
      obtain ⟨g1, g2, g3⟩ := hn a parent p st b1 q1 st1 he.1 ho h1
      dsimp only at h2
      cases b1 with
      | false =>
        simp at h2
        obtain ⟨rfl, rfl, rfl⟩ := h2
        exact ⟨.seq_fail1 g1, g2, g3⟩
      | true =>
        simp only [if_true] at h2
        rw [Out.bind_eq_ok] at h2
        obtain ⟨⟨b2, q2, st2⟩, h3, h4⟩ := h2
        obtain ⟨i1, i2, i3⟩ := hn c parent q1 st1 b2 q2 st2 he.2 g2 h3
        dsimp only at h4
        cases b2 <;> simp at h4 <;> obtain ⟨rfl, rfl, rfl⟩ := h4
        · exact ⟨.seq_fail2 g1 i1, i2, g3.trans i3⟩
        · exact ⟨.seq_ok g1 i1, i2, g3.trans i3⟩
    | terminal c =>
      simp only [eval, liftPure, Out.ok.injEq, Prod.mk.injEq] at h
      obtain ⟨rfl, rfl, rfl⟩ := h
      exact ⟨peg_terminal _ _ c p, ho, .refl⟩
    | stringTerminal d =>
      simp only [eval, liftPure, Out.ok.injEq, Prod.mk.injEq] at h
      obtain ⟨rfl, rfl, rfl⟩ := h
      exact ⟨peg_string _ _ d p, ho, .refl⟩
    | matchRange lo hi =>
      simp only [eval, liftPure, Out.ok.injEq, Prod.mk.injEq] at h
      obtain ⟨rfl, rfl, rfl⟩ := h
      exact ⟨peg_range _ _ lo hi p, ho, .refl⟩
    | varName r =>
      have hr : S r := he
      simp only [eval, varNameKernel, Cache.check] at h
      split at h
      · next mb stop mk hm =>
        unfold memoizedBehaviour at h
        rw [Out.bind_eq_ok] at h
        obtain ⟨st1, h1, h2⟩ := h
        simp at h2
        obtain ⟨rfl, rfl, rfl⟩ := h2
        have := (connect_eqs h1).1
        exact ⟨ho r p mb stop mk hr hm, ho.of_cache this, .of_cache this⟩
      · next hm =>
        unfold defaultBehaviour at h
        rw [Out.bind_eq_ok] at h
        obtain ⟨⟨ck, st1⟩, h1, h⟩ := h
        have c1 := (reserve_eqs h1).1
        rw [Out.bind_eq_ok] at h
        obtain ⟨⟨b', q', st2⟩, h2, h⟩ := h
        obtain ⟨g1, g2, g3⟩ := hn (P.body r) ck p st1 b' q' st2 (hS r hr) (ho.of_cache c1) h2
        dsimp only at h
        rw [Out.bind_eq_ok] at h
        obtain ⟨st3, h3, h⟩ := h
        have c3 := (updateEntry_eqs h3).1
        rw [Out.bind_eq_ok] at h
        obtain ⟨st4, h4, h⟩ := h
        have c4 := (connect_eqs h4).1
        simp at h
        obtain ⟨rfl, rfl, rfl⟩ := h
        have cs : st4.cache = st2.cache.insert r b' p q' ck := by rw [c4, c3]; rfl
        refine ⟨.ref g1, ?_, ⟨?_, ?_, ?_⟩⟩
        · intro r' p' b q k hr' hmem
          rw [cs] at hmem
          simp only [Cache.insert] at hmem
          split at hmem
          · next heq =>
            obtain ⟨rfl, rfl⟩ := heq
            simp only [Option.some.injEq, Prod.mk.injEq] at hmem
            obtain ⟨rfl, rfl, _⟩ := hmem
            exact .ref g1
          · exact g2 r' p' b q k hr' hmem
        · rw [cs]; exact g3.active.trans (by rw [c1])
        · rw [cs]; exact g3.heads.trans (by rw [c1])
        · intro r' p' hr'
          rw [cs]
          simp only [Cache.insert]
          rw [if_neg (by rintro ⟨rfl, _⟩; exact hr' hr), g3.memo r' p' hr', c1]
    | varNameLR inv r => exact he.elim
    | inlined r =>
      obtain ⟨g1, g2, g3⟩ := hn (P.body r) parent p st b q st' (hS r he) ho h
      exact ⟨.inl g1, g2, g3⟩
    | hooked name e => exact he.elim

/-! ## Growing -/
section Grow
variable {A : R} {a t : Expr R} {inv : List R} {p : Nat}

/-- State while growing `(A, p)`; `lv` says whether the head reference will re-evaluate the body. -/
structure G (P : Parser R U) (src : Source) (S : R → Prop) (A : R) (p : Nat) (lv : Bool)
    (m : Option (Bool × Nat × Nat)) (st : St R U) : Prop where
  ok : SOK P src S st
  active : st.cache.active = some (A, p)
  head : ∃ h, st.cache.heads A p = some h ∧ (A ∈ h.evalSet ↔ lv = true) ∧ A ∈ h.involved
  memo : st.cache.memo A p = m

/-- What growing `(A, p)` leaves alone. -/
def GFr (A : R) (p : Nat) (st st' : St R U) : Prop :=
  ∀ p', p' ≠ p → st'.cache.memo A p' = st.cache.memo A p'

theorem G.next {lv m} {st st' : St R U} (hA : ¬ S A) (h : G P src S A p lv m st) (ho : SOK P src S st')
    (hf : SFr S st st') : G P src S A p lv m st' :=
  ⟨ho, hf.active.trans h.active, by rw [hf.heads]; exact h.head, by rw [hf.memo A p hA]; exact h.memo⟩

theorem G.of_cache {lv m} {st st' : St R U} (h : G P src S A p lv m st) (hc : st'.cache = st.cache) :
    G P src S A p lv m st' :=
  ⟨h.ok.of_cache hc, by rw [hc]; exact h.active, by rw [hc]; exact h.head, by rw [hc]; exact h.memo⟩

theorem SFr.gfr {st st' : St R U} (hA : ¬ S A) (h : SFr S st st') : GFr A p st st' := fun p' _ => h.memo A p' hA

theorem GFr.trans {a b c : St R U} (h : GFr A p a b) (h' : GFr A p b c) : GFr A p a c :=
  fun p' hp => (h' p' hp).trans (h p' hp)

/-- The outcome of an evaluation of `A`'s body at `p` for the seed `m`. -/
def BSpec (P : Parser R U) (src : Source) (a t : Expr R) (p : Nat) (m : Option (Bool × Nat × Nat)) (b : Bool) (q : Nat) :
    Prop :=
  (∃ s k, m = some (true, s, k) ∧ b = true ∧ Peg P.body src t s true q) ∨
  (∃ s k, m = some (true, s, k) ∧ Peg P.body src t s false s ∧ Peg P.body src a p b q) ∨
  ((∀ s k, m ≠ some (true, s, k)) ∧ Peg P.body src a p b q)

/-- The outcome of a head expression with tail `t` for the seed `m`. -/
def TSpec (P : Parser R U) (src : Source) (t : Expr R) (m : Option (Bool × Nat × Nat)) (b : Bool) (q : Nat) : Prop :=
  (∃ s k, m = some (true, s, k) ∧ ((b = true ∧ Peg P.body src t s true q) ∨ (b = false ∧ Peg P.body src t s false s))) ∨
  ((∀ s k, m ≠ some (true, s, k)) ∧ b = false)

theorem TSpec.of_true {t : Expr R} {m q} (h : TSpec P src t m true q) :
    ∃ s k, m = some (true, s, k) ∧ Peg P.body src t s true q := by
  rcases h with ⟨s, k, h, h' | h'⟩ | h
  · exact ⟨s, k, h, h'.2⟩
  · cases h'.1
  · cases h.2

theorem TSpec.of_false {t : Expr R} {m q} (h : TSpec P src t m false q) :
    (∃ s k, m = some (true, s, k) ∧ Peg P.body src t s false s) ∨ (∀ s k, m ≠ some (true, s, k)) := by
  rcases h with ⟨s, k, h, h' | h'⟩ | h
  · cases h'.1
  · exact Or.inl ⟨s, k, h, h'.2⟩
  · exact Or.inr h.1

theorem TSpec.mk_true {t : Expr R} {m s k q} (h : m = some (true, s, k))
    (h' : Peg P.body src t s true q) : TSpec P src t m true q :=
  Or.inl ⟨s, k, h, Or.inl ⟨rfl, h'⟩⟩

theorem TSpec.mk_false {t : Expr R} {m s k q} (h : m = some (true, s, k))
    (h' : Peg P.body src t s false s) : TSpec P src t m false q :=
  Or.inl ⟨s, k, h, Or.inr ⟨rfl, h'⟩⟩

theorem TSpec.mk_none {t : Expr R} {m q} (h : ∀ s k, m ≠ some (true, s, k)) : TSpec P src t m false q :=
  Or.inr ⟨h, rfl⟩

theorem Peg.false_in_place {body : R → Expr R} {c : Expr R} {s b q} (h : Peg body src c s b q) (hb : b = false) :
    Peg body src c s false s := by
  subst hb
  have := h.bounds.1 rfl
  subst this; exact h

/-- The head reference at level 0 is answered from the memo table. -/
theorem headS0 {m : Option (Bool × Nat × Nat)} {n parent : Nat} {st st1 : St R U} {b1 : Bool} {q1 : Nat}
    (hl : G P src S A p false m st) (h1 : eval P src n (.varNameLR inv A) parent p st = .ok (b1, q1, st1)) :
    st1.cache = st.cache ∧ ((∃ k, m = some (b1, q1, k)) ∨ (m = none ∧ b1 = false ∧ q1 = p)) := by
  cases n with
  | zero => cases h1
  | succ n =>
    obtain ⟨hh, hh1, hh2, hh3⟩ := hl.head
    simp only [eval, varNameLRKernel, shouldGrow, hl.active, Cache.checkHead, hh1, Out.bind_ok, Bool.false_eq_true,
      if_false, lrInner, Cache.ruleInEvalSet] at h1
    rw [if_neg (by simpa using hh2)] at h1
    simp only [Cache.check, hl.memo] at h1
    cases m with
    | none =>
      simp at h1
      obtain ⟨rfl, rfl, rfl⟩ := h1
      exact ⟨rfl, Or.inr ⟨rfl, rfl, rfl⟩⟩
    | some v =>
      obtain ⟨mb, mq, mk⟩ := v
      simp only at h1
      rw [Out.bind_eq_ok] at h1
      obtain ⟨st2, g1, g2⟩ := h1
      simp at g2
      obtain ⟨rfl, rfl, rfl⟩ := g2
      exact ⟨connectIf_eqs g1, Or.inl ⟨mk, rfl⟩⟩

/-- The head expression at level 0. -/
theorem htS0 (hC : ∀ n, SClaim P src S n) (hA : ¬ S A) {e t : Expr R} (hht : HeadTail inv A e t) (ht : t.Over S)
    {m : Option (Bool × Nat × Nat)} : ∀ n parent st b q st', G P src S A p false m st →
      eval P src n e parent p st = .ok (b, q, st') →
      G P src S A p false m st' ∧ GFr A p st st' ∧ TSpec P src t m b q := by
  have tailStep : ∀ (c : Expr R), c.Over S → ∀ n parent s st b q st', G P src S A p false m st →
      eval P src n c parent s st = .ok (b, q, st') →
      Peg P.body src c s b q ∧ G P src S A p false m st' ∧ GFr A p st st' := by
    intro c hc n parent s st b q st' hl he
    obtain ⟨h1, h2, h3⟩ := hC n c parent s st b q st' hc hl.ok he
    exact ⟨h1, hl.next hA h2 h3, h3.gfr hA⟩
  induction hht with
  | @base t =>
    intro n parent st b q st' hl he
    cases n with
    | zero => cases he
    | succ n =>
      simp only [eval, sequenceKernel] at he
      rw [Out.bind_eq_ok] at he
      obtain ⟨⟨b1, q1, st1⟩, h1, h2⟩ := he
      have head := headS0 hl h1
      have hl1 : G P src S A p false m st1 := hl.of_cache head.1
      have hf1 : GFr A p st st1 := fun p' _ => by rw [head.1]
      dsimp only at h2
      cases b1 with
      | false =>
        simp at h2
        obtain ⟨rfl, rfl, rfl⟩ := h2
        refine ⟨hl1, hf1, .mk_none fun s k hmk => ?_⟩
        subst hmk
        rcases head.2 with ⟨k', h⟩ | ⟨h, _⟩ <;> cases h
      | true =>
        have hseed : ∃ k, m = some (true, q1, k) := by
          rcases head.2 with h | ⟨_, h, _⟩
          · exact h
          · cases h
        obtain ⟨k, rfl⟩ := hseed
        simp only [if_true] at h2
        rw [Out.bind_eq_ok] at h2
        obtain ⟨⟨b2, q2, st2⟩, h3, h4⟩ := h2
        obtain ⟨g1, g2, g3⟩ := tailStep t ht n _ _ _ _ _ _ hl1 h3
        dsimp only at h4
        cases b2 with
        | true =>
          simp at h4
          obtain ⟨rfl, rfl, rfl⟩ := h4
          exact ⟨g2, hf1.trans g3, .mk_true rfl g1⟩
        | false =>
          simp at h4
          obtain ⟨rfl, rfl, rfl⟩ := h4
          exact ⟨g2, hf1.trans g3, .mk_false rfl (g1.false_in_place rfl)⟩
  | @seq e t c _ ih =>
    intro n parent st b q st' hl he
    cases n with
    | zero => cases he
    | succ n =>
      simp only [eval, sequenceKernel] at he
      rw [Out.bind_eq_ok] at he
      obtain ⟨⟨b1, q1, st1⟩, h1, h2⟩ := he
      obtain ⟨i1, i2, i3⟩ := ih ht.1 n _ _ _ _ _ hl h1
      dsimp only at h2
      cases b1 with
      | false =>
        simp at h2
        obtain ⟨rfl, rfl, rfl⟩ := h2
        refine ⟨i1, i2, ?_⟩
        rcases i3.of_false with ⟨s, k, hs, h⟩ | h
        · exact .mk_false hs (.seq_fail1 h)
        · exact .mk_none h
      | true =>
        simp only [if_true] at h2
        rw [Out.bind_eq_ok] at h2
        obtain ⟨⟨b2, q2, st2⟩, h3, h4⟩ := h2
        obtain ⟨s, k, hms, h⟩ := i3.of_true
        obtain ⟨g1, g2, g3⟩ := tailStep c ht.2 n _ _ _ _ _ _ i1 h3
        dsimp only at h4
        cases b2 with
        | true =>
          simp at h4
          obtain ⟨rfl, rfl, rfl⟩ := h4
          exact ⟨g2, i2.trans g3, .mk_true hms (.seq_ok h g1)⟩
        | false =>
          simp at h4
          obtain ⟨rfl, rfl, rfl⟩ := h4
          exact ⟨g2, i2.trans g3, .mk_false hms (.seq_fail2 h g1)⟩
  | @sub e t _ ih =>
    intro n parent st b q st' hl he
    cases n with
    | zero => cases he
    | succ n =>
      simp only [eval, subexpressionKernel] at he
      rw [Out.bind_eq_ok] at he
      obtain ⟨⟨b1, q1, st1⟩, h1, h2⟩ := he
      obtain ⟨i1, i2, i3⟩ := ih ht n _ _ _ _ _ hl h1
      dsimp only at h2
      cases b1 with
      | false =>
        simp at h2
        obtain ⟨rfl, rfl, rfl⟩ := h2
        exact ⟨i1, i2, i3.of_false.elim (fun ⟨_, _, hs, h⟩ => .mk_false hs h) .mk_none⟩
      | true =>
        simp at h2
        obtain ⟨rfl, rfl, rfl⟩ := h2
        exact ⟨i1, i2, i3⟩
  | @choice e t e' t' _ _ ih ih' =>
    intro n parent st b q st' hl he
    cases n with
    | zero => cases he
    | succ n =>
      simp only [eval, orderedChoiceKernel] at he
      rw [Out.bind_eq_ok] at he
      obtain ⟨⟨b1, q1, st1⟩, h1, h2⟩ := he
      obtain ⟨i1, i2, i3⟩ := ih ht.1 n _ _ _ _ _ hl h1
      dsimp only at h2
      cases b1 with
      | true =>
        simp at h2
        obtain ⟨rfl, rfl, rfl⟩ := h2
        obtain ⟨s, k, hms, h⟩ := i3.of_true
        exact ⟨i1, i2, .mk_true hms (.choice_left h)⟩
      | false =>
        simp only [Bool.false_eq_true, if_false] at h2
        rw [Out.bind_eq_ok] at h2
        obtain ⟨⟨b2, q2, st2⟩, h3, h4⟩ := h2
        obtain ⟨j1, j2, j3⟩ := ih' ht.2 n _ _ _ _ _ i1 h3
        dsimp only at h4
        cases b2 with
        | true =>
          simp at h4
          obtain ⟨rfl, rfl, rfl⟩ := h4
          obtain ⟨s, k, hms, h'⟩ := j3.of_true
          rcases i3.of_false with ⟨s', k', hs, h⟩ | h
          · rw [hms] at hs; cases hs
            exact ⟨j1, i2.trans j2, .mk_true hms (.choice_right h h')⟩
          · exact absurd hms (h s k)
        | false =>
          simp at h4
          obtain ⟨rfl, rfl, rfl⟩ := h4
          refine ⟨j1, i2.trans j2, ?_⟩
          rcases i3.of_false with ⟨s, k, hs, h⟩ | h
          · rcases j3.of_false with ⟨s', k', hs', h'⟩ | h'
            · rw [hs] at hs'; cases hs'
              exact .mk_false hs (.choice_fail h h')
            · exact absurd hs (h' s k)
          · exact .mk_none h

/-- The body at level 0. -/
theorem bodyS0 (hC : ∀ n, SClaim P src S n) (hL : PlainLR P.body S inv A a t) {m : Option (Bool × Nat × Nat)} :
    ∀ n parent st b q st', G P src S A p false m st → eval P src n (P.body A) parent p st = .ok (b, q, st') →
      G P src S A p false m st' ∧ GFr A p st st' ∧ BSpec P src a t p m b q := by
  intro n parent st b q st' hl he
  obtain ⟨e, hbody, hht⟩ := hL.shape
  rw [hbody] at he
  cases n with
  | zero => cases he
  | succ n =>
    simp only [eval, orderedChoiceKernel] at he
    rw [Out.bind_eq_ok] at he
    obtain ⟨⟨b1, q1, st1⟩, h1, h2⟩ := he
    obtain ⟨i1, i2, i3⟩ := htS0 hC hL.notS hht hL.tail n _ _ _ _ _ hl h1
    dsimp only at h2
    cases b1 with
    | true =>
      simp at h2
      obtain ⟨rfl, rfl, rfl⟩ := h2
      obtain ⟨s, k, h3, h4⟩ := i3.of_true
      exact ⟨i1, i2, Or.inl ⟨s, k, h3, rfl, h4⟩⟩
    | false =>
      simp only [Bool.false_eq_true, if_false] at h2
      rw [Out.bind_eq_ok] at h2
      obtain ⟨⟨b2, q2, st2⟩, h3, h4⟩ := h2
      obtain ⟨g1, g2, g3⟩ := hC n a _ _ _ _ _ _ hL.first i1.ok h3
      have hres : b2 = b ∧ q2 = q ∧ st2 = st' := by
        dsimp only at h4
        cases b2 with
        | true => simpa using h4
        | false =>
          have := g1.bounds.1 rfl
          subst this
          simpa using h4
      obtain ⟨rfl, rfl, rfl⟩ := hres
      refine ⟨i1.next hL.notS g2 g3, i2.trans (g3.gfr hL.notS), ?_⟩
      rcases i3.of_false with ⟨s, k, hsk, h⟩ | h
      · exact Or.inr (Or.inl ⟨s, k, hsk, h, g1⟩)
      · exact Or.inr (Or.inr ⟨h, g1⟩)

/-- The head reference at level 1 re-evaluates the body once. -/
theorem headS1 (hC : ∀ n, SClaim P src S n) (hL : PlainLR P.body S inv A a t) {inv' : List R}
    {m : Option (Bool × Nat × Nat)} {n parent : Nat} {st st1 : St R U} {b1 : Bool} {q1 : Nat}
    (hl : G P src S A p true m st) (h1 : eval P src n (.varNameLR inv' A) parent p st = .ok (b1, q1, st1)) :
    ∃ k1, BSpec P src a t p m b1 q1 ∧ G P src S A p false (some (b1, q1, k1)) st1 ∧ GFr A p st st1 := by
  cases n with
  | zero => cases h1
  | succ n =>
    obtain ⟨hh, hh1, hh2, hh3⟩ := hl.head
    simp only [eval, varNameLRKernel, shouldGrow, hl.active, Cache.checkHead, hh1, Out.bind_ok, Bool.false_eq_true,
      if_false, lrInner, Cache.ruleInEvalSet] at h1
    rw [if_pos (by simpa using hh2)] at h1
    rw [Out.bind_eq_ok] at h1
    obtain ⟨⟨ck, sa⟩, a1, h1⟩ := h1
    have ca := (reserve_eqs a1).1
    dsimp only at h1
    rw [Out.bind_eq_ok] at h1
    obtain ⟨sb, a2, h1⟩ := h1
    rw [Out.bind_eq_ok] at h1
    obtain ⟨⟨b2, q2, sc⟩, a3, h1⟩ := h1
    dsimp only at h1
    rw [Out.bind_eq_ok] at h1
    obtain ⟨sd, a4, h1⟩ := h1
    have cd := (updateEntry_eqs a4).1
    rw [Out.bind_eq_ok] at h1
    obtain ⟨se, a5, h1⟩ := h1
    have ce := (connect_eqs a5).1
    simp at h1
    obtain ⟨rfl, rfl, rfl⟩ := h1
    -- the state with `A` removed from the evaluation set
    have cb : sb.cache = st.cache.putHead A p { hh with evalSet := hh.evalSet.filter (· ≠ A) } := by
      unfold St.removeFromEvalSet Cache.removeFromEvalSet at a2
      rw [ca] at a2
      simp only [hh1, Out.bind_ok] at a2
      injection a2 with a2
      rw [← a2]
    have hl0 : G P src S A p false m sb := by
      refine ⟨?_, ?_, ?_, ?_⟩
      · unfold SOK; rw [cb]; exact hl.ok
      · rw [cb]; exact hl.active
      · refine ⟨{ hh with evalSet := hh.evalSet.filter (· ≠ A) }, ?_, by simp, hh3⟩
        rw [cb]; simp [Cache.putHead]
      · rw [cb]; exact hl.memo
    obtain ⟨i1, i2, i3⟩ := bodyS0 hC hL n _ _ _ _ _ hl0 a3
    have cse : se.cache = sc.cache.insert A b2 p q2 ck := by
      rw [ce]
      simp only [St.createCacheEntry]
      rw [cd]
    refine ⟨ck, i3, ⟨?_, ?_, ?_, ?_⟩, ?_⟩
    · intro r p' b q k hr hmem
      rw [cse] at hmem
      simp only [Cache.insert] at hmem
      rw [if_neg (by rintro ⟨rfl, _⟩; exact hL.notS hr)] at hmem
      exact i1.ok r p' b q k hr hmem
    · rw [cse]; exact i1.active
    · rw [cse]; exact i1.head
    · rw [cse]; simp [Cache.insert]
    · intro p' hp'
      rw [cse]
      simp only [Cache.insert]
      rw [if_neg (fun h => hp' h.2), i2 p' hp', cb]
      rfl

/-- The head expression at level 1: the memo table ends up with the body's outcome for the old seed. -/
theorem htS1 {t₀ : Expr R} (hC : ∀ n, SClaim P src S n) (hL : PlainLR P.body S inv A a t₀) {e t : Expr R}
    (hht : HeadTail inv A e t) (ht : t.Over S) {m : Option (Bool × Nat × Nat)} :
    ∀ n parent st b q st', G P src S A p true m st →
      eval P src n e parent p st = .ok (b, q, st') →
      (∃ b1 q1 k1, BSpec P src a t₀ p m b1 q1 ∧ G P src S A p false (some (b1, q1, k1)) st') ∧ GFr A p st st' := by
  have tailStep : ∀ (c : Expr R), c.Over S → ∀ n m parent s st b q st', G P src S A p false m st →
      eval P src n c parent s st = .ok (b, q, st') →
      Peg P.body src c s b q ∧ G P src S A p false m st' ∧ GFr A p st st' := by
    intro c hc n m parent s st b q st' hl he
    obtain ⟨h1, h2, h3⟩ := hC n c parent s st b q st' hc hl.ok he
    exact ⟨h1, hl.next hL.notS h2 h3, h3.gfr hL.notS⟩
  induction hht with
  | @base t =>
    intro n parent st b q st' hl he
    cases n with
    | zero => cases he
    | succ n =>
      simp only [eval, sequenceKernel] at he
      rw [Out.bind_eq_ok] at he
      obtain ⟨⟨b1, q1, st1⟩, h1, h2⟩ := he
      obtain ⟨k1, f1, f2, f3⟩ := headS1 hC hL hl h1
      dsimp only at h2
      cases b1 with
      | false =>
        simp at h2
        obtain ⟨rfl, rfl, rfl⟩ := h2
        exact ⟨⟨_, _, _, f1, f2⟩, f3⟩
      | true =>
        simp only [if_true] at h2
        rw [Out.bind_eq_ok] at h2
        obtain ⟨⟨b2, q2, st2⟩, h3, h4⟩ := h2
        obtain ⟨g1, g2, g3⟩ := tailStep t ht n _ _ _ _ _ _ _ f2 h3
        dsimp only at h4
        cases b2 with
        | true =>
          simp at h4
          obtain ⟨rfl, rfl, rfl⟩ := h4
          exact ⟨⟨_, _, _, f1, g2⟩, f3.trans g3⟩
        | false =>
          simp at h4
          obtain ⟨rfl, rfl, rfl⟩ := h4
          exact ⟨⟨_, _, _, f1, g2⟩, f3.trans g3⟩
  | @seq e t c _ ih =>
    intro n parent st b q st' hl he
    cases n with
    | zero => cases he
    | succ n =>
      simp only [eval, sequenceKernel] at he
      rw [Out.bind_eq_ok] at he
      obtain ⟨⟨b1, q1, st1⟩, h1, h2⟩ := he
      obtain ⟨⟨b0, q0, k0, i0, i1⟩, i2⟩ := ih ht.1 n _ _ _ _ _ hl h1
      dsimp only at h2
      cases b1 with
      | false =>
        simp at h2
        obtain ⟨rfl, rfl, rfl⟩ := h2
        exact ⟨⟨_, _, _, i0, i1⟩, i2⟩
      | true =>
        simp only [if_true] at h2
        rw [Out.bind_eq_ok] at h2
        obtain ⟨⟨b2, q2, st2⟩, h3, h4⟩ := h2
        obtain ⟨g1, g2, g3⟩ := tailStep c ht.2 n _ _ _ _ _ _ _ i1 h3
        dsimp only at h4
        cases b2 with
        | true =>
          simp at h4
          obtain ⟨rfl, rfl, rfl⟩ := h4
          exact ⟨⟨_, _, _, i0, g2⟩, i2.trans g3⟩
        | false =>
          simp at h4
          obtain ⟨rfl, rfl, rfl⟩ := h4
          exact ⟨⟨_, _, _, i0, g2⟩, i2.trans g3⟩
  | @sub e t _ ih =>
    intro n parent st b q st' hl he
    cases n with
    | zero => cases he
    | succ n =>
      simp only [eval, subexpressionKernel] at he
      rw [Out.bind_eq_ok] at he
      obtain ⟨⟨b1, q1, st1⟩, h1, h2⟩ := he
      obtain ⟨i1, i2⟩ := ih ht n _ _ _ _ _ hl h1
      dsimp only at h2
      cases b1 <;> simp at h2 <;> obtain ⟨rfl, rfl, rfl⟩ := h2
      · exact ⟨i1, i2⟩
      · exact ⟨i1, i2⟩
  | @choice e t e' t' _ hht' ih _ =>
    intro n parent st b q st' hl he
    cases n with
    | zero => cases he
    | succ n =>
      simp only [eval, orderedChoiceKernel] at he
      rw [Out.bind_eq_ok] at he
      obtain ⟨⟨b1, q1, st1⟩, h1, h2⟩ := he
      obtain ⟨⟨b0, q0, k0, i0, i1⟩, i2⟩ := ih ht.1 n _ _ _ _ _ hl h1
      dsimp only at h2
      cases b1 with
      | true =>
        simp at h2
        obtain ⟨rfl, rfl, rfl⟩ := h2
        exact ⟨⟨_, _, _, i0, i1⟩, i2⟩
      | false =>
        simp only [Bool.false_eq_true, if_false] at h2
        rw [Out.bind_eq_ok] at h2
        obtain ⟨⟨b2, q2, st2⟩, h3, h4⟩ := h2
        obtain ⟨j1, j2, j3⟩ := htS0 hC hL.notS hht' ht.2 n _ _ _ _ _ i1 h3
        dsimp only at h4
        cases b2 with
        | true =>
          simp at h4
          obtain ⟨rfl, rfl, rfl⟩ := h4
          exact ⟨⟨_, _, _, i0, j1⟩, i2.trans j2⟩
        | false =>
          simp at h4
          obtain ⟨rfl, rfl, rfl⟩ := h4
          exact ⟨⟨_, _, _, i0, j1⟩, i2.trans j2⟩

/-- The body at level 1. -/
theorem bodyS1 (hC : ∀ n, SClaim P src S n) (hL : PlainLR P.body S inv A a t) {m : Option (Bool × Nat × Nat)} :
    ∀ n parent st b q st', G P src S A p true m st →
      eval P src n (P.body A) parent p st = .ok (b, q, st') →
      (∃ b1 q1 k1, BSpec P src a t p m b1 q1 ∧ G P src S A p false (some (b1, q1, k1)) st') ∧ GFr A p st st' := by
  intro n parent st b q st' hl he
  obtain ⟨e, hbody, hht⟩ := hL.shape
  rw [hbody] at he
  cases n with
  | zero => cases he
  | succ n =>
    simp only [eval, orderedChoiceKernel] at he
    rw [Out.bind_eq_ok] at he
    obtain ⟨⟨b1, q1, st1⟩, h1, h2⟩ := he
    obtain ⟨⟨b0, q0, k0, i0, i1⟩, i2⟩ := htS1 hC hL hht hL.tail n _ _ _ _ _ hl h1
    dsimp only at h2
    cases b1 with
    | true =>
      simp at h2
      obtain ⟨rfl, rfl, rfl⟩ := h2
      exact ⟨⟨_, _, _, i0, i1⟩, i2⟩
    | false =>
      simp only [Bool.false_eq_true, if_false] at h2
      rw [Out.bind_eq_ok] at h2
      obtain ⟨⟨b2, q2, st2⟩, h3, h4⟩ := h2
      obtain ⟨g1, g2, g3⟩ := hC n a _ _ _ _ _ _ hL.first i1.ok h3
      have hst : st2 = st' := by
        dsimp only at h4
        cases b2 <;> simp at h4 <;> exact h4.2.2
      subst hst
      exact ⟨⟨_, _, _, i0, i1.next hL.notS g2 g3⟩, i2.trans (g3.gfr hL.notS)⟩

/-- Where the growth loop stands: before the first iteration, or with a seed ending at `s`. -/
def PhaseS (P : Parser R U) (src : Source) (a t : Expr R) (p : Nat) (m : Option (Bool × Nat × Nat)) (last : Bool × Nat) :
    Prop :=
  (last = (false, p) ∧ ∀ b q k, m = some (b, q, k) → GrowsTo P.body src a t p b q) ∨
  (∃ s k, last = (true, s) ∧ m = some (true, s, k) ∧ p < s ∧
    (∀ r, Advance P.body src t s r → GrowsTo P.body src a t p true r) ∧
    (∀ b q, Peg P.body src a p b q → q ≤ s))

/-- Memoised results of `A` are correct. -/
def AOK (P : Parser R U) (src : Source) (A : R) (a t : Expr R) (st : St R U) : Prop :=
  ∀ p b q k, st.cache.memo A p = some (b, q, k) → GrowsTo P.body src a t p b q

/-- One iteration from the start: what the body returned. -/
theorem phase_first {m : Option (Bool × Nat × Nat)} {b1 : Bool} {q1 : Nat}
    (h : ∀ b q k, m = some (b, q, k) → GrowsTo P.body src a t p b q) (f : BSpec P src a t p m b1 q1) :
    Peg P.body src a p b1 q1 ∨ (b1 = true ∧ GrowsTo P.body src a t p true q1) := by
  rcases f with ⟨s, k, hsk, rfl, ht⟩ | ⟨_, _, _, _, h⟩ | ⟨_, h⟩
  · obtain ⟨s0, g1, g2, g3⟩ := h _ _ _ hsk
    rcases g3.end_ with g | g
    · have := (g.det ht).1; cases this
    · have := (g.det ht).2
      subst this
      exact Or.inr ⟨rfl, s0, g1, g2, g3⟩
  · exact Or.inl h
  · exact Or.inl h

theorem growthLoopS (hC : ∀ n, SClaim P src S n) (hL : PlainLR P.body S inv A a t) {n : Nat}
    (parent : Nat) (prev : Option (R × Nat)) : ∀ f last lastKey ck st m b q st', SOK P src S st →
      st.cache.active = some (A, p) → (∃ h, st.cache.heads A p = some h ∧ A ∈ h.involved) → st.cache.memo A p = m →
      PhaseS P src a t p m last →
      growthLoop A (eval P src n (P.body A)) parent p prev f last lastKey ck st = .ok (b, q, st') →
      GrowsTo P.body src a t p b q ∧ SOK P src S st' ∧ st'.cache.active = prev ∧
        (∃ k, st'.cache.memo A p = some (b, q, k)) ∧ GFr A p st st' := by
  intro f
  induction f with
  | zero => intro last lastKey ck st m b q st' _ _ _ _ _ h; cases h
  | succ f ihf =>
    intro last lastKey ck st m b q st' ho ha hh hmemo hph h
    obtain ⟨hh, hh1, hh2⟩ := hh
    unfold growthLoop at h
    rw [Out.bind_eq_ok] at h
    obtain ⟨s1, a1, h⟩ := h
    have c1 : s1.cache = st.cache.putHead A p { hh with evalSet := hh.involved } := by
      unfold St.reinitializeEvalSet Cache.reinitializeEvalSet at a1
      simp only [hh1, Out.bind_ok] at a1
      injection a1 with a1
      rw [← a1]
    have hl1 : G P src S A p true m s1 := by
      refine ⟨?_, ?_, ?_, ?_⟩
      · unfold SOK; rw [c1]; exact ho
      · rw [c1]; exact ha
      · refine ⟨{ hh with evalSet := hh.involved }, ?_, by simp [hh2], hh2⟩
        rw [c1]; simp [Cache.putHead]
      · rw [c1]; exact hmemo
    have hf1 : GFr A p st s1 := fun p' _ => by rw [c1]; rfl
    rw [Out.bind_eq_ok] at h
    obtain ⟨⟨b0, q0, s2⟩, a2, h⟩ := h
    obtain ⟨⟨b1, q1, k1, f1, l0⟩, hf2⟩ := bodyS1 hC hL n _ _ _ _ _ hl1 a2
    have hpick : growthPick s2 A p ck b0 q0 = (k1, b1, q1) := by
      simp only [growthPick, Cache.check, l0.memo]
    dsimp only at h
    rw [hpick] at h
    dsimp only at h
    rw [Out.bind_eq_ok] at h
    obtain ⟨s3, a3, h⟩ := h
    have c3 := (updateEntry_eqs a3).1
    have l3 := l0.of_cache c3
    have hf3 : GFr A p st s3 := hf1.trans (hf2.trans fun p' _ => by rw [c3])
    split at h
    · -- the growth stops
      next hstop =>
      rw [Out.bind_eq_ok] at h
      obtain ⟨s4, a4, h⟩ := h
      have c4 := (connect_eqs a4).1
      simp at h
      obtain ⟨rfl, rfl, rfl⟩ := h
      have hres : GrowsTo P.body src a t p last.1 last.2 := by
        rcases hph with ⟨rfl, h⟩ | ⟨s, k, rfl, hm', hlt, hreach, hfirst⟩
        · refine ⟨rfl, ?_⟩
          rcases phase_first h f1 with hp | ⟨rfl, s0, g1, g2, g3⟩
          · cases b1 with
            | false => exact Or.inl (hp.false_in_place rfl)
            | true =>
              simp at hstop
              have := hp.bounds.2
              obtain rfl : q1 = p := by omega
              exact Or.inr hp
          · have := g3.le
            simp at hstop
            omega
        · rcases f1 with ⟨s', k', hsk, rfl, ht⟩ | ⟨s', k', hsk, ht, _⟩ | ⟨hne, _⟩
          · rw [hm'] at hsk; cases hsk
            simp at hstop
            have := ht.bounds.2
            obtain rfl : q1 = s := by omega
            exact hreach _ (.still ht)
          · rw [hm'] at hsk; cases hsk
            exact hreach _ (.fail ht)
          · exact absurd hm' (hne _ _)
      have cfin : (s4.setActive prev |>.createCacheEntry A last.1 p last.2 lastKey).cache =
          (s3.cache.setActive prev).insert A last.1 p last.2 lastKey := by
        simp only [St.createCacheEntry, St.setActive, c4]
      refine ⟨hres, ?_, by rw [cfin]; rfl, ⟨lastKey, by rw [cfin]; simp [Cache.insert]⟩, ?_⟩
      · intro r p' b q k hr hmem
        rw [cfin] at hmem
        simp only [Cache.insert, Cache.setActive] at hmem
        rw [if_neg (by rintro ⟨rfl, _⟩; exact hL.notS hr)] at hmem
        exact l3.ok r p' b q k hr hmem
      · intro p' hp'
        rw [cfin]
        simp only [Cache.insert, Cache.setActive]
        rw [if_neg (fun h => hp' h.2)]
        exact hf3 p' hp'
    · -- another iteration
      next hgo =>
      rw [Out.bind_eq_ok] at h
      obtain ⟨⟨nk, s4⟩, a4, h⟩ := h
      have c4 := (reserve_eqs a4).1
      dsimp only at h
      have hb1 : b1 = true := by
        cases b1 with
        | true => rfl
        | false => simp at hgo
      subst hb1
      have hq1 : last.2 < q1 := by simpa using hgo
      have l4 := l3.of_cache c4
      have hphase : PhaseS P src a t p (some (true, q1, k1)) (true, q1) := by
        rcases hph with ⟨rfl, h⟩ | ⟨s, k, rfl, hm', hlt, hreach, hfirst⟩
        · refine Or.inr ⟨q1, k1, rfl, rfl, hq1, ?_, ?_⟩
          · rcases phase_first h f1 with hp | ⟨_, s0, g1, g2, g3⟩
            · exact fun r hr => ⟨q1, hp, hq1, hr⟩
            · intro r hr
              have : q1 = r := by
                cases hr with
                | fail | still => rfl
                | step g hl _ =>
                  rcases g3.end_ with g' | g'
                  · have := (g'.det g).1; cases this
                  · have := (g'.det g).2; omega
              subst this
              exact ⟨s0, g1, g2, g3⟩
          · intro b' q' hq'
            rcases phase_first h f1 with hp | ⟨_, s0, g1, g2, g3⟩
            · have := (hp.det hq').2; omega
            · have := (g1.det hq').2
              have := g3.le
              omega
        · simp only at hq1
          refine Or.inr ⟨q1, k1, rfl, rfl, by omega, ?_, fun b' q' hq' => by have := hfirst _ _ hq'; omega⟩
          rcases f1 with ⟨s', k', hsk, _, ht⟩ | ⟨s', k', hsk, ht, h⟩ | ⟨hne, _⟩
          · rw [hm'] at hsk; cases hsk
            exact fun r hr => hreach r (.step ht hq1 hr)
          · have := hfirst _ _ h
            omega
          · exact absurd hm' (hne _ _)
      obtain ⟨hh4, hh5, _, hh6⟩ := l4.head
      obtain ⟨r1, r2, r3, r4, r5⟩ := ihf (true, q1) k1 nk s4 _ b q st' l4.ok l4.active ⟨hh4, hh5, hh6⟩ l4.memo hphase h
      exact ⟨r1, r2, r3, r4, hf3.trans (GFr.trans (fun p' _ => by rw [c4]) r5)⟩

/-- A call of `A` while nothing is being grown. -/
theorem plainLR_call (hL : PlainLR P.body S inv A a t) {n parent : Nat} {st : St R U} {b : Bool} {q : Nat} {st' : St R U}
    (ho : SOK P src S st) (ha : st.cache.active = none) (hA : AOK P src A a t st)
    (h : eval P src n (.varNameLR inv A) parent p st = .ok (b, q, st')) :
    GrowsTo P.body src a t p b q ∧ SOK P src S st' ∧ st'.cache.active = none ∧ AOK P src A a t st' := by
  have hC := sclaim_all (P := P) (src := src) hL.closed
  cases n with
  | zero => cases h
  | succ n =>
    simp only [eval, varNameLRKernel, shouldGrow, ha, Out.bind_ok, if_true] at h
    unfold growthFunction at h
    rw [Out.bind_eq_ok] at h
    obtain ⟨⟨lk, s1⟩, a1, hg⟩ := h
    have c1 := (reserve_eqs a1).1
    dsimp only at hg
    rw [Out.bind_eq_ok] at hg
    obtain ⟨s2, a2, hg⟩ := hg
    have c2 := (updateEntry_eqs a2).1
    rw [Out.bind_eq_ok] at hg
    obtain ⟨⟨ck, s3⟩, a3, hg⟩ := hg
    have c3 := (reserve_eqs a3).1
    dsimp only at hg
    have c4 : (s3.setHead p A (toBTreeSet inv)).cache =
        (st.cache.setActive (some (A, p))).putHead A p ⟨p, A, toBTreeSet inv, toBTreeSet inv⟩ := by
      simp only [St.setHead, Cache.setHead, c3, c2, c1]
      rfl
    generalize s3.setHead p A (toBTreeSet inv) = s4 at hg c4
    have hmem : A ∈ toBTreeSet inv := (mem_toBTreeSet _ _).mpr hL.inv
    obtain ⟨r1, r2, r3, ⟨k, r4⟩, r5⟩ := growthLoopS hC hL parent none n (false, p) lk ck s4 (s4.cache.memo A p) b q st'
      (by unfold SOK; rw [c4]; exact ho) (by rw [c4]; rfl) ⟨_, by rw [c4]; simp [Cache.putHead]; rfl, hmem⟩ rfl
      (Or.inl ⟨rfl, fun b q k hm => hA p b q k (by rw [← hm, c4]; rfl)⟩) hg
    refine ⟨r1, r2, r3, fun p' b' q' k' hm' => ?_⟩
    by_cases hp : p' = p
    · subst hp
      rw [r4] at hm'
      obtain ⟨rfl, rfl, _⟩ : b = b' ∧ q = q' ∧ k = k' := by simpa using hm'
      exact r1
    · rw [r5 p' hp, c4] at hm'
      exact hA p' b' q' k' hm'

end Grow
end
end PP
