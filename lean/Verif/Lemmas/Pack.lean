import Verif.Lemmas.Complete

/-! # The packrat bound: one node per (rule, position) -/
set_option linter.unusedSectionVars false
namespace PP
variable {R U : Type} [DecidableEq R] {P : Parser R U} {src : Source}

theorem Tree.sizeL_append (ts us : List (Tree R)) :
    Tree.size.sizeL (ts ++ us) = Tree.size.sizeL ts + Tree.size.sizeL us := by
  induction ts with
  | nil => simp [Tree.size.sizeL]
  | cons t ts ih => simp [Tree.size.sizeL, ih]; omega

/-- The call added exactly the memo entries `new`, one node each, all with invocation trees smaller than `sz`. -/
def Pack (body : R → Expr R) (src : Source) (st st' : St R U) (p sz : Nat) : Prop :=
  ∃ new : List (R × Nat), new.Nodup ∧ (∀ x ∈ new, st.cache.memo x.1 x.2 = none) ∧
    (∀ r p', st'.cache.memo r p' ≠ none ↔ st.cache.memo r p' ≠ none ∨ (r, p') ∈ new) ∧
    st'.pub.nodes.length = st.pub.nodes.length + new.length ∧
    ∀ x ∈ new, p ≤ x.2 ∧ (x.2 = p ∨ x.2 ≤ src.len) ∧
      ∃ b q ts, PegT body src (body x.1) x.2 b q ts ∧ 1 + Tree.size.sizeL ts ≤ sz

theorem Pack.refl {body : R → Expr R} (st : St R U) (p sz : Nat) : Pack body src st st p sz :=
  ⟨[], by simp, by simp, by simp, by simp, by simp⟩

theorem Pack.trans {body : R → Expr R} {st st1 st2 : St R U} {p p1 s1 s2 : Nat} (h1 : Pack body src st st1 p s1)
    (h2 : Pack body src st1 st2 p1 s2) (hp : p1 = p ∨ (p < p1 ∧ p1 ≤ src.len)) : Pack body src st st2 p (s1 + s2) := by
  obtain ⟨n1, a1, b1, c1, d1, e1⟩ := h1
  obtain ⟨n2, a2, b2, c2, d2, e2⟩ := h2
  refine ⟨n1 ++ n2, ?_, ?_, ?_, ?_, ?_⟩
  · rw [List.nodup_append]
    refine ⟨a1, a2, ?_⟩
    rintro x hx y hy rfl
    exact (c1 x.1 x.2).mpr (Or.inr hx) (b2 x hy)
  · intro x hx
    rcases List.mem_append.mp hx with hx | hx
    · exact b1 x hx
    · cases hm : st.cache.memo x.1 x.2 with
      | none => rfl
      | some v => exact absurd (b2 x hx) ((c1 x.1 x.2).mpr (Or.inl (by rw [hm]; simp)))
  · intro r p'
    rw [c2, c1, List.mem_append]
    constructor
    · rintro ((h | h) | h)
      · exact Or.inl h
      · exact Or.inr (Or.inl h)
      · exact Or.inr (Or.inr h)
    · rintro (h | h | h)
      · exact Or.inl (Or.inl h)
      · exact Or.inl (Or.inr h)
      · exact Or.inr h
  · rw [d2, d1, List.length_append]; omega
  · intro x hx
    rcases List.mem_append.mp hx with hx | hx
    · obtain ⟨g1, g2, b, q, ts, g3, g4⟩ := e1 x hx
      exact ⟨g1, g2, b, q, ts, g3, by omega⟩
    · obtain ⟨g1, g2, b, q, ts, g3, g4⟩ := e2 x hx
      exact ⟨by omega, by omega, b, q, ts, g3, by omega⟩

theorem PegT.pos {body : R → Expr R} {e : Expr R} {p b q ts} (h : PegT body src e p b q ts) :
    q = p ∨ (p < q ∧ q ≤ src.len) := by
  have : Run False body src e p b q ts := by
    induction h with
    | terminal_ok h1 h2 => exact .terminal_ok h1 h2
    | terminal_fail h => exact .terminal_fail h
    | range_ok h1 h2 h3 h4 => exact .range_ok h1 h2 h3 h4
    | range_fail h => exact .range_fail h
    | string_ok h1 h2 => exact .string_ok h1 h2
    | string_fail h => exact .string_fail h
    | seq_ok _ _ i1 i2 => exact .seq_ok i1 i2
    | seq_fail1 _ i1 => exact .seq_fail1 i1
    | seq_fail2 _ _ i1 i2 => exact .seq_fail2 i1 i2
    | choice_left _ i1 => exact .choice_left i1
    | choice_right _ _ i1 i2 => exact .choice_right i1 i2
    | choice_fail _ _ i1 i2 => exact .choice_fail i1 i2
    | and_ok _ i => exact .and_ok i
    | and_fail _ i => exact .and_fail i
    | not_ok _ i => exact .not_ok i
    | not_fail _ i => exact .not_fail i
    | opt_some _ i => exact .opt_some i
    | opt_none _ i => exact .opt_none i
    | star_stop _ i => exact .star_stop i
    | star_step _ _ i1 i2 => exact .star_step i1 i2
    | plus_ok _ _ i1 i2 => exact .plus_ok i1 i2
    | plus_fail _ i => exact .plus_fail i
    | sub_ok _ i => exact .sub_ok i
    | sub_fail _ i => exact .sub_fail i
    | ref _ i => exact .ref i
    | inl _ i => exact .inl i
  exact this.pos.2

theorem connect_eqs {st st' : St R U} {a b : Nat} (h : st.connect a b = .ok st') :
    st'.cache = st.cache ∧ st'.user = st.user ∧ st'.pub.nodes.length = st.pub.nodes.length := by
  unfold St.connect at h
  rw [Out.bind_eq_ok] at h
  obtain ⟨pb, h1, h2⟩ := h
  cases h2
  unfold Publisher.connect at h1
  split at h1
  · cases h1
  · unfold Publisher.modify at h1
    split at h1
    · cases h1
    · cases h1; simp

theorem modify_len {p p' : Publisher R} {k : Nat} {f : Node R → Node R} (h : p.modify k f = .ok p') :
    p'.nodes.length = p.nodes.length := by
  unfold Publisher.modify at h
  split at h
  · cases h
  · cases h; simp

theorem updateEntry_eqs {st st' : St R U} {k : Nat} {b : Bool} {p q : Nat} (h : st.updateEntry k b p q = .ok st') :
    st'.cache = st.cache ∧ st'.user = st.user ∧ st'.pub.nodes.length = st.pub.nodes.length := by
  unfold St.updateEntry at h
  rw [Out.bind_eq_ok] at h
  obtain ⟨p1, h1, h⟩ := h
  rw [Out.bind_eq_ok] at h
  obtain ⟨p2, h2, h⟩ := h
  rw [Out.bind_eq_ok] at h
  obtain ⟨p3, h3, h⟩ := h
  cases h
  exact ⟨rfl, rfl, by rw [modify_len h3, modify_len h2, modify_len h1]⟩

theorem reserve_eqs {st st' : St R U} {r : R} {k : Nat} (h : st.reserve r = .ok (k, st')) :
    st'.cache = st.cache ∧ st'.user = st.user ∧ st'.pub.nodes.length = st.pub.nodes.length + 1 ∧
      k = st.pub.nodes.length := by
  rcases reserve_cases st r with h' | h'
  · rw [h'] at h; cases h
  · rw [h'] at h
    injection h with h
    obtain ⟨rfl, rfl⟩ := Prod.mk.inj h
    simp

theorem ite_ok {c : Prop} [Decidable c] {α : Type} {x y a : α} (h : (if c then Out.ok x else Out.ok y) = Out.ok a) :
    (c ∧ x = a) ∨ (¬ c ∧ y = a) := by
  split at h <;> simp_all

theorem eval_pack (hh : P.HooksOK src) (hb : ∀ r, (P.body r).Plain) : ∀ n (e : Expr R), e.Plain → ∀ parent p st b q st',
    Good False P src parent st → eval P src n e parent p st = .ok (b, q, st') →
    ∃ ts, PegT P.body src e p b q ts ∧ Pack P.body src st st' p (Tree.size.sizeL ts) := by
  intro n
  induction n with
  | zero => intro e _ parent p st b q st' _ h; cases h
  | succ n ih =>
    have loop : ∀ (e : Expr R), e.Plain → ∀ m parent p st b q st', Good False P src parent st →
        repeatLoop (eval P src n e) parent m p st = .ok (b, q, st') →
        ∃ ts, PegT P.body src (.zeroOrMore e) p b q ts ∧ Pack P.body src st st' p (Tree.size.sizeL ts) := by
      intro e he m
      induction m with
      | zero => intro parent p st b q st' _ h; cases h
      | succ m ihm =>
        intro parent p st b q st' hg h
        unfold repeatLoop at h
        rw [Out.bind_eq_ok] at h
        obtain ⟨⟨b1, q1, st1⟩, h1, h2⟩ := h
        dsimp only at h2
        obtain ⟨ts, t1, k1⟩ := ih e he _ _ _ _ _ _ hg h1
        have hg1 := (hg.nextPeg hh hb he h1).1
        cases b1 with
        | false =>
          simp at h2
          obtain ⟨rfl, rfl, rfl⟩ := h2
          exact ⟨ts, .star_stop t1, k1⟩
        | true =>
          simp only [Bool.not_true, Bool.false_eq_true, if_false] at h2
          obtain ⟨us, t2, k2⟩ := ihm _ _ _ _ _ _ hg1 h2
          have hbq : b = true := by
            cases t2 <;> rfl
          subst hbq
          refine ⟨ts ++ us, .star_step t1 t2, ?_⟩
          rw [Tree.sizeL_append]
          exact k1.trans k2 t1.pos
    intro e he parent p st b q st' hg h
    cases e with
    | andPredicate e =>
      simp only [eval, andPredicateKernel] at h
      rw [Out.bind_eq_ok] at h
      obtain ⟨⟨b1, q1, st1⟩, h1, h2⟩ := h
      obtain ⟨ts, t1, k1⟩ := ih e he _ _ _ _ _ _ hg h1
      dsimp only at h2
      cases b1 <;> simp at h2 <;> obtain ⟨rfl, rfl, rfl⟩ := h2
      · exact ⟨ts, .and_fail t1, k1⟩
      · exact ⟨ts, .and_ok t1, k1⟩
    | notPredicate e =>
      simp only [eval, notPredicateKernel] at h
      rw [Out.bind_eq_ok] at h
      obtain ⟨⟨b1, q1, st1⟩, h1, h2⟩ := h
      obtain ⟨ts, t1, k1⟩ := ih e he _ _ _ _ _ _ hg h1
      dsimp only at h2
      cases b1 <;> simp at h2 <;> obtain ⟨rfl, rfl, rfl⟩ := h2
      · exact ⟨ts, .not_ok t1, k1⟩
      · exact ⟨ts, .not_fail t1, k1⟩
    | oneOrMore e =>
      simp only [eval, oneOrMoreKernel] at h
      rw [Out.bind_eq_ok] at h
      obtain ⟨⟨b1, q1, st1⟩, h1, h2⟩ := h
      obtain ⟨ts, t1, k1⟩ := ih e he _ _ _ _ _ _ hg h1
      have hg1 := (hg.nextPeg hh hb (e := e) he h1).1
      dsimp only at h2
      cases b1 with
      | false =>
        simp at h2
        obtain ⟨rfl, rfl, rfl⟩ := h2
        exact ⟨ts, .plus_fail t1, k1⟩
      | true =>
        simp only [Bool.not_true, Bool.false_eq_true, if_false] at h2
        obtain ⟨us, t2, k2⟩ := loop e he _ _ _ _ _ _ _ hg1 h2
        have hbq : b = true := by
          cases t2 <;> rfl
        subst hbq
        refine ⟨ts ++ us, .plus_ok t1 t2, ?_⟩
        rw [Tree.sizeL_append]
        exact k1.trans k2 t1.pos
    | zeroOrMore e => exact loop e he _ _ _ _ _ _ _ hg h
    | optional e =>
      simp only [eval, optionalKernel] at h
      rw [Out.bind_eq_ok] at h
      obtain ⟨⟨b1, q1, st1⟩, h1, h2⟩ := h
      obtain ⟨ts, t1, k1⟩ := ih e he _ _ _ _ _ _ hg h1
      dsimp only at h2
      cases b1 <;> simp at h2 <;> obtain ⟨rfl, rfl, rfl⟩ := h2
      · exact ⟨ts, .opt_none t1, k1⟩
      · exact ⟨ts, .opt_some t1, k1⟩
    | subexpression e =>
      simp only [eval, subexpressionKernel] at h
      rw [Out.bind_eq_ok] at h
      obtain ⟨⟨b1, q1, st1⟩, h1, h2⟩ := h
      obtain ⟨ts, t1, k1⟩ := ih e he _ _ _ _ _ _ hg h1
      dsimp only at h2
      cases b1 <;> simp at h2 <;> obtain ⟨rfl, rfl, rfl⟩ := h2
      · exact ⟨ts, .sub_fail t1, k1⟩
      · exact ⟨ts, .sub_ok t1, k1⟩
    | orderedChoice a c =>
      simp only [eval, orderedChoiceKernel] at h
      rw [Out.bind_eq_ok] at h
      obtain ⟨⟨b1, q1, st1⟩, h1, h2⟩ := h
      obtain ⟨ts, t1, k1⟩ := ih a he.1 _ _ _ _ _ _ hg h1
      have hg1 := (hg.nextPeg hh hb he.1 h1).1
      dsimp only at h2
      cases b1 with
      | true =>
        simp at h2
        obtain ⟨rfl, rfl, rfl⟩ := h2
        exact ⟨ts, .choice_left t1, k1⟩
      | false =>
        simp only [Bool.false_eq_true, if_false] at h2
        rw [Out.bind_eq_ok] at h2
        obtain ⟨⟨b2, q2, st2⟩, h3, h4⟩ := h2
        obtain ⟨us, t2, k2⟩ := ih c he.2 _ _ _ _ _ _ hg1 h3
        dsimp only at h4
        have hk := k1.trans k2 (Or.inl rfl)
        rw [← Tree.sizeL_append] at hk
        cases b2 <;> simp at h4 <;> obtain ⟨rfl, rfl, rfl⟩ := h4
        · exact ⟨ts ++ us, .choice_fail t1 t2, hk⟩
        · exact ⟨ts ++ us, .choice_right t1 t2, hk⟩
    | sequence a c =>
      simp only [eval, sequenceKernel] at h
      rw [Out.bind_eq_ok] at h
      obtain ⟨⟨b1, q1, st1⟩, h1, h2⟩ := h
      obtain ⟨ts, t1, k1⟩ := ih a he.1 _ _ _ _ _ _ hg h1
      have hg1 := (hg.nextPeg hh hb he.1 h1).1
      dsimp only at h2
      cases b1 with
      | false =>
        simp at h2
        obtain ⟨rfl, rfl, rfl⟩ := h2
        exact ⟨ts, .seq_fail1 t1, k1⟩
      | true =>
        simp only [if_true] at h2
        rw [Out.bind_eq_ok] at h2
        obtain ⟨⟨b2, q2, st2⟩, h3, h4⟩ := h2
        obtain ⟨us, t2, k2⟩ := ih c he.2 _ _ _ _ _ _ hg1 h3
        dsimp only at h4
        have hk := k1.trans k2 t1.pos
        rw [← Tree.sizeL_append] at hk
        cases b2 <;> simp at h4 <;> obtain ⟨rfl, rfl, rfl⟩ := h4
        · exact ⟨ts ++ us, .seq_fail2 t1 t2, hk⟩
        · exact ⟨ts ++ us, .seq_ok t1 t2, hk⟩
    | terminal c | stringTerminal d | matchRange lo hi =>
      obtain ⟨_, hp⟩ := hg.nextPeg hh hb he h
      obtain ⟨ts, ht⟩ := hp.pegT
      simp only [eval, liftPure] at h
      injection h with h
      obtain ⟨_, h⟩ := Prod.mk.inj h
      obtain ⟨_, rfl⟩ := Prod.mk.inj h
      exact ⟨ts, ht, Pack.refl _ _ _⟩
    | varName r =>
      obtain ⟨_, hpeg⟩ := hg.nextPeg hh hb he h
      simp only [eval, varNameKernel, Cache.check] at h
      split at h
      · unfold memoizedBehaviour at h
        rw [Out.bind_eq_ok] at h
        obtain ⟨st1, h1, h2⟩ := h
        cases h2
        obtain ⟨e1, _, e2⟩ := connect_eqs h1
        obtain ⟨ts, ht⟩ := hpeg.pegT
        refine ⟨ts, ht, [], by simp, by simp, ?_, by simp [e2], by simp⟩
        intro r p'
        rw [e1]; simp
      · next hm =>
        unfold defaultBehaviour at h
        rw [Out.bind_eq_ok] at h
        obtain ⟨⟨ck, st1⟩, h1, h⟩ := h
        obtain ⟨f1, _, f2, _⟩ := reserve_eqs h1
        rw [Out.bind_eq_ok] at h
        obtain ⟨⟨b', q', st2⟩, h2, h⟩ := h
        obtain ⟨ts, t1, new, a1, a2, a3, a4, a5⟩ := ih _ (hb r) _ _ _ _ _ _ (hg.reserve h1) h2
        dsimp only at h
        rw [Out.bind_eq_ok] at h
        obtain ⟨st3, h3, h⟩ := h
        obtain ⟨g1, _, g2⟩ := updateEntry_eqs h3
        rw [Out.bind_eq_ok] at h
        obtain ⟨st4, h4, h⟩ := h
        obtain ⟨i1, _, i2⟩ := connect_eqs h4
        cases h
        refine ⟨[Tree.mk r p b q ts], .ref t1, (r, p) :: new, ?_, ?_, ?_, ?_, ?_⟩
        · rw [List.nodup_cons]
          refine ⟨fun hmem => ?_, a1⟩
          obtain ⟨_, _, b', q', ts', t', hsz⟩ := a5 _ hmem
          obtain ⟨_, _, rfl⟩ := t1.det t'
          omega
        · intro x hx
          rcases List.mem_cons.mp hx with rfl | hx
          · exact hm
          · rw [← f1]; exact a2 x hx
        · intro r' p'
          rw [i1, g1]
          simp only [St.createCacheEntry, Cache.insert]
          by_cases hrp : r' = r ∧ p' = p
          · obtain ⟨rfl, rfl⟩ := hrp; simp
          · rw [if_neg hrp, a3, f1]
            simp only [List.mem_cons, Prod.mk.injEq, hrp, false_or]
        · rw [i2, g2]
          simp only [St.createCacheEntry, List.length_cons]
          omega
        · intro x hx
          have hs : Tree.size.sizeL [Tree.mk r p b q ts] = 1 + Tree.size.sizeL ts := by
            rw [Tree.size.sizeL, Tree.mk, Tree.size, Tree.size.sizeL]; omega
          rw [hs]
          rcases List.mem_cons.mp hx with rfl | hx
          · exact ⟨Nat.le_refl _, Or.inl rfl, b, q, ts, t1, Nat.le_refl _⟩
          · obtain ⟨j1, j2, b', q', ts', t', hsz⟩ := a5 _ hx
            exact ⟨j1, j2, b', q', ts', t', by omega⟩
    | varNameLR inv r => exact he.elim
    | inlined r =>
      obtain ⟨ts, t1, k1⟩ := ih _ (hb r) _ _ _ _ _ _ hg h
      exact ⟨ts, .inl t1, k1⟩
    | hooked name e => exact he.elim

end PP
