import Verif.Lemmas.Pack

/-! # Key exhaustion cannot happen within the packrat bound -/
set_option linter.unusedSectionVars false
namespace PP
variable {R U : Type} [DecidableEq R] {P : Parser R U} {src : Source}

/-- A duplicate-free list all of whose elements occur in `m` is not longer than `m`. -/
theorem nodup_length_le {α : Type} [DecidableEq α] {l m : List α} (h : l.Nodup) (hs : l ⊆ m) : l.length ≤ m.length := by
  induction l generalizing m with
  | nil => simp
  | cons a l ih =>
    obtain ⟨h1, h2⟩ := List.nodup_cons.mp h
    have ha : a ∈ m := hs (by simp)
    have : l ⊆ m.erase a := fun x hx =>
      (List.mem_erase_of_ne (by rintro rfl; exact h1 hx)).mpr (hs (by simp [hx]))
    have h3 := ih h2 this
    rw [List.length_erase_of_mem ha] at h3
    have := List.length_pos_of_mem ha
    simp only [List.length_cons]; omega

/-- The nodes allocated so far are accounted for by distinct (rule, position) pairs, memoised or open (in `O`). -/
def Room (st : St R U) (univ O : List (R × Nat)) : Prop :=
  ∃ S : List (R × Nat), S.Nodup ∧ S ⊆ univ ∧ (∀ x ∈ S, st.cache.memo x.1 x.2 ≠ none ∨ x ∈ O) ∧
    st.pub.nodes.length ≤ 1 + S.length

theorem Room.pack {body : R → Expr R} {st st' : St R U} {univ O : List (R × Nat)} {p sz : Nat} (h : Room st univ O)
    (hp : Pack body src st st' p sz)
    (hO : ∀ x ∈ O, ∃ b q ts, PegT body src (body x.1) x.2 b q ts ∧ sz < 1 + Tree.size.sizeL ts)
    (hin : ∀ r p', p ≤ p' → (p' = p ∨ p' ≤ src.len) → (r, p') ∈ univ) : Room st' univ O := by
  obtain ⟨S, s1, s2, s3, s4⟩ := h
  obtain ⟨new, n1, n2, n3, n4, n5⟩ := hp
  refine ⟨S ++ new, ?_, ?_, ?_, ?_⟩
  · rw [List.nodup_append]
    refine ⟨s1, n1, ?_⟩
    rintro x hx y hy rfl
    rcases s3 x hx with h | h
    · exact h (n2 x hy)
    · obtain ⟨b, q, ts, t1, g1⟩ := hO x h
      obtain ⟨_, _, b', q', ts', t2, g2⟩ := n5 x hy
      obtain ⟨_, _, rfl⟩ := t1.det t2
      omega
  · intro x hx
    rcases List.mem_append.mp hx with hx | hx
    · exact s2 hx
    · obtain ⟨g1, g2, _⟩ := n5 x hx
      exact hin x.1 x.2 g1 g2
  · intro x hx
    rcases List.mem_append.mp hx with hx | hx
    · rcases s3 x hx with h | h
      · exact Or.inl ((n3 _ _).mpr (Or.inl h))
      · exact Or.inr h
    · exact Or.inl ((n3 _ _).mpr (Or.inr hx))
  · rw [n4, List.length_append]; omega

theorem Out.bind_no_ko {α β : Type} {x : Out α} {f : α → Out β} (hx : x ≠ .panic .keyOverflow)
    (hf : ∀ a, x = .ok a → f a ≠ .panic .keyOverflow) : (x >>= f) ≠ .panic .keyOverflow := by
  cases x with
  | oof => simp
  | panic p => simpa using hx
  | ok a => exact hf a rfl

theorem modify_no_ko (p : Publisher R) (k : Nat) (g : Node R → Node R) : p.modify k g ≠ .panic .keyOverflow := by
  unfold Publisher.modify; split <;> simp

theorem connect_no_ko (st : St R U) (a b : Nat) : st.connect a b ≠ .panic .keyOverflow := by
  refine Out.bind_no_ko ?_ (by simp)
  unfold Publisher.connect
  split
  · simp
  · exact modify_no_ko _ _ _

theorem updateEntry_no_ko (st : St R U) (k : Nat) (b : Bool) (p q : Nat) :
    st.updateEntry k b p q ≠ .panic .keyOverflow :=
  Out.bind_no_ko (modify_no_ko _ _ _) fun _ _ => Out.bind_no_ko (modify_no_ko _ _ _) fun _ _ =>
    Out.bind_no_ko (modify_no_ko _ _ _) (by simp)

section
variable (hh : P.HooksOK src) (hb : ∀ r, (P.body r).Plain) {B : Nat} (hB : src.len ≤ B) {univ : List (R × Nat)}
  (huniv : ∀ r p, p ≤ B → (r, p) ∈ univ) (hcard : univ.length < 4294967296)
include hh hb hB huniv hcard

/-- The pairs being evaluated have invocation trees larger than `sz`. -/
def OpenAbove (body : R → Expr R) (src : Source) (O : List (R × Nat)) (sz : Nat) : Prop :=
  ∀ x ∈ O, ∃ b q ts, PegT body src (body x.1) x.2 b q ts ∧ sz < 1 + Tree.size.sizeL ts

omit hh hb hB huniv hcard in
theorem OpenAbove.mono {body : R → Expr R} {O : List (R × Nat)} {a b : Nat} (h : OpenAbove body src O b) (hab : a ≤ b) :
    OpenAbove body src O a := fun x hx => by
  obtain ⟨b', q, ts, h1, h2⟩ := h x hx
  exact ⟨b', q, ts, h1, by omega⟩

omit hcard in
/-- Continue after a completed sub-call. -/
theorem room_next {n : Nat} {e : Expr R} (he : e.Plain) {p b q ts b' q'} (h : PegT P.body src e p b q ts) (hpB : p ≤ B)
    {parent : Nat} {st st' : St R U} (hg : Good False P src parent st) {O : List (R × Nat)} (hr : Room st univ O)
    (ho : OpenAbove P.body src O (Tree.size.sizeL ts))
    (hc : eval P src n e parent p st = .ok (b', q', st')) :
    b' = b ∧ q' = q ∧ Good False P src parent st' ∧ Room st' univ O ∧ q ≤ B := by
  obtain ⟨ts', h', hpk⟩ := eval_pack hh hb n e he _ _ _ _ _ _ hg hc
  obtain ⟨rfl, rfl, rfl⟩ := h.det h'
  refine ⟨rfl, rfl, (hg.nextPeg hh hb he hc).1, ?_, ?_⟩
  · refine hr.pack hpk ho ?_
    intro r p' h1 h2
    exact huniv r p' (by omega)
  · have := h.pos; omega

theorem eval_no_overflow {e : Expr R} {p b q ts} (h : PegT P.body src e p b q ts) (he : e.Plain) (hpB : p ≤ B) :
    ∀ n parent st O, Good False P src parent st → Room st univ O → OpenAbove P.body src O (Tree.size.sizeL ts) →
      eval P src n e parent p st ≠ .panic .keyOverflow := by
  have zero : ∀ (e : Expr R) (p parent : Nat) (st : St R U), eval P src 0 e parent p st ≠ .panic .keyOverflow := by
    intro e p parent st; simp [eval]
  induction h with
  | terminal_ok _ _ | terminal_fail _ | range_ok _ _ _ _ | range_fail _ | string_ok _ _ | string_fail _ =>
    intro n parent st O _ _ _
    cases n <;> simp [eval, liftPure]
  | @seq_ok a b p q r ts us h1 h2 i1 i2 | @seq_fail2 a b p q r ts us h1 h2 i1 i2 =>
    intro n parent st O hg hr ho
    rw [Tree.sizeL_append] at ho
    cases n with
    | zero => exact zero _ _ _ _
    | succ n =>
      refine Out.bind_no_ko (i1 he.1 hpB n parent st O hg hr (ho.mono (by omega))) ?_
      rintro ⟨b', q', st'⟩ hc
      obtain ⟨rfl, rfl, hg', hr', hq⟩ := room_next hh hb hB huniv he.1 h1 hpB hg hr (ho.mono (by omega)) hc
      dsimp only
      rw [if_pos rfl]
      refine Out.bind_no_ko (i2 he.2 hq n parent st' O hg' hr' (ho.mono (by omega))) ?_
      rintro ⟨b'', q'', st''⟩ _
      dsimp only; split <;> simp
  | @seq_fail1 a b p q ts h1 i1 =>
    intro n parent st O hg hr ho
    cases n with
    | zero => exact zero _ _ _ _
    | succ n =>
      refine Out.bind_no_ko (i1 he.1 hpB n parent st O hg hr ho) ?_
      rintro ⟨b', q', st'⟩ hc
      obtain ⟨rfl, rfl, _⟩ := room_next hh hb hB huniv he.1 h1 hpB hg hr ho hc
      simp
  | @choice_left a b p q ts h1 i1 =>
    intro n parent st O hg hr ho
    cases n with
    | zero => exact zero _ _ _ _
    | succ n =>
      refine Out.bind_no_ko (i1 he.1 hpB n parent st O hg hr ho) ?_
      rintro ⟨b', q', st'⟩ hc
      obtain ⟨rfl, rfl, _⟩ := room_next hh hb hB huniv he.1 h1 hpB hg hr ho hc
      simp
  | @choice_right a b p q r ts us h1 h2 i1 i2 | @choice_fail a b p q r ts us h1 h2 i1 i2 =>
    intro n parent st O hg hr ho
    rw [Tree.sizeL_append] at ho
    cases n with
    | zero => exact zero _ _ _ _
    | succ n =>
      refine Out.bind_no_ko (i1 he.1 hpB n parent st O hg hr (ho.mono (by omega))) ?_
      rintro ⟨b', q', st'⟩ hc
      obtain ⟨rfl, rfl, hg', hr', hq⟩ := room_next hh hb hB huniv he.1 h1 hpB hg hr (ho.mono (by omega)) hc
      dsimp only
      rw [if_neg (by simp)]
      refine Out.bind_no_ko (i2 he.2 hpB n parent st' O hg' hr' (ho.mono (by omega))) ?_
      rintro ⟨b'', q'', st''⟩ _
      dsimp only; split <;> simp
  | and_ok _ i | and_fail _ i | not_ok _ i | not_fail _ i | opt_some _ i | opt_none _ i | sub_ok _ i | sub_fail _ i =>
    intro n parent st O hg hr ho
    cases n with
    | zero => exact zero _ _ _ _
    | succ n =>
      refine Out.bind_no_ko (i he hpB n parent st O hg hr ho) ?_
      rintro ⟨b', q', st'⟩ _
      dsimp only; split <;> simp
  | @plus_fail e p q ts h1 i =>
    intro n parent st O hg hr ho
    cases n with
    | zero => exact zero _ _ _ _
    | succ n =>
      refine Out.bind_no_ko (i he hpB n parent st O hg hr ho) ?_
      rintro ⟨b', q', st'⟩ hc
      obtain ⟨rfl, rfl, _⟩ := room_next hh hb hB huniv (e := e) he h1 hpB hg hr ho hc
      simp
  | @star_stop e p q ts h1 i =>
    intro n parent st O hg hr ho
    match n with
    | 0 => exact zero _ _ _ _
    | 1 => simp [eval, zeroOrMoreKernel, repeatLoop]
    | n + 2 =>
      show repeatLoop _ _ (n + 1) _ _ ≠ .panic .keyOverflow
      unfold repeatLoop
      refine Out.bind_no_ko (i he hpB (n + 1) parent st O hg hr ho) ?_
      rintro ⟨b', q', st'⟩ hc
      obtain ⟨rfl, rfl, _⟩ := room_next hh hb hB huniv (e := e) he h1 hpB hg hr ho hc
      simp
  | @star_step e p q r ts us h1 h2 i1 i2 =>
    intro n parent st O hg hr ho
    rw [Tree.sizeL_append] at ho
    match n with
    | 0 => exact zero _ _ _ _
    | 1 => simp [eval, zeroOrMoreKernel, repeatLoop]
    | n + 2 =>
      show repeatLoop _ _ (n + 1) _ _ ≠ .panic .keyOverflow
      unfold repeatLoop
      refine Out.bind_no_ko (i1 he hpB (n + 1) parent st O hg hr (ho.mono (by omega))) ?_
      rintro ⟨b', q', st'⟩ hc
      obtain ⟨rfl, rfl, hg', hr', hq⟩ := room_next hh hb hB huniv (e := e) he h1 hpB hg hr (ho.mono (by omega)) hc
      have h3 : repeatLoop (eval P src (n + 1) e) parent (n + 1) q' st' ≠ .panic .keyOverflow :=
        i2 he hq (n + 2) parent st' O hg' hr' (ho.mono (by omega))
      have h4 := repeatLoop_le (PFn.le_refl (eval P src (n + 1) e)) parent n (n + 1) (by omega) q' st'
      dsimp only
      rw [if_neg (by simp)]
      rcases h4 with h4 | h4 <;> rw [h4]
      · simp
      · exact h3
  | @plus_ok e p q r ts us h1 h2 i1 i2 =>
    intro n parent st O hg hr ho
    rw [Tree.sizeL_append] at ho
    cases n with
    | zero => exact zero _ _ _ _
    | succ n =>
      refine Out.bind_no_ko (i1 he hpB n parent st O hg hr (ho.mono (by omega))) ?_
      rintro ⟨b', q', st'⟩ hc
      obtain ⟨rfl, rfl, hg', hr', hq⟩ := room_next hh hb hB huniv (e := e) he h1 hpB hg hr (ho.mono (by omega)) hc
      have h3 := i2 he hq (n + 1) parent st' O hg' hr' (ho.mono (by omega))
      simpa [eval, zeroOrMoreKernel] using h3
  | @ref r p b q ts h1 i =>
    intro n parent st O hg hr ho
    have hs : Tree.size.sizeL [Tree.mk r p b q ts] = 1 + Tree.size.sizeL ts := by
      rw [Tree.size.sizeL, Tree.mk, Tree.size, Tree.size.sizeL]; omega
    rw [hs] at ho
    cases n with
    | zero => exact zero _ _ _ _
    | succ n =>
      simp only [eval, varNameKernel, Cache.check]
      split
      · exact Out.bind_no_ko (connect_no_ko _ _ _) (by simp)
      · next hm =>
        obtain ⟨S, s1, s2, s3, s4⟩ := hr
        have hnew : (r, p) ∉ S := by
          intro hmem
          rcases s3 _ hmem with h | h
          · exact h hm
          · obtain ⟨_, _, ts', h2, h3⟩ := ho _ h
            obtain ⟨_, _, rfl⟩ := h1.det h2
            omega
        have hS' : ((r, p) :: S).Nodup := List.nodup_cons.mpr ⟨hnew, s1⟩
        have hsub : (r, p) :: S ⊆ univ := by
          intro x hx
          rcases List.mem_cons.mp hx with rfl | hx
          · exact huniv r p hpB
          · exact s2 hx
        have hlen : ((r, p) :: S).length ≤ univ.length := nodup_length_le hS' hsub
        simp only [List.length_cons] at hlen
        refine Out.bind_no_ko ?_ ?_
        · unfold St.reserve Publisher.addNode
          rw [if_pos (by omega)]
          simp
        · rintro ⟨ck, st1⟩ hres
          obtain ⟨f1, _, f2, _⟩ := reserve_eqs hres
          refine Out.bind_no_ko (i (hb r) hpB n ck st1 ((r, p) :: O) (hg.reserve hres) ?_ ?_) ?_
          · refine ⟨(r, p) :: S, hS', hsub, ?_, by simp only [List.length_cons]; omega⟩
            intro x hx
            rcases List.mem_cons.mp hx with rfl | hx
            · exact Or.inr (by simp)
            · rcases s3 x hx with h | h
              · exact Or.inl (by rw [f1]; exact h)
              · exact Or.inr (by simp [h])
          · intro x hx
            rcases List.mem_cons.mp hx with rfl | hx
            · exact ⟨b, q, ts, h1, by omega⟩
            · obtain ⟨b', q', ts', h2, h3⟩ := ho x hx
              exact ⟨b', q', ts', h2, by omega⟩
          · rintro ⟨b', q', st2⟩ _
            exact Out.bind_no_ko (updateEntry_no_ko _ _ _ _ _) fun _ _ =>
              Out.bind_no_ko (connect_no_ko _ _ _) (by simp)
  | @inl r p b q ts h1 i =>
    intro n parent st O hg hr ho
    cases n with
    | zero => exact zero _ _ _ _
    | succ n => exact i (hb r) hpB n parent st O hg hr ho

end
end PP
