import Verif.Spec.Peg
import Verif.Lemmas.Gen.Lex

/-! # PEG on the remaining input instead of positions -/
namespace PP
variable {R : Type} {body : R → Expr R}
open PP.Gen (Rem)

/-- `LPeg body e s o`: with `s` to read, `e` fails (`none`) or leaves `o`. -/
inductive LPeg (body : R → Expr R) : Expr R → List UInt8 → Option (List UInt8) → Prop where
  | term_ok {c s} : LPeg body (.terminal c) (c :: s) (some s)
  | term_fail {c s} : s.head? ≠ some c → LPeg body (.terminal c) s none
  | range_ok {lo hi s} {c : UInt8} : lo ≤ c.toNat → c.toNat ≤ hi → LPeg body (.matchRange lo hi) (c :: s) (some s)
  | range_fail {lo hi s} : (∀ c, s.head? = some c → ¬ (lo ≤ c.toNat ∧ c.toNat ≤ hi)) → LPeg body (.matchRange lo hi) s none
  | str_ok {d s} : LPeg body (.stringTerminal d) (d ++ s) (some s)
  | str_fail {d s} : s.take d.length ≠ d → LPeg body (.stringTerminal d) s none
  | seq {a b s s' o} : LPeg body a s (some s') → LPeg body b s' o → LPeg body (.sequence a b) s o
  | seq_fail {a b s} : LPeg body a s none → LPeg body (.sequence a b) s none
  | left {a b s s'} : LPeg body a s (some s') → LPeg body (.orderedChoice a b) s (some s')
  | right {a b s o} : LPeg body a s none → LPeg body b s o → LPeg body (.orderedChoice a b) s o
  | and_ok {e s s'} : LPeg body e s (some s') → LPeg body (.andPredicate e) s (some s)
  | and_fail {e s} : LPeg body e s none → LPeg body (.andPredicate e) s none
  | not_ok {e s} : LPeg body e s none → LPeg body (.notPredicate e) s (some s)
  | not_fail {e s s'} : LPeg body e s (some s') → LPeg body (.notPredicate e) s none
  | opt_some {e s s'} : LPeg body e s (some s') → LPeg body (.optional e) s (some s')
  | opt_none {e s} : LPeg body e s none → LPeg body (.optional e) s (some s)
  | star_stop {e s} : LPeg body e s none → LPeg body (.zeroOrMore e) s (some s)
  | star_step {e s s' o} : LPeg body e s (some s') → LPeg body (.zeroOrMore e) s' o → LPeg body (.zeroOrMore e) s o
  | plus_ok {e s s' o} : LPeg body e s (some s') → LPeg body (.zeroOrMore e) s' o → LPeg body (.oneOrMore e) s o
  | plus_fail {e s} : LPeg body e s none → LPeg body (.oneOrMore e) s none
  | sub {e s o} : LPeg body e s o → LPeg body (.subexpression e) s o
  | ref {r s o} : LPeg body (body r) s o → LPeg body (.varName r) s o
  | inl {r s o} : LPeg body (body r) s o → LPeg body (.inlined r) s o

/-- On positions. -/
theorem LPeg.toPeg {src : Source} {e : Expr R} {s : List UInt8} {o : Option (List UInt8)} (h : LPeg body e s o) :
    ∀ p, Rem src p s → match o with
      | none => Peg body src e p false p
      | some s' => ∃ q, Rem src q s' ∧ Peg body src e p true q := by
  induction h with
  | term_ok => intro p h; exact ⟨_, h.tail, .terminal_ok h.lt (by rw [h.get0]; rfl)⟩
  | term_fail hc => intro p h; exact .terminal_fail (by rw [h.get0]; exact fun x => hc x.2)
  | range_ok h1 h2 => intro p h; exact ⟨_, h.tail, .range_ok h.lt (by rw [h.get0]; rfl) h1 h2⟩
  | range_fail hc => intro p h; exact .range_fail (by rw [h.get0]; rintro ⟨c, _, h2, h3, h4⟩; exact hc c h2 ⟨h3, h4⟩)
  | str_ok =>
    intro p h
    exact ⟨_, h.skip, .string_ok (Or.inr (by have := h.length; rw [h.len]; simp at this; omega)) (by rw [h.slice]; simp)⟩
  | str_fail hd => intro p h; exact .string_fail (by rw [h.slice]; exact fun x => hd x.2)
  | @seq a b s s' o _ _ ih1 ih2 =>
    intro p h
    obtain ⟨q, h1, h2⟩ := ih1 p h
    have h3 := ih2 q h1
    cases o with
    | none => exact .seq_fail2 h2 h3
    | some t => obtain ⟨r, h4, h5⟩ := h3; exact ⟨r, h4, .seq_ok h2 h5⟩
  | seq_fail _ ih => intro p h; exact .seq_fail1 (ih p h)
  | left _ ih => intro p h; obtain ⟨q, h1, h2⟩ := ih p h; exact ⟨q, h1, .choice_left h2⟩
  | @right a b s o _ _ ih1 ih2 =>
    intro p h
    have h1 := ih1 p h
    have h3 := ih2 p h
    cases o with
    | none => exact .choice_fail h1 h3
    | some t => obtain ⟨r, h4, h5⟩ := h3; exact ⟨r, h4, .choice_right h1 h5⟩
  | and_ok _ ih => intro p h; obtain ⟨q, h1, h2⟩ := ih p h; exact ⟨p, h, .and_ok h2⟩
  | and_fail _ ih => intro p h; exact .and_fail (ih p h)
  | not_ok _ ih => intro p h; exact ⟨p, h, .not_ok (ih p h)⟩
  | not_fail _ ih => intro p h; obtain ⟨q, h1, h2⟩ := ih p h; exact .not_fail h2
  | opt_some _ ih => intro p h; obtain ⟨q, h1, h2⟩ := ih p h; exact ⟨q, h1, .opt_some h2⟩
  | opt_none _ ih => intro p h; exact ⟨p, h, .opt_none (ih p h)⟩
  | star_stop _ ih => intro p h; exact ⟨p, h, .star_stop (ih p h)⟩
  | @star_step e s s' o _ h' ih1 ih2 =>
    intro p h
    obtain ⟨q, h1, h2⟩ := ih1 p h
    have h3 := ih2 q h1
    cases o with
    | none => cases h3
    | some t => obtain ⟨r, h4, h5⟩ := h3; exact ⟨r, h4, .star_step h2 h5⟩
  | @plus_ok e s s' o _ _ ih1 ih2 =>
    intro p h
    obtain ⟨q, h1, h2⟩ := ih1 p h
    have h3 := ih2 q h1
    cases o with
    | none => cases h3
    | some t => obtain ⟨r, h4, h5⟩ := h3; exact ⟨r, h4, .plus_ok h2 h5⟩
  | plus_fail _ ih => intro p h; exact .plus_fail (ih p h)
  | @sub e s o _ ih =>
    intro p h
    have h1 := ih p h
    cases o with
    | none => exact .sub_fail h1
    | some t => obtain ⟨q, h2, h3⟩ := h1; exact ⟨q, h2, .sub_ok h3⟩
  | @ref r s o _ ih =>
    intro p h
    have h1 := ih p h
    cases o with
    | none => exact .ref h1
    | some t => obtain ⟨q, h2, h3⟩ := h1; exact ⟨q, h2, .ref h3⟩
  | @inl r s o _ ih =>
    intro p h
    have h1 := ih p h
    cases o with
    | none => exact .inl h1
    | some t => obtain ⟨q, h2, h3⟩ := h1; exact ⟨q, h2, .inl h3⟩

theorem rem_cons {src : Source} {p : Nat} {s : List UInt8} {c : UInt8} (h : Rem src p s) (hc : src.bytes[p]? = some c) :
    ∃ t, s = c :: t := by
  rw [h.get0] at hc
  cases s with
  | nil => cases hc
  | cons d t => cases hc; exact ⟨t, rfl⟩

/-- And back. -/
theorem LPeg.ofPeg {src : Source} {e : Expr R} {p : Nat} {b : Bool} {q : Nat} (h : Peg body src e p b q) :
    ∀ s, Rem src p s → (b = true → ∃ s', Rem src q s' ∧ LPeg body e s (some s')) ∧ (b = false → LPeg body e s none) := by
  have tt : ∀ {A B : Prop}, A → (true = true → A) ∧ (true = false → B) := fun h => ⟨fun _ => h, nofun⟩
  have ff : ∀ {A B : Prop}, B → (false = true → A) ∧ (false = false → B) := fun h => ⟨nofun, fun _ => h⟩
  induction h with
  | terminal_ok h1 h2 =>
    intro s h
    obtain ⟨t, rfl⟩ := rem_cons h h2
    exact tt ⟨t, h.tail, .term_ok⟩
  | @terminal_fail c p h1 =>
    intro s h
    refine ff (.term_fail fun hc => ?_)
    obtain ⟨t, rfl⟩ := rem_cons h (c := c) (by rw [h.get0]; exact hc)
    exact h1 ⟨h.lt, by rw [h.get0]; rfl⟩
  | range_ok h1 h2 h3 h4 =>
    intro s h
    obtain ⟨t, rfl⟩ := rem_cons h h2
    exact tt ⟨t, h.tail, .range_ok h3 h4⟩
  | range_fail h1 =>
    intro s h
    refine ff (.range_fail fun c hc h2 => ?_)
    obtain ⟨t, rfl⟩ := rem_cons h (c := c) (by rw [h.get0]; exact hc)
    exact h1 ⟨c, h.lt, by rw [h.get0]; rfl, h2⟩
  | @string_ok d p h1 h2 =>
    intro s h
    rw [h.slice] at h2
    obtain ⟨t, rfl⟩ : ∃ t, s = d ++ t := by
      have := List.take_append_drop d.length s
      rw [h2] at this
      exact ⟨_, this.symm⟩
    exact tt ⟨_, h.skip, .str_ok⟩
  | @string_fail d p h1 =>
    intro s h
    refine ff (.str_fail fun h2 => h1 ⟨?_, by rw [h.slice]; exact h2⟩)
    refine Or.inr ?_
    have e : d.length ≤ s.length := by
      have := congrArg List.length h2
      rw [List.length_take] at this
      omega
    rw [h.len, h.length]
    omega
  | seq_ok _ _ ih1 ih2 =>
    intro s h
    obtain ⟨t, h1, h2⟩ := (ih1 s h).1 rfl
    obtain ⟨u, h3, h4⟩ := (ih2 t h1).1 rfl
    exact tt ⟨u, h3, .seq h2 h4⟩
  | seq_fail1 _ ih1 => intro s h; exact ff (.seq_fail ((ih1 s h).2 rfl))
  | seq_fail2 _ _ ih1 ih2 =>
    intro s h
    obtain ⟨t, h1, h2⟩ := (ih1 s h).1 rfl
    exact ff (.seq h2 ((ih2 t h1).2 rfl))
  | choice_left _ ih => intro s h; obtain ⟨t, h1, h2⟩ := (ih s h).1 rfl; exact tt ⟨t, h1, .left h2⟩
  | choice_right _ _ ih1 ih2 =>
    intro s h
    obtain ⟨t, h1, h2⟩ := (ih2 s h).1 rfl
    exact tt ⟨t, h1, .right ((ih1 s h).2 rfl) h2⟩
  | choice_fail _ _ ih1 ih2 => intro s h; exact ff (.right ((ih1 s h).2 rfl) ((ih2 s h).2 rfl))
  | and_ok _ ih => intro s h; obtain ⟨t, h1, h2⟩ := (ih s h).1 rfl; exact tt ⟨s, h, .and_ok h2⟩
  | and_fail _ ih => intro s h; exact ff (.and_fail ((ih s h).2 rfl))
  | not_ok _ ih => intro s h; exact tt ⟨s, h, .not_ok ((ih s h).2 rfl)⟩
  | not_fail _ ih => intro s h; obtain ⟨t, h1, h2⟩ := (ih s h).1 rfl; exact ff (.not_fail h2)
  | opt_some _ ih => intro s h; obtain ⟨t, h1, h2⟩ := (ih s h).1 rfl; exact tt ⟨t, h1, .opt_some h2⟩
  | opt_none _ ih => intro s h; exact tt ⟨s, h, .opt_none ((ih s h).2 rfl)⟩
  | star_stop _ ih => intro s h; exact tt ⟨s, h, .star_stop ((ih s h).2 rfl)⟩
  | star_step _ _ ih1 ih2 =>
    intro s h
    obtain ⟨t, h1, h2⟩ := (ih1 s h).1 rfl
    obtain ⟨u, h3, h4⟩ := (ih2 t h1).1 rfl
    exact tt ⟨u, h3, .star_step h2 h4⟩
  | plus_ok _ _ ih1 ih2 =>
    intro s h
    obtain ⟨t, h1, h2⟩ := (ih1 s h).1 rfl
    obtain ⟨u, h3, h4⟩ := (ih2 t h1).1 rfl
    exact tt ⟨u, h3, .plus_ok h2 h4⟩
  | plus_fail _ ih => intro s h; exact ff (.plus_fail ((ih s h).2 rfl))
  | sub_ok _ ih => intro s h; obtain ⟨t, h1, h2⟩ := (ih s h).1 rfl; exact tt ⟨t, h1, .sub h2⟩
  | sub_fail _ ih => intro s h; exact ff (.sub ((ih s h).2 rfl))
  | ref _ ih =>
    intro s h
    exact ⟨fun hb => by obtain ⟨t, h1, h2⟩ := (ih s h).1 hb; exact ⟨t, h1, .ref h2⟩, fun hb => .ref ((ih s h).2 hb)⟩
  | inl _ ih =>
    intro s h
    exact ⟨fun hb => by obtain ⟨t, h1, h2⟩ := (ih s h).1 hb; exact ⟨t, h1, .inl h2⟩, fun hb => .inl ((ih s h).2 hb)⟩

end PP
