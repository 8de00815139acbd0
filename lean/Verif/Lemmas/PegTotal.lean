import Verif.Lemmas.PegFacts
import Verif.Spec.WellFormed

/-! # PEG semantics is total on well-formed grammars -/
namespace PP
variable {R : Type} {body : R → Expr R} {src : Source}

theorem Peg.bounds {e : Expr R} {p b q} (h : Peg body src e p b q) :
    (b = false → q = p) ∧ (q = p ∨ (p < q ∧ q ≤ src.len)) := by
  induction h with
  | terminal_ok h1 h2 => exact ⟨by simp, Or.inr ⟨by omega, by omega⟩⟩
  | range_ok h1 h2 => exact ⟨by simp, Or.inr ⟨by omega, by omega⟩⟩
  | string_ok h1 h2 =>
    refine ⟨by simp, ?_⟩
    rcases h1 with rfl | h1
    · left; simp
    · omega
  | _ => first | assumption | (simp at *; done) | (simp at *; omega)

theorem Peg.mayBeEmpty {e : Expr R} {p b q} (h : Peg body src e p b q) : b = true → q = p → MayBeEmpty body e := by
  induction h with
  | terminal_ok => intros; omega
  | range_ok => intros; omega
  | @string_ok d p _ _ =>
    intro _ h
    have : d = [] := List.eq_nil_of_length_eq_zero (by omega)
    subst this; exact .string
  | seq_ok h1 h2 i1 i2 =>
    intro _ h
    have := h1.bounds.2; have := h2.bounds.2
    exact .seq (i1 rfl (by omega)) (i2 rfl (by omega))
  | choice_left _ i => intro _ h; exact .left (i rfl h)
  | choice_right _ _ _ i => intro _ h; exact .right (i rfl h)
  | and_ok => intros; exact .andP
  | not_ok => intros; exact .notP
  | opt_some => intros; exact .opt
  | opt_none => intros; exact .opt
  | star_stop => intros; exact .star
  | star_step => intros; exact .star
  | plus_ok h1 h2 i1 i2 =>
    intro _ h
    have := h1.bounds.2; have := h2.bounds.2
    exact .plus (i1 rfl (by omega))
  | sub_ok _ i => intro _ h; exact .sub (i rfl h)
  | ref _ i => intro hb h; exact .ref (i hb h)
  | inl _ i => intro hb h; exact .inl (i hb h)
  | _ => intro hb; cases hb

/-- PEG has a result for `e` at all positions with at most `L` bytes left. -/
def Defined (body : R → Expr R) (src : Source) (B L : Nat) (e : Expr R) : Prop :=
  ∀ p, p ≤ B → B - p ≤ L → ∃ b q, Peg body src e p b q

theorem star_defined {B L : Nat} (hB : src.len ≤ B) {e : Expr R} (hne : ¬ MayBeEmpty body e)
    (h : Defined body src B L e) : ∀ m p, p ≤ B → B - p ≤ L → B - p ≤ m → ∃ q, Peg body src (.zeroOrMore e) p true q := by
  intro m
  induction m with
  | zero =>
    intro p hp hL hm
    obtain ⟨b, q, h1⟩ := h p hp hL
    cases b with
    | false => exact ⟨p, .star_stop h1⟩
    | true =>
      have := h1.bounds.2
      exact absurd (h1.mayBeEmpty rfl (by omega)) hne
  | succ m ih =>
    intro p hp hL hm
    obtain ⟨b, q, h1⟩ := h p hp hL
    cases b with
    | false => exact ⟨p, .star_stop h1⟩
    | true =>
      have h2 := h1.bounds.2
      have h3 : q ≠ p := fun h => hne (h1.mayBeEmpty rfl h)
      obtain ⟨r, h4⟩ := ih q (by omega) (by omega) (by omega)
      exact ⟨r, .star_step h1 h4⟩

theorem expr_defined {B : Nat} (hB : src.len ≤ B) (e : Expr R) (he : e.Plain) (hne : NoEmptyLoop body e) :
    ∀ L, (∀ L', L' < L → ∀ r, Defined body src B L' (body r)) →
      (∀ r, FirstRef body e r → Defined body src B L (body r)) → Defined body src B L e := by
  induction e with
  | terminal c =>
    intro L _ _ p _ _
    by_cases h : p < src.len ∧ src.bytes[p]? = some c
    · exact ⟨_, _, .terminal_ok h.1 h.2⟩
    · exact ⟨_, _, .terminal_fail h⟩
  | stringTerminal d =>
    intro L _ _ p _ _
    by_cases h : (d = [] ∨ p + d.length ≤ src.len) ∧ src.slice p (p + d.length) = d
    · exact ⟨_, _, .string_ok h.1 h.2⟩
    · exact ⟨_, _, .string_fail h⟩
  | matchRange lo hi =>
    intro L _ _ p _ _
    by_cases h : ∃ c : UInt8, p < src.len ∧ src.bytes[p]? = some c ∧ lo ≤ c.toNat ∧ c.toNat ≤ hi
    · obtain ⟨c, h1, h2, h3, h4⟩ := h
      exact ⟨_, _, .range_ok h1 h2 h3 h4⟩
    · exact ⟨_, _, .range_fail h⟩
  | andPredicate e ih =>
    intro L hL hr p hp hLp
    obtain ⟨b, q, h⟩ := ih he hne L hL (fun r h => hr r (.andP h)) p hp hLp
    cases b
    · exact ⟨_, _, .and_fail h⟩
    · exact ⟨_, _, .and_ok h⟩
  | notPredicate e ih =>
    intro L hL hr p hp hLp
    obtain ⟨b, q, h⟩ := ih he hne L hL (fun r h => hr r (.notP h)) p hp hLp
    cases b
    · exact ⟨_, _, .not_ok h⟩
    · exact ⟨_, _, .not_fail h⟩
  | optional e ih =>
    intro L hL hr p hp hLp
    obtain ⟨b, q, h⟩ := ih he hne L hL (fun r h => hr r (.opt h)) p hp hLp
    cases b
    · exact ⟨_, _, .opt_none h⟩
    · exact ⟨_, _, .opt_some h⟩
  | subexpression e ih =>
    intro L hL hr p hp hLp
    obtain ⟨b, q, h⟩ := ih he hne L hL (fun r h => hr r (.sub h)) p hp hLp
    cases b
    · exact ⟨_, _, .sub_fail h⟩
    · exact ⟨_, _, .sub_ok h⟩
  | zeroOrMore e ih =>
    intro L hL hr p hp hLp
    obtain ⟨q, h⟩ := star_defined hB hne.1 (ih he hne.2 L hL fun r h => hr r (.star h)) (B - p) p hp hLp (Nat.le_refl _)
    exact ⟨_, _, h⟩
  | oneOrMore e ih =>
    intro L hL hr p hp hLp
    have hd := ih he hne.2 L hL fun r h => hr r (.plus h)
    obtain ⟨b, q, h⟩ := hd p hp hLp
    cases b
    · exact ⟨_, _, .plus_fail h⟩
    · have := h.bounds.2
      obtain ⟨r, h2⟩ := star_defined hB hne.1 hd (B - q) q (by omega) (by omega) (Nat.le_refl _)
      exact ⟨_, _, .plus_ok h h2⟩
  | orderedChoice a b iha ihb =>
    intro L hL hr p hp hLp
    obtain ⟨x, q, h⟩ := iha he.1 hne.1 L hL (fun r h => hr r (.left h)) p hp hLp
    cases x
    · obtain ⟨y, r, h2⟩ := ihb he.2 hne.2 L hL (fun r h => hr r (.right h)) p hp hLp
      cases y
      · exact ⟨_, _, .choice_fail h h2⟩
      · exact ⟨_, _, .choice_right h h2⟩
    · exact ⟨_, _, .choice_left h⟩
  | sequence a b iha ihb =>
    intro L hL hr p hp hLp
    obtain ⟨x, q, h⟩ := iha he.1 hne.1 L hL (fun r h => hr r (.fst h)) p hp hLp
    cases x
    · exact ⟨_, _, .seq_fail1 h⟩
    · have h1 := h.bounds.2
      have h2 : ∃ y r, Peg body src b q y r := by
        by_cases hq : q = p
        · subst hq
          exact ihb he.2 hne.2 L hL (fun r h' => hr r (.snd (h.mayBeEmpty rfl rfl) h')) q hp hLp
        · obtain ⟨L, rfl⟩ : ∃ L', L = L' + 1 := ⟨L - 1, by omega⟩
          exact ihb he.2 hne.2 L (fun L' h => hL L' (by omega)) (fun r _ => hL L (by omega) r) q (by omega) (by omega)
      obtain ⟨y, r, h2⟩ := h2
      cases y
      · exact ⟨_, _, .seq_fail2 h h2⟩
      · exact ⟨_, _, .seq_ok h h2⟩
  | varName r =>
    intro L hL hr p hp hLp
    obtain ⟨b, q, h⟩ := hr r .ref p hp hLp
    exact ⟨_, _, .ref h⟩
  | inlined r =>
    intro L hL hr p hp hLp
    obtain ⟨b, q, h⟩ := hr r .inl p hp hLp
    exact ⟨_, _, .inl h⟩
  | varNameLR inv r => exact he.elim
  | hooked name e ih => exact he.elim

/-- Every plain expression of a well-formed plain grammar has a PEG result everywhere. -/
theorem peg_total (hb : ∀ r, (body r).Plain) (hwf : WellFormed body) {e : Expr R} (he : e.Plain)
    (hne : NoEmptyLoop body e) (p : Nat) : ∃ b q, Peg body src e p b q := by
  have hbody : ∀ L r, Defined body src (src.len + p) L (body r) := by
    intro L
    induction L using Nat.strongRecOn with
    | ind L hL =>
      intro r
      induction r using hwf.noCycle.induction with
      | _ r ih => exact expr_defined (by omega) _ (hb r) (hwf.noLoop r) L hL ih
  exact expr_defined (B := src.len + p) (by omega) e he hne (src.len + p) (fun L' _ r => hbody L' r)
    (fun r _ => hbody _ r) p (by omega) (by omega)

end PP
