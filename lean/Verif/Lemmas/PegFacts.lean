import Verif.Lemmas.RunFacts

/-! # Facts about the PEG specification relations -/
namespace PP
variable {R : Type} {body : R → Expr R} {src : Source}

theorem Run.pegT {e : Expr R} {p b q ts} (hb : ∀ r, (body r).Plain) (h : Run False body src e p b q ts) (he : e.Plain) :
    PegT body src e p b q ts := by
  induction h with
  | terminal_ok h1 h2 => exact .terminal_ok h1 h2
  | terminal_fail h => exact .terminal_fail h
  | range_ok h1 h2 h3 h4 => exact .range_ok h1 h2 h3 h4
  | range_fail h => exact .range_fail h
  | string_ok h1 h2 => exact .string_ok h1 h2
  | string_fail h => exact .string_fail h
  | seq_ok _ _ i1 i2 => exact .seq_ok (i1 he.1) (i2 he.2)
  | seq_fail1 _ i1 => exact .seq_fail1 (i1 he.1)
  | seq_fail2 _ _ i1 i2 => exact .seq_fail2 (i1 he.1) (i2 he.2)
  | choice_left _ i1 => exact .choice_left (i1 he.1)
  | choice_right _ _ i1 i2 => exact .choice_right (i1 he.1) (i2 he.2)
  | choice_fail _ _ i1 i2 => exact .choice_fail (i1 he.1) (i2 he.2)
  | and_ok _ i => exact .and_ok (i he)
  | and_fail _ i => exact .and_fail (i he)
  | not_ok _ i => exact .not_ok (i he)
  | not_fail _ i => exact .not_fail (i he)
  | opt_some _ i => exact .opt_some (i he)
  | opt_none _ i => exact .opt_none (i he)
  | star_stop _ i => exact .star_stop (i he)
  | star_step _ _ i1 i2 => exact .star_step (i1 he) (i2 he)
  | plus_ok _ _ i1 i2 => exact .plus_ok (i1 he) (i2 he)
  | plus_fail _ i => exact .plus_fail (i he)
  | sub_ok _ i => exact .sub_ok (i he)
  | sub_fail _ i => exact .sub_fail (i he)
  | ref _ i => exact .ref (i (hb _))
  | inl _ i => exact .inl (i (hb _))
  | ref_seed h | lr_seed h | lr_none h | lr_node h | lr_dup h => exact h.elim
  | hook_ret | hook_call | hook_ok => exact he.elim

theorem PegT.peg {e : Expr R} {p b q ts} (h : PegT body src e p b q ts) : Peg body src e p b q := by
  induction h with
  | terminal_ok h1 h2 => exact .terminal_ok h1 h2
  | terminal_fail h => exact .terminal_fail h
  | range_ok h1 h2 h3 h4 => exact .range_ok h1 h2 h3 h4
  | range_fail h => exact .range_fail h
  | string_ok h1 h2 => exact .string_ok h1 h2
  | string_fail h => exact .string_fail h
  | seq_ok _ _ i1 i2 => exact .seq_ok i1 i2
  | seq_fail1 _ i1 => exact .seq_fail1 i1
  | seq_fail2 _ _ i1 i2 => exact .seq_fail2 i1 i2
  | choice_left _ i1 => exact .choice_left i1
  | choice_right _ _ i1 i2 => exact .choice_right i1 i2
  | choice_fail _ _ i1 i2 => exact .choice_fail i1 i2
  | and_ok _ i => exact .and_ok i
  | and_fail _ i => exact .and_fail i
  | not_ok _ i => exact .not_ok i
  | not_fail _ i => exact .not_fail i
  | opt_some _ i => exact .opt_some i
  | opt_none _ i => exact .opt_none i
  | star_stop _ i => exact .star_stop i
  | star_step _ _ i1 i2 => exact .star_step i1 i2
  | plus_ok _ _ i1 i2 => exact .plus_ok i1 i2
  | plus_fail _ i => exact .plus_fail i
  | sub_ok _ i => exact .sub_ok i
  | sub_fail _ i => exact .sub_fail i
  | ref _ i => exact .ref i
  | inl _ i => exact .inl i

theorem Peg.pegT {e : Expr R} {p b q} (h : Peg body src e p b q) : ∃ ts, PegT body src e p b q ts := by
  induction h with
  | terminal_ok h1 h2 => exact ⟨_, .terminal_ok h1 h2⟩
  | terminal_fail h => exact ⟨_, .terminal_fail h⟩
  | range_ok h1 h2 h3 h4 => exact ⟨_, .range_ok h1 h2 h3 h4⟩
  | range_fail h => exact ⟨_, .range_fail h⟩
  | string_ok h1 h2 => exact ⟨_, .string_ok h1 h2⟩
  | string_fail h => exact ⟨_, .string_fail h⟩
  | seq_ok _ _ i1 i2 => obtain ⟨_, i1⟩ := i1; obtain ⟨_, i2⟩ := i2; exact ⟨_, .seq_ok i1 i2⟩
  | seq_fail1 _ i1 => obtain ⟨_, i1⟩ := i1; exact ⟨_, .seq_fail1 i1⟩
  | seq_fail2 _ _ i1 i2 => obtain ⟨_, i1⟩ := i1; obtain ⟨_, i2⟩ := i2; exact ⟨_, .seq_fail2 i1 i2⟩
  | choice_left _ i1 => obtain ⟨_, i1⟩ := i1; exact ⟨_, .choice_left i1⟩
  | choice_right _ _ i1 i2 => obtain ⟨_, i1⟩ := i1; obtain ⟨_, i2⟩ := i2; exact ⟨_, .choice_right i1 i2⟩
  | choice_fail _ _ i1 i2 => obtain ⟨_, i1⟩ := i1; obtain ⟨_, i2⟩ := i2; exact ⟨_, .choice_fail i1 i2⟩
  | and_ok _ i => obtain ⟨_, i⟩ := i; exact ⟨_, .and_ok i⟩
  | and_fail _ i => obtain ⟨_, i⟩ := i; exact ⟨_, .and_fail i⟩
  | not_ok _ i => obtain ⟨_, i⟩ := i; exact ⟨_, .not_ok i⟩
  | not_fail _ i => obtain ⟨_, i⟩ := i; exact ⟨_, .not_fail i⟩
  | opt_some _ i => obtain ⟨_, i⟩ := i; exact ⟨_, .opt_some i⟩
  | opt_none _ i => obtain ⟨_, i⟩ := i; exact ⟨_, .opt_none i⟩
  | star_stop _ i => obtain ⟨_, i⟩ := i; exact ⟨_, .star_stop i⟩
  | star_step _ _ i1 i2 => obtain ⟨_, i1⟩ := i1; obtain ⟨_, i2⟩ := i2; exact ⟨_, .star_step i1 i2⟩
  | plus_ok _ _ i1 i2 => obtain ⟨_, i1⟩ := i1; obtain ⟨_, i2⟩ := i2; exact ⟨_, .plus_ok i1 i2⟩
  | plus_fail _ i => obtain ⟨_, i⟩ := i; exact ⟨_, .plus_fail i⟩
  | sub_ok _ i => obtain ⟨_, i⟩ := i; exact ⟨_, .sub_ok i⟩
  | sub_fail _ i => obtain ⟨_, i⟩ := i; exact ⟨_, .sub_fail i⟩
  | ref _ i => obtain ⟨_, i⟩ := i; exact ⟨_, .ref i⟩
  | inl _ i => obtain ⟨_, i⟩ := i; exact ⟨_, .inl i⟩

theorem PegT.det {e : Expr R} {p b q ts} (h : PegT body src e p b q ts) :
    ∀ {b' q' ts'}, PegT body src e p b' q' ts' → b = b' ∧ q = q' ∧ ts = ts' := by
  induction h <;> intro b' q' ts' h2 <;> cases h2 <;> grind

theorem Peg.det {e : Expr R} {p b q b' q'} (h : Peg body src e p b q) (h' : Peg body src e p b' q') :
    b = b' ∧ q = q' := by
  obtain ⟨_, h⟩ := h.pegT
  obtain ⟨_, h'⟩ := h'.pegT
  exact ⟨(h.det h').1, (h.det h').2.1⟩

end PP
