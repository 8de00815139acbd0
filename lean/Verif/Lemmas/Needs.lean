import Verif.Spec.Needs
import Verif.Lemmas.PegFacts

namespace PP
variable {R : Type} {body : R → Expr R} {src : Source}

theorem Peg.acc {e : Expr R} {p b q} (h : Peg body src e p b q) : Acc (fun y x => Needs body src x y) (e, p) := by
  induction h with
  | terminal_ok | terminal_fail | range_ok | range_fail | string_ok | string_fail =>
    exact ⟨_, fun y hy => by cases hy⟩
  | seq_ok h1 _ i1 i2 => exact ⟨_, fun y hy => by
      cases hy with
      | fst => exact i1
      | snd h => obtain ⟨_, rfl⟩ := h1.det h; exact i2⟩
  | seq_fail1 h1 i1 => exact ⟨_, fun y hy => by
      cases hy with
      | fst => exact i1
      | snd h => obtain ⟨h, _⟩ := h1.det h; cases h⟩
  | seq_fail2 h1 _ i1 i2 => exact ⟨_, fun y hy => by
      cases hy with
      | fst => exact i1
      | snd h => obtain ⟨_, rfl⟩ := h1.det h; exact i2⟩
  | choice_left h1 i1 => exact ⟨_, fun y hy => by
      cases hy with
      | left => exact i1
      | right h => obtain ⟨h, _⟩ := h1.det h; cases h⟩
  | choice_right h1 _ i1 i2 => exact ⟨_, fun y hy => by
      cases hy with
      | left => exact i1
      | right h => exact i2⟩
  | choice_fail h1 _ i1 i2 => exact ⟨_, fun y hy => by
      cases hy with
      | left => exact i1
      | right h => exact i2⟩
  | star_stop h1 i1 => exact ⟨_, fun y hy => by
      cases hy with
      | star => exact i1
      | starNext h => obtain ⟨h, _⟩ := h1.det h; cases h⟩
  | star_step h1 _ i1 i2 => exact ⟨_, fun y hy => by
      cases hy with
      | star => exact i1
      | starNext h => obtain ⟨_, rfl⟩ := h1.det h; exact i2⟩
  | plus_ok h1 _ i1 i2 => exact ⟨_, fun y hy => by
      cases hy with
      | plus => exact i1
      | plusNext h => obtain ⟨_, rfl⟩ := h1.det h; exact i2⟩
  | plus_fail h1 i1 => exact ⟨_, fun y hy => by
      cases hy with
      | plus => exact i1
      | plusNext h => obtain ⟨h, _⟩ := h1.det h; cases h⟩
  | _ => rename_i i; exact ⟨_, fun y hy => by cases hy; exact i⟩

theorem NeedsPlus.trans {x y : Expr R × Nat} (h : NeedsPlus body src x y) :
    Relation.TransGen (fun y x => Needs body src x y) y x := by
  induction h with
  | one h => exact .single h
  | step h _ ih => exact .tail ih h

theorem acc_not_self {α : Type} {r : α → α → Prop} {x : α} (h : Acc r x) : ¬ r x x := by
  induction h with
  | intro x _ ih => exact fun hr => ih x hr hr

theorem NeedsPlus.irrefl {x : Expr R × Nat} (h : NeedsPlus body src x x) : ¬ Acc (fun y x => Needs body src x y) x :=
  fun ha => acc_not_self ha.transGen h.trans

/-- An evaluation that needs itself has no result. -/
theorem NeedsPlus.no_result {e : Expr R} {p : Nat} (h : NeedsPlus body src (e, p) (e, p)) : ¬ ∃ b q, Peg body src e p b q :=
  fun ⟨_, _, h'⟩ => h.irrefl h'.acc

theorem NeedsPlus.no_result' {e e' : Expr R} {p p' : Nat} (h : NeedsPlus body src (e, p) (e', p')) (h' : NeedsPlus body src (e', p') (e', p')) :
    ¬ ∃ b q, Peg body src e p b q := by
  rintro ⟨b, q, hp⟩
  have ha := hp.acc
  have : ∀ x y, NeedsPlus body src x y → Acc (fun y x => Needs body src x y) x → Acc (fun y x => Needs body src x y) y := by
    intro x y h
    induction h with
    | one h => exact fun ha => ha.inv h
    | step h _ ih => exact fun ha => ih (ha.inv h)
  exact h'.irrefl (this _ _ h ha)

end PP
