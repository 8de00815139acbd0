import Verif.Lemmas.Run

namespace PP
variable {R U : Type} {lr : Prop} {body : R → Expr R} {src : Source}

theorem Source.len_le (src : Source) : src.len ≤ src.bytes.length := Nat.mod_le _ _

theorem Source.slice_self (src : Source) (p : Nat) : src.slice p p = [] := by simp [Source.slice]

theorem Source.slice_append (src : Source) {p q r : Nat} (h1 : p ≤ q) (h2 : q ≤ r) :
    src.slice p q ++ src.slice q r = src.slice p r := by
  unfold Source.slice
  have h3 : r - p = (q - p) + (r - q) := by omega
  have h4 : src.bytes.drop q = (src.bytes.drop p).drop (q - p) := by
    rw [List.drop_drop]; congr 1; omega
  rw [h3, h4, List.take_add]

theorem Source.slice_one (src : Source) {p : Nat} {c : UInt8} (h : src.bytes[p]? = some c) :
    src.slice p (p + 1) = [c] := by
  unfold Source.slice
  obtain ⟨hp, rfl⟩ := List.getElem?_eq_some_iff.mp h
  rw [show p + 1 - p = 1 by omega, List.drop_eq_getElem_cons hp]
  rfl

/-- Failure in place, and positions move forward inside the source. -/
theorem Run.pos {e : Expr R} {p b q ts} (h : Run lr body src e p b q ts) :
    (b = false → q = p) ∧ (q = p ∨ (p < q ∧ q ≤ src.len)) := by
  induction h with
  | terminal_ok h1 h2 => exact ⟨by simp, Or.inr ⟨by omega, by omega⟩⟩
  | range_ok h1 h2 => exact ⟨by simp, Or.inr ⟨by omega, by omega⟩⟩
  | string_ok h1 h2 =>
    refine ⟨by simp, ?_⟩
    rcases h1 with rfl | h1
    · left; simp
    · omega
  | _ => first | assumption | (simp at *; done) | (simp at *; omega)

theorem Run.le {e : Expr R} {p b q ts} (h : Run lr body src e p b q ts) : p ≤ q := by
  have := h.pos.2; omega

/-- Whatever a run accepts is derivable in the underlying context-free grammar. -/
theorem Run.derives {e : Expr R} {p b q ts} (h : Run lr body src e p b q ts) (hb : b = true) :
    Derives body e (src.slice p q) := by
  induction h with
  | terminal_ok h1 h2 => rw [Source.slice_one _ h2]; exact .terminal
  | range_ok h1 h2 h3 h4 => rw [Source.slice_one _ h2]; exact .range h3 h4
  | string_ok h1 h2 => rw [h2]; exact .string
  | seq_ok ha hb' iha ihb =>
    rw [← Source.slice_append src ha.le hb'.le]; exact .seq (iha rfl) (ihb rfl)
  | choice_left _ ih => exact .left (ih rfl)
  | choice_right _ _ _ ih => exact .right (ih rfl)
  | and_ok => rw [Source.slice_self]; exact .andP
  | not_ok => rw [Source.slice_self]; exact .notP
  | opt_some _ ih => exact .some (ih rfl)
  | opt_none => rw [Source.slice_self]; exact .none
  | star_stop => rw [Source.slice_self]; exact .starNil
  | star_step ha hb' iha ihb =>
    rw [← Source.slice_append src ha.le hb'.le]; exact .starCons (iha rfl) (ihb rfl)
  | plus_ok ha hb' iha ihb =>
    rw [← Source.slice_append src ha.le hb'.le]; exact .plus (iha rfl) (ihb rfl)
  | sub_ok _ ih => exact .sub (ih rfl)
  | ref _ ih => exact .ref (ih hb)
  | inl _ ih => exact .inl (ih hb)
  | lr_node _ _ ih => exact .lr (ih hb)
  | lr_dup _ _ ih => exact .lr (ih hb)
  | hook_call _ _ _ _ ih => exact ih hb
  | hook_ok _ _ ih _ => exact .hook (ih rfl)
  | _ => simp at hb

end PP
