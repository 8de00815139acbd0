import Verif.Lemmas.Calc.Text
import Verif.Lemmas.Lines
import Verif.Spec.Graph

/-! # Slices of the source, and reading the returned tree -/
namespace PP
open Calc

theorem strSlice_ascii {src : Source} (ht : src.IsText) {l : List UInt8} {p : Nat} (h : TextAt src p l) (hl : l ≠ [])
    (ha : ∀ c ∈ l, c.toNat < 128) : Source.strSlice src.bytes p (p + l.length) = .ok l := by
  have h1 := h.le_len hl
  have h2 := src_len_le src
  have hpos : 0 < l.length := List.length_pos_iff.mpr hl
  have b1 : Source.isCharBoundary src.bytes p = true := by
    have := h.get (i := 0) (c := l[0]) (by simp)
    exact boundary_at_ascii this.2 (ha _ (List.getElem_mem _))
  have b2 : Source.isCharBoundary src.bytes (p + l.length) = true := by
    have := h.get (i := l.length - 1) (c := l[l.length - 1]) (by simp)
    have := boundary_after_ascii ht this.2 (ha _ (List.getElem_mem _))
    rwa [show p + (l.length - 1) + 1 = p + l.length by omega] at this
  unfold Source.strSlice
  rw [if_pos ⟨by omega, by omega, b1, b2⟩, Nat.add_sub_cancel_left, h.drop_take]

theorem digits_ascii (ds : List (Fin 10)) : ∀ c ∈ digitsText ds, c.toNat < 128 := by
  intro c hc
  simp only [digitsText, List.mem_map] at hc
  obtain ⟨d, _, rfl⟩ := hc
  rw [digitByte_toNat]; omega

section
variable {R : Type} {t : Publisher R} {k : Nat} {r : R}

/-- A node that unfolds to a successful tree. -/
theorem Publisher.Unfolds.node {a b : Nat} {kids} (h : t.Unfolds k (.node r (some (a, b)) kids)) :
    ∃ nd, t.getNode k = .ok nd ∧ nd.rule = r ∧ nd.start = a ∧ nd.stop = b ∧ kids.length = nd.children.length ∧
      ∀ (i : Nat) c u, nd.children[i]? = some c → kids[i]? = some u → t.Unfolds c u := by
  generalize hx : Tree.node r (some (a, b)) kids = x at h
  cases h with
  | @mk _ nd kids h1 h2 h3 =>
    injection hx with h4 h5 h6
    subst h6
    have hr : nd.result = true := by
      by_cases hr : nd.result = true
      · exact hr
      · rw [if_neg hr] at h5; cases h5
    rw [if_pos hr] at h5
    injection h5 with h5
    injection h5 with h5 h7
    exact ⟨nd, by simp [Publisher.getNode, h1], h4.symm, h5.symm, h7.symm, h2, h3⟩

theorem Publisher.Unfolds.none {a b : Nat} (h : t.Unfolds k (.node r (some (a, b)) [])) :
    ∃ nd, t.getNode k = .ok nd ∧ nd.rule = r ∧ nd.start = a ∧ nd.stop = b ∧ nd.children = [] := by
  obtain ⟨nd, h1, h2, h3, h4, h5, _⟩ := h.node
  exact ⟨nd, h1, h2, h3, h4, List.length_eq_zero_iff.mp h5.symm⟩

theorem Publisher.Unfolds.one {a b : Nat} {u} (h : t.Unfolds k (.node r (some (a, b)) [u])) :
    ∃ nd c, t.getNode k = .ok nd ∧ nd.rule = r ∧ nd.start = a ∧ nd.stop = b ∧ nd.children = [c] ∧ t.Unfolds c u := by
  obtain ⟨nd, h1, h2, h3, h4, h5, h6⟩ := h.node
  obtain ⟨c, hc⟩ := List.length_eq_one_iff.mp h5.symm
  exact ⟨nd, c, h1, h2, h3, h4, hc, h6 0 c u (by rw [hc]; rfl) rfl⟩

theorem Publisher.Unfolds.two {a b : Nat} {u v} (h : t.Unfolds k (.node r (some (a, b)) [u, v])) :
    ∃ nd c d, t.getNode k = .ok nd ∧ nd.rule = r ∧ nd.start = a ∧ nd.stop = b ∧ nd.children = [c, d] ∧ t.Unfolds c u ∧
      t.Unfolds d v := by
  obtain ⟨nd, h1, h2, h3, h4, h5, h6⟩ := h.node
  have : ∃ c d, nd.children = [c, d] := by
    generalize nd.children = cs at h5
    match cs, h5 with
    | [c, d], _ => exact ⟨c, d, rfl⟩
  obtain ⟨c, d, hc⟩ := this
  exact ⟨nd, c, d, h1, h2, h3, h4, hc, h6 0 c u (by rw [hc]; rfl) rfl, h6 1 d v (by rw [hc]; rfl) rfl⟩

end

theorem mapM_none {α β : Type} (f : α → Out β) : [].mapM f = .ok [] := by
  simp [List.mapM, List.mapM.loop]

theorem mapM_one {α β : Type} (f : α → Out β) (c : α) : [c].mapM f = (f c).bind fun a => .ok [a] := by
  simp only [List.mapM, List.mapM.loop]
  cases f c <;> rfl

theorem mapM_two {α β : Type} (f : α → Out β) (c d : α) : [c, d].mapM f = (f c).bind fun a => (f d).bind fun b => .ok [a, b] := by
  simp only [List.mapM, List.mapM.loop]
  cases f c with
  | ok a => cases hd : f d <;> simp [bind, Out.bind, hd] <;> rfl
  | _ => rfl

/-- The run returned the value, or panicked if there is none. -/
inductive Runs (o : Out Int) : Option Int → Prop where
  | value {v} : o = .ok v → Runs o (some v)
  | panics {p} : o = .panic p → Runs o none

end PP
