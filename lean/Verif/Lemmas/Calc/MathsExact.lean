import Verif.Spec.Calc

/-! # Examples 3 and 4: 64-bit arithmetic and exact arithmetic -/
namespace PP
open Calc

variable {w : Bool} {checked : Bool}

theorem bind2 {α β γ : Type} {x : Option α} {y : Option β} {f : α → β → Option γ} {v : γ}
    (h : (do let a ← x; let b ← y; f a b) = some v) : ∃ a b, x = some a ∧ y = some b ∧ f a b = some v := by
  cases x with
  | none => cases h
  | some a =>
    cases y with
    | none => cases h
    | some b => exact ⟨a, b, rfl, rfl, h⟩

theorem result_fit {x : Int} (h : Fits x) : Calc.result checked x = some x := by simp [Calc.result, h]

theorem result_true {x v : Int} (h : Calc.result true x = some v) : Fits x ∧ v = x := by
  unfold Calc.result at h
  split at h
  · next hf => injection h with h; exact ⟨hf, h.symm⟩
  · cases h

theorem natAbs_tdiv (a b : Int) : (a.tdiv b).natAbs = a.natAbs / b.natAbs := Int.natAbs_tdiv a b

theorem tdiv_fits {a b : Int} (ha : Fits a) (h : ¬ (b = 0 ∨ (a = -2 ^ 63 ∧ b = -1))) : Fits (a.tdiv b) := by
  simp only [not_or, not_and] at h
  obtain ⟨h0, h1⟩ := h
  have hab := natAbs_tdiv a b
  have hle : a.natAbs / b.natAbs ≤ a.natAbs := Nat.div_le_self _ _
  obtain ⟨ha1, ha2⟩ := ha
  by_cases hb : b = -1
  · have := h1
    subst hb
    have h2 : a ≠ -2 ^ 63 := fun h => this h rfl
    have h3 : a.tdiv (-1) = -a := by rw [Int.tdiv_neg, Int.tdiv_one]
    rw [h3]
    refine ⟨?_, ?_⟩ <;> omega
  · by_cases h1 : b.natAbs = 1
    · have : b = 1 := by omega
      subst this
      rw [Int.tdiv_one]
      exact ⟨ha1, ha2⟩
    · have h2 : 2 ≤ b.natAbs := by omega
      have h3 : a.natAbs / b.natAbs ≤ a.natAbs / 2 := Nat.div_le_div_left h2 (by omega)
      rw [← hab] at h3
      refine ⟨?_, ?_⟩ <;> omega

theorem quotient_some {a b v : Int} (ha : Fits a) (h : quotient a b = some v) : b ≠ 0 ∧ v = a.tdiv b ∧ Fits v := by
  unfold quotient at h
  split at h
  · cases h
  · next hn =>
    injection h with h
    subst h
    exact ⟨fun h => hn (Or.inl h), rfl, tdiv_fits ha hn⟩

theorem quotient_fit {a b : Int} (hb : b ≠ 0) (h : Fits (a.tdiv b)) : quotient a b = some (a.tdiv b) := by
  unfold quotient
  rw [if_neg]
  rintro (h' | ⟨rfl, rfl⟩)
  · exact hb h'
  · exact absurd h (by decide +kernel)

theorem power_fit {a b : Int} (h0 : 0 ≤ b) (h1 : b < 2 ^ 32) (h : Fits (a ^ b.toNat)) : power checked a b = some (a ^ b.toNat) := by
  unfold power
  rw [Int.emod_eq_of_lt h0 h1]
  exact result_fit h

theorem power_true {a b v : Int} (h0 : 0 ≤ b) (h1 : b < 2 ^ 32) (h : power true a b = some v) : Fits (a ^ b.toNat) ∧ v = a ^ b.toNat := by
  unfold power at h
  rw [Int.emod_eq_of_lt h0 h1] at h
  exact result_true h

/-! ## If everything fits -/

theorem fitsIn_some {o : Option Int} (h : FitsIn o) : ∃ v, o = some v ∧ Fits v := by
  cases o with
  | none => exact h.elim
  | some v => exact ⟨v, rfl, h⟩

mutual
theorem exact_expr : ∀ e : MExpr w, e.AllFit → ∃ v, e.val = some v ∧ Fits v ∧ e.eval checked = some v
  | .term t, h => by
    rw [MExpr.AllFit] at h
    rw [MExpr.val, MExpr.eval]
    exact exact_term t h
  | .add e t, h => by
    rw [MExpr.AllFit] at h
    obtain ⟨h1, h2, h3⟩ := h
    obtain ⟨a, a1, a2, a3⟩ := exact_expr e h1
    obtain ⟨b, b1, b2, b3⟩ := exact_term t h2
    rw [MExpr.val, a1, b1] at h3
    rw [MExpr.val, MExpr.eval, a1, a3, b1, b3]
    exact ⟨_, rfl, h3, result_fit h3⟩
  | .sub e t, h => by
    rw [MExpr.AllFit] at h
    obtain ⟨h1, h2, h3⟩ := h
    obtain ⟨a, a1, a2, a3⟩ := exact_expr e h1
    obtain ⟨b, b1, b2, b3⟩ := exact_term t h2
    rw [MExpr.val, a1, b1] at h3
    rw [MExpr.val, MExpr.eval, a1, a3, b1, b3]
    exact ⟨_, rfl, h3, result_fit h3⟩
theorem exact_term : ∀ e : MTerm w, e.AllFit → ∃ v, e.val = some v ∧ Fits v ∧ e.eval checked = some v
  | .one o, h => by
    rw [MTerm.AllFit] at h
    rw [MTerm.val, MTerm.eval]
    exact exact_pow o h
  | .mul e t, h => by
    rw [MTerm.AllFit] at h
    obtain ⟨h1, h2, h3⟩ := h
    obtain ⟨a, a1, a2, a3⟩ := exact_term e h1
    obtain ⟨b, b1, b2, b3⟩ := exact_pow t h2
    rw [MTerm.val, a1, b1] at h3
    rw [MTerm.val, MTerm.eval, a1, a3, b1, b3]
    exact ⟨_, rfl, h3, result_fit h3⟩
  | .div e t, h => by
    rw [MTerm.AllFit] at h
    obtain ⟨h1, h2, h3⟩ := h
    obtain ⟨a, a1, a2, a3⟩ := exact_term e h1
    obtain ⟨b, b1, b2, b3⟩ := exact_pow t h2
    rw [MTerm.val, a1, b1] at h3
    rw [MTerm.val, MTerm.eval, a1, a3, b1, b3]
    have h3' : FitsIn (if b = 0 then none else some (a.tdiv b)) := h3
    by_cases hb : b = 0
    · rw [if_pos hb] at h3'; exact h3'.elim
    · rw [if_neg hb] at h3'
      exact ⟨a.tdiv b, if_neg hb, h3', quotient_fit hb h3'⟩
theorem exact_pow : ∀ e : MPower w, e.AllFit → ∃ v, e.val = some v ∧ Fits v ∧ e.eval checked = some v
  | .fac f, h => by
    rw [MPower.AllFit] at h
    rw [MPower.val, MPower.eval]
    exact exact_fac f h
  | .pow _ f o, h => by
    rw [MPower.AllFit] at h
    obtain ⟨h1, h2, h4, h3⟩ := h
    obtain ⟨a, a1, a2, a3⟩ := exact_fac f h1
    obtain ⟨b, b1, b2, b3⟩ := exact_pow o h2
    rw [MPower.val, a1, b1] at h3
    rw [b1] at h4
    rw [MPower.val, MPower.eval, a1, a3, b1, b3]
    have h0 : ¬ b < 0 := by have := h4.1; omega
    have h3' : FitsIn (if b < 0 then none else some (a ^ b.toNat)) := h3
    rw [if_neg h0] at h3'
    exact ⟨_, if_neg h0, h3', power_fit h4.1 h4.2 h3'⟩
theorem exact_fac : ∀ e : MFactor w, e.AllFit → ∃ v, e.val = some v ∧ Fits v ∧ e.eval checked = some v
  | .num n, h => by
    rw [MFactor.AllFit] at h
    rw [MFactor.val, MFactor.eval, Number.eval]
    exact ⟨_, if_pos h.1, h.2, if_pos h⟩
  | .paren e, h => by
    rw [MFactor.AllFit] at h
    rw [MFactor.val, MFactor.eval]
    exact exact_expr e h
end

/-! ## If a debug build returns a value -/

mutual
theorem debug_expr : ∀ (e : MExpr w) {v : Int}, e.eval true = some v → e.ExponentsFit → e.AllFit ∧ e.val = some v ∧ Fits v
  | .term t, v, h, hf => by
    rw [MExpr.eval] at h
    rw [MExpr.ExponentsFit] at hf
    rw [MExpr.AllFit, MExpr.val]
    exact debug_term t h hf
  | .add e t, v, h, hf => by
    rw [MExpr.eval] at h
    rw [MExpr.ExponentsFit] at hf
    obtain ⟨a, b, ha, hb, h⟩ := bind2 h
    obtain ⟨a1, a2, a3⟩ := debug_expr e ha hf.1
    obtain ⟨b1, b2, b3⟩ := debug_term t hb hf.2
    obtain ⟨h1, rfl⟩ := result_true h
    rw [MExpr.AllFit, MExpr.val, a2, b2]
    exact ⟨⟨a1, b1, h1⟩, rfl, h1⟩
  | .sub e t, v, h, hf => by
    rw [MExpr.eval] at h
    rw [MExpr.ExponentsFit] at hf
    obtain ⟨a, b, ha, hb, h⟩ := bind2 h
    obtain ⟨a1, a2, a3⟩ := debug_expr e ha hf.1
    obtain ⟨b1, b2, b3⟩ := debug_term t hb hf.2
    obtain ⟨h1, rfl⟩ := result_true h
    rw [MExpr.AllFit, MExpr.val, a2, b2]
    exact ⟨⟨a1, b1, h1⟩, rfl, h1⟩
theorem debug_term : ∀ (e : MTerm w) {v : Int}, e.eval true = some v → e.ExponentsFit → e.AllFit ∧ e.val = some v ∧ Fits v
  | .one t, v, h, hf => by
    rw [MTerm.eval] at h
    rw [MTerm.ExponentsFit] at hf
    rw [MTerm.AllFit, MTerm.val]
    exact debug_pow t h hf
  | .mul e t, v, h, hf => by
    rw [MTerm.eval] at h
    rw [MTerm.ExponentsFit] at hf
    obtain ⟨a, b, ha, hb, h⟩ := bind2 h
    obtain ⟨a1, a2, a3⟩ := debug_term e ha hf.1
    obtain ⟨b1, b2, b3⟩ := debug_pow t hb hf.2
    obtain ⟨h1, rfl⟩ := result_true h
    rw [MTerm.AllFit, MTerm.val, a2, b2]
    exact ⟨⟨a1, b1, h1⟩, rfl, h1⟩
  | .div e t, v, h, hf => by
    rw [MTerm.eval] at h
    rw [MTerm.ExponentsFit] at hf
    obtain ⟨a, b, ha, hb, h⟩ := bind2 h
    obtain ⟨a1, a2, a3⟩ := debug_term e ha hf.1
    obtain ⟨b1, b2, b3⟩ := debug_pow t hb hf.2
    obtain ⟨h0, rfl, h1⟩ := quotient_some a3 h
    rw [MTerm.AllFit, MTerm.val, a2, b2]
    have : (do let a ← some a; let b ← some b; if b = 0 then none else some (a.tdiv b)) = some (a.tdiv b) := if_neg h0
    rw [this]
    exact ⟨⟨a1, b1, h1⟩, rfl, h1⟩
theorem debug_pow : ∀ (e : MPower w) {v : Int}, e.eval true = some v → e.ExponentsFit → e.AllFit ∧ e.val = some v ∧ Fits v
  | .fac t, v, h, hf => by
    rw [MPower.eval] at h
    rw [MPower.ExponentsFit] at hf
    rw [MPower.AllFit, MPower.val]
    exact debug_fac t h hf
  | .pow _ e t, v, h, hf => by
    rw [MPower.eval] at h
    rw [MPower.ExponentsFit] at hf
    obtain ⟨f1, f2, f3⟩ := hf
    obtain ⟨a, b, ha, hb, h⟩ := bind2 h
    obtain ⟨a1, a2, a3⟩ := debug_fac e ha f1
    obtain ⟨b1, b2, b3⟩ := debug_pow t hb f2
    obtain ⟨g1, g2⟩ := f3 b b2
    obtain ⟨h1, rfl⟩ := power_true g1 g2 h
    rw [MPower.AllFit, MPower.val, a2, b2]
    have : (do let a ← some a; let b ← some b; if b < 0 then none else some (a ^ b.toNat)) = some (a ^ b.toNat) :=
      if_neg (by omega)
    rw [this]
    exact ⟨⟨a1, b1, ⟨g1, g2⟩, h1⟩, rfl, h1⟩
theorem debug_fac : ∀ (e : MFactor w) {v : Int}, e.eval true = some v → e.ExponentsFit → e.AllFit ∧ e.val = some v ∧ Fits v
  | .num n, v, h, _ => by
    rw [MFactor.eval, Number.eval] at h
    rw [MFactor.AllFit, MFactor.val]
    split at h
    · next hn =>
      injection h with h
      subst h
      exact ⟨hn, if_pos hn.1, hn.2⟩
    · cases h
  | .paren e, v, h, hf => by
    rw [MFactor.eval] at h
    rw [MFactor.ExponentsFit] at hf
    rw [MFactor.AllFit, MFactor.val]
    exact debug_expr e h hf
end

/-! ## Without powers -/

mutual
theorem noExp_expr : ∀ e : MExpr false, e.ExponentsFit
  | .term t => by rw [MExpr.ExponentsFit]; exact noExp_term t
  | .add e t => by rw [MExpr.ExponentsFit]; exact ⟨noExp_expr e, noExp_term t⟩
  | .sub e t => by rw [MExpr.ExponentsFit]; exact ⟨noExp_expr e, noExp_term t⟩
theorem noExp_term : ∀ e : MTerm false, e.ExponentsFit
  | .one t => by rw [MTerm.ExponentsFit]; exact noExp_pow t
  | .mul e t => by rw [MTerm.ExponentsFit]; exact ⟨noExp_term e, noExp_pow t⟩
  | .div e t => by rw [MTerm.ExponentsFit]; exact ⟨noExp_term e, noExp_pow t⟩
theorem noExp_pow : ∀ e : MPower false, e.ExponentsFit
  | .fac t => by rw [MPower.ExponentsFit]; exact noExp_fac t
  | .pow h _ _ => nomatch h
theorem noExp_fac : ∀ e : MFactor false, e.ExponentsFit
  | .num _ => by rw [MFactor.ExponentsFit]; trivial
  | .paren e => by rw [MFactor.ExponentsFit]; exact noExp_expr e
end

end PP
