import Verif.Lemmas.Calc.Slice
import Verif.Model.Calc.Calc1
import Verif.Spec.CalcTree
import Verif.Props.Indirect

/-! # Example 1: the trees of sums, and what evaluating them gives -/
namespace PP
open Calc

/-- Byte `p` is one of `1`–`9`. -/
def NonzeroAt (src : Source) (p : Nat) : Prop :=
  ∃ c : UInt8, p < src.len ∧ src.bytes[p]? = some c ∧ 49 ≤ c.toNat ∧ c.toNat ≤ 57


theorem Num1.text_ne (n : Num1) : n.text ≠ [] := by simp [Num1.text, Num1.digits, digitsText]

theorem Num1.text_pos (n : Num1) : 0 < n.text.length := List.length_pos_iff.mpr (Num1.text_ne n)

theorem Sum1.text_pos : ∀ s : Sum1, 0 < s.text.length
  | .num n => Num1.text_pos n
  | .add s n | .sub s n => by simp [Sum1.text]; omega

theorem nonzero_byte {src : Source} {p : Nat} (h : NonzeroAt src p) :
    ∃ d : Fin 9, ByteAt src p (digitByte ⟨d.val + 1, by omega⟩) := by
  obtain ⟨c, h1, h2, h3, h4⟩ := h
  obtain ⟨d, rfl, hd⟩ := digitByte_of (c := c) (by omega) h4
  refine ⟨⟨d.val - 1, by omega⟩, h1, ?_⟩
  rw [h2]
  congr 2
  exact Fin.ext (by simp; omega)

theorem gt_onenine {src : Source} {pre p b q ts} (h : GT Ex1.body ex1Role src pre (.inlined .r_onenine) p b q ts) :
    ts = [] ∧ ((b = true ∧ q = p + 1 ∧ NonzeroAt src p) ∨ (b = false ∧ q = p ∧ ¬ NonzeroAt src p)) := by
  cases h with
  | inl h1 =>
    have h2 : GT Ex1.body ex1Role src pre (.matchRange 49 57) p b q ts := h1
    cases h2 with
    | range h3 =>
      cases h3 with
      | range_ok g1 g2 g3 g4 => exact ⟨rfl, Or.inl ⟨rfl, rfl, ⟨_, g1, g2, g3, g4⟩⟩⟩
      | range_fail hf => exact ⟨rfl, Or.inr ⟨rfl, rfl, hf⟩⟩

theorem gt_integer {src : Source} {pre p b q ts} (h : GT Ex1.body ex1Role src pre (.varName .r_integer) p b q ts) :
    (b = true ∧ ∃ n : Num1, TextAt src p n.text ∧ q = p + n.text.length ∧ ¬ DigitAt src q ∧
      ts = [.node .r_integer (some (p, q)) []]) ∨
    (b = false ∧ ¬ NonzeroAt src p) := by
  cases h with
  | @ref _ _ _ _ _ ts h0 =>
    have h' : GT Ex1.body ex1Role src [] (.sequence (.inlined .r_onenine) (.zeroOrMore (.inlined .r_digit))) p b q ts := h0
    cases h' with
    | seq_ok h1 h2 =>
      obtain ⟨rfl, g1⟩ := gt_onenine h1
      rcases g1 with ⟨_, rfl, g1⟩ | ⟨g1, _⟩
      · obtain ⟨_, rfl, ds, g2, g3, g4⟩ := gt_digits (hD := (rfl : Ex1.body .r_digit = _)) h2 rfl
        obtain ⟨d, hd⟩ := nonzero_byte g1
        have : q = p + (Num1.text ⟨d, ds⟩).length := by
          simp [Num1.text, Num1.digits, digitsText]; omega
        exact Or.inl ⟨rfl, ⟨d, ds⟩, ⟨hd, g2⟩, this, g4, rfl⟩
      · cases g1
    | seq_fail1 h1 =>
      obtain ⟨rfl, g1⟩ := gt_onenine h1
      rcases g1 with ⟨g1, _⟩ | ⟨_, _, g1⟩
      · cases g1
      · exact Or.inr ⟨rfl, g1⟩
    | seq_fail2 h1 h2 =>
      have := (gt_digits (hD := (rfl : Ex1.body .r_digit = _)) h2 rfl).1
      cases this

theorem gt_byte {R : Type} {body : R → Expr R} {role : R → Role R} {src : Source} {pre c p b q ts}
    (h : GT body role src pre (.terminal c) p b q ts) :
    ts = [] ∧ ((b = true ∧ q = p + 1 ∧ ByteAt src p c) ∨ (b = false ∧ q = p ∧ ¬ ByteAt src p c)) := by
  cases h with
  | terminal h0 =>
    cases h0 with
    | terminal_ok h1 h2 => exact ⟨rfl, Or.inl ⟨rfl, rfl, h1, h2⟩⟩
    | terminal_fail h' => exact ⟨rfl, Or.inr ⟨rfl, rfl, h'⟩⟩

theorem hv_head1 {src : Source} {p s t inv b q us}
    (h : HV Ex1.body ex1Role src .r_expr p s t [] (.varNameLR inv .r_expr) b q us) : b = true ∧ q = s ∧ us = [t] := by
  cases h with
  | head => exact ⟨rfl, rfl, rfl⟩
  | head_dup hm => cases hm
  | member hr _ => cases hr
  | member_dup hr _ _ => cases hr

/-- A member: the sum so far, an operator, an integer. -/
theorem hv_member1 {src : Source} {p s t inv c b q us}
    (h : HV Ex1.body ex1Role src .r_expr p s t [] (.sequence (.sequence (.varNameLR inv .r_expr) (.terminal c))
      (.varName .r_integer)) b q us) :
    (b = true ∧ ByteAt src s c ∧ ∃ n : Num1, TextAt src (s + 1) n.text ∧ q = s + 1 + n.text.length ∧ ¬ DigitAt src q ∧
      us = [t, .node .r_integer (some (s + 1, q)) []]) ∨ b = false := by
  cases h with
  | seq_ok h1 h2 =>
    cases h1 with
    | seq_ok h0 h1 =>
      obtain ⟨_, rfl, rfl⟩ := hv_head1 h0
      obtain ⟨rfl, g⟩ := gt_byte h1
      rcases g with ⟨_, rfl, g⟩ | ⟨g, _⟩
      · rcases gt_integer h2 with ⟨_, n, g1, rfl, g2, rfl⟩ | ⟨g', _⟩
        · exact Or.inl ⟨rfl, g, n, g1, rfl, g2, rfl⟩
        · cases g'
      · cases g
  | seq_fail1 _ => exact Or.inr rfl
  | seq_fail2 _ _ => exact Or.inr rfl

theorem ex1_grown {src : Source} : ∀ {A d p q t}, GGrown Ex1.body ex1Role src A d p q t → A = .r_expr → ex1Role A = .head d →
    ∃ s : Sum1, TextAt src p s.text ∧ q = p + s.text.length ∧ ¬ DigitAt src q ∧ t.prune = [s.tree p]
  | A, d, p, q, _, .seed hf h, hA, hd => by
    subst hA
    simp only [ex1Role, Role.head.injEq] at hd
    subst hd
    rcases gt_integer h with ⟨_, n, h1, rfl, h2, rfl⟩ | ⟨h, _⟩
    · refine ⟨.num n, h1, rfl, h2, ?_⟩
      have := Num1.text_ne n
      simp [Tree.prune, pruneL_append, pruneL_failed hf, Tree.prune.pruneL, Sum1.tree, this]
    · cases h
  | A, d, p, _, _, .grow (q := q) (us := us) hg hb h, hA, hd => by
    obtain ⟨s, h1, rfl, h2, ht⟩ := ex1_grown hg hA hd
    subst hA
    simp only [Ex1.body, Expr.orderedChoice.injEq] at hb
    obtain ⟨rfl, _⟩ := hb
    have pos := Sum1.text_pos s
    cases h with
    | choice_left h =>
      cases h with
      | member_dup _ _ hm => cases hm
      | member _ h =>
        rcases hv_member1 h with ⟨_, g1, n, g2, rfl, g3, rfl⟩ | h
        · refine ⟨.add s n, textAt_append.mpr ⟨h1, g1, g2⟩, by simp [Sum1.text]; omega, g3, ?_⟩
          have := Num1.text_pos n
          have e1 : p ≠ p + s.text.length + 1 + n.text.length := by omega
          simp [Tree.mk, Tree.prune, Tree.prune.pruneL, Sum1.tree, ht, e1, Num1.text_ne]
          omega
        · cases h
    | @choice_right _ _ _ _ _ _ _ _ _ ts0 _ h h' =>
      have hfail : ∀ f ∈ ts0, Tree.Failed f := by
        cases h with
        | member_dup _ _ hm => cases hm
        | member _ h => simp [Tree.Failed, Tree.mk, Tree.span]
      cases h' with
      | member_dup _ _ hm =>
        have := hfail _ (by simpa using hm)
        simp [Tree.Failed, Tree.mk, Tree.span] at this
      | member _ h' =>
        have h' : HV Ex1.body ex1Role src .r_expr p _ _ [] (.sequence (.sequence (.varNameLR _ .r_expr) (.terminal 45))
          (.varName .r_integer)) true _ _ := h'
        rcases hv_member1 h' with ⟨_, g1, n, g2, rfl, g3, rfl⟩ | h
        · refine ⟨.sub s n, textAt_append.mpr ⟨h1, g1, g2⟩, by simp [Sum1.text]; omega, g3, ?_⟩
          have := Num1.text_pos n
          have e1 : p ≠ p + s.text.length + 1 + n.text.length := by omega
          simp [Tree.mk, Tree.prune, pruneL_append, pruneL_failed hfail, Tree.prune.pruneL, Sum1.tree, ht, e1, Num1.text_ne]
          omega
        · cases h

end PP
