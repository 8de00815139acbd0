import Verif.Spec.Group
import Verif.Lemmas.DirectLR

/-! # The forests of Spec/Group.lean agree with the rewritten grammar -/
set_option linter.unusedSectionVars false
namespace PP
variable {R : Type} [DecidableEq R]
variable {body : R → Expr R} {role : R → Role R} {src : Source}

theorem groupBody_plain {r : R} (h : role r = .plain) : groupBody body role r = (body r).deLR := by simp [groupBody, h]
theorem groupBody_head {A : R} {d : LRDecl R} (h : role A = .head d) :
    groupBody body role A = .sequence d.first.deLR (.zeroOrMore d.tail.deLR) := by simp [groupBody, h]

theorem Peg.self {body : R → Expr R} {e : Expr R} {p q} (h : Peg body src e p false q) : Peg body src e p false p := by
  have := h.bounds.1 rfl
  subst this; exact h

theorem Peg.body_irrel {body' : R → Expr R} {c p b q} (h : Peg body src (.terminal c) p b q) : Peg body' src (.terminal c) p b q := by
  cases h with
  | terminal_ok h1 h2 => exact .terminal_ok h1 h2
  | terminal_fail h => exact .terminal_fail h

theorem Peg.body_irrel_range {body' : R → Expr R} {lo hi p b q} (h : Peg body src (.matchRange lo hi) p b q) :
    Peg body' src (.matchRange lo hi) p b q := by
  cases h with
  | range_ok h1 h2 h3 h4 => exact .range_ok h1 h2 h3 h4
  | range_fail h => exact .range_fail h

theorem Peg.body_irrel_string {body' : R → Expr R} {d p b q} (h : Peg body src (.stringTerminal d) p b q) :
    Peg body' src (.stringTerminal d) p b q := by
  cases h with
  | string_ok h1 h2 => exact .string_ok h1 h2
  | string_fail h => exact .string_fail h

theorem Peg.nil {s : Nat} : Peg body src (.stringTerminal []) s true s := by
  have : Peg body src (.stringTerminal []) s true (s + ([] : List UInt8).length) :=
    .string_ok (Or.inl rfl) (by simp [Source.slice])
  simpa using this

/-- The outcome of the tail `t` after a tree ending at `s`. -/
def TailPeg (body : R → Expr R) (role : R → Role R) (src : Source) (t : Expr R) (s : Nat) (b : Bool) (q : Nat) : Prop :=
  (b = true → Peg (groupBody body role) src t.deLR s true q) ∧ (b = false → Peg (groupBody body role) src t.deLR s false s)

mutual
theorem GT.peg (hG : GroupLR body role) : ∀ {pre e p b q ts}, GT body role src pre e p b q ts → e.GRefs role →
    Peg (groupBody body role) src e.deLR p b q
  | _, _, _, _, _, _, .terminal h, _ => h.body_irrel
  | _, _, _, _, _, _, .range h, _ => h.body_irrel_range
  | _, _, _, _, _, _, .string h, _ => h.body_irrel_string
  | _, _, _, _, _, _, .seq_ok h1 h2, he => .seq_ok (h1.peg hG he.1) (h2.peg hG he.2)
  | _, _, _, _, _, _, .seq_fail1 h1, he => .seq_fail1 (h1.peg hG he.1)
  | _, _, _, _, _, _, .seq_fail2 h1 h2, he => .seq_fail2 (h1.peg hG he.1) (h2.peg hG he.2)
  | _, _, _, _, _, _, .choice_left h1, he => .choice_left (h1.peg hG he.1)
  | _, _, _, _, _, _, .choice_right h1 h2, he => .choice_right (h1.peg hG he.1) (h2.peg hG he.2)
  | _, _, _, _, _, _, .choice_fail h1 h2, he => .choice_fail (h1.peg hG he.1) (h2.peg hG he.2)
  | _, _, _, _, _, _, .and_ok h, he => .and_ok (GT.peg hG h he)
  | _, _, _, _, _, _, .and_fail h, he => .and_fail (GT.peg hG h he)
  | _, _, _, _, _, _, .not_ok h, he => .not_ok (GT.peg hG h he)
  | _, _, _, _, _, _, .not_fail h, he => .not_fail (GT.peg hG h he)
  | _, _, _, _, _, _, .opt_some h, he => .opt_some (GT.peg hG h he)
  | _, _, _, _, _, _, .opt_none h, he => .opt_none (GT.peg hG h he)
  | _, _, _, _, _, _, .star_stop h, he => .star_stop (GT.peg hG h he)
  | _, _, _, _, _, _, .star_step h1 h2, he => .star_step (GT.peg hG h1 he) (GT.peg hG h2 he)
  | _, _, _, _, _, _, .plus_ok h1 h2, he => .plus_ok (GT.peg hG h1 he) (GT.peg hG h2 he)
  | _, _, _, _, _, _, .plus_fail h, he => .plus_fail (GT.peg hG h he)
  | _, _, _, _, _, _, .sub_ok h, he => .sub_ok (GT.peg hG h he)
  | _, _, _, _, _, _, .sub_fail h, he => .sub_fail (GT.peg hG h he)
  | _, _, _, _, _, _, .ref h, he => .ref (by
      have := GT.peg hG h (hG.refs _ he)
      rw [groupBody_plain he]; exact this)
  | _, _, _, _, _, _, .inl h, he => .inl (by
      have := GT.peg hG h (hG.refs _ he)
      rw [groupBody_plain he]; exact this)
  | _, _, _, _, _, _, .lr_ok hd hg ht, _ => GGrown.peg hG hg hd (.star_stop ht)
  | _, _, _, _, _, _, .lr_fail hd hf, _ => .ref (by rw [groupBody_head hd]; exact .seq_fail1 hf)
  | _, _, _, _, _, _, .lr_dup hd hm h, he => GT.peg hG h he
theorem HV.peg (hG : GroupLR body role) : ∀ {A p s t pre e b q ts}, HV body role src A p s t pre e b q ts →
    ∀ {d inv ch tl ms}, role A = .head d → GTail body role inv A ch e tl ms → tl.GRefs role → TailPeg body role src tl s b q
  | _, _, _, _, _, _, _, _, _, .head, d, inv, ch, tl, ms, hd, hg, hr => by
    cases hg with
    | head => exact ⟨fun _ => .nil, fun h => (by cases h)⟩
    | member h1 => rw [hd] at h1; cases h1
  | _, _, _, _, _, _, _, _, _, .head_dup _, d, inv, ch, tl, ms, hd, hg, hr => by
    cases hg with
    | head => exact ⟨fun _ => .nil, fun h => (by cases h)⟩
    | member h1 => rw [hd] at h1; cases h1
  | _, _, _, _, _, _, _, _, _, .member hx h, d, inv, ch, tl, ms, hd, hg, hr => by
    cases hg with
    | head => rw [hd] at hx; cases hx
    | member h1 h2 h3 h4 => exact HV.peg hG h hd h4 hr
  | _, _, _, _, _, _, _, _, _, .member_dup hx h _, d, inv, ch, tl, ms, hd, hg, hr => by
    cases hg with
    | head => rw [hd] at hx; cases hx
    | member h1 h2 h3 h4 => exact HV.peg hG h hd h4 hr
  | _, _, _, _, _, _, _, _, _, .seq_ok h1 h2, d, inv, ch, tl, ms, hd, hg, hr => by
    cases hg with
    | seq hg => exact ⟨fun _ => .seq_ok ((HV.peg hG h1 hd hg hr.1).1 rfl) (GT.peg hG h2 hr.2), fun h => (by cases h)⟩
  | _, _, _, _, _, _, _, _, _, .seq_fail1 h1, d, inv, ch, tl, ms, hd, hg, hr => by
    cases hg with
    | seq hg => exact ⟨fun h => (by cases h), fun _ => .seq_fail1 ((HV.peg hG h1 hd hg hr.1).2 rfl)⟩
  | _, _, _, _, _, _, _, _, _, .seq_fail2 h1 h2, d, inv, ch, tl, ms, hd, hg, hr => by
    cases hg with
    | seq hg => exact ⟨fun h => (by cases h), fun _ => .seq_fail2 ((HV.peg hG h1 hd hg hr.1).1 rfl) (GT.peg hG h2 hr.2)⟩
  | _, _, _, _, _, _, _, _, _, .sub_ok h1, d, inv, ch, tl, ms, hd, hg, hr => by
    cases hg with
    | sub hg => exact HV.peg hG h1 hd hg hr
  | _, _, _, _, _, _, _, _, _, .sub_fail h1, d, inv, ch, tl, ms, hd, hg, hr => by
    cases hg with
    | sub hg => exact ⟨fun h => (by cases h), (HV.peg hG h1 hd hg hr).2⟩
  | _, _, _, _, _, _, _, _, _, .choice_left h1, d, inv, ch, tl, ms, hd, hg, hr => by
    cases hg with
    | choice hg hg' => exact ⟨fun _ => .choice_left ((HV.peg hG h1 hd hg hr.1).1 rfl), fun h => (by cases h)⟩
  | _, _, _, _, _, _, _, _, _, .choice_right h1 h2, d, inv, ch, tl, ms, hd, hg, hr => by
    cases hg with
    | choice hg hg' =>
      exact ⟨fun _ => .choice_right ((HV.peg hG h1 hd hg hr.1).2 rfl) ((HV.peg hG h2 hd hg' hr.2).1 rfl), fun h => (by cases h)⟩
  | _, _, _, _, _, _, _, _, _, .choice_fail h1 h2, d, inv, ch, tl, ms, hd, hg, hr => by
    cases hg with
    | choice hg hg' =>
      exact ⟨fun h => (by cases h), fun _ => .choice_fail ((HV.peg hG h1 hd hg hr.1).2 rfl) ((HV.peg hG h2 hd hg' hr.2).2 rfl)⟩
theorem GGrown.peg (hG : GroupLR body role) : ∀ {A d p q t}, GGrown body role src A d p q t → role A = .head d →
    ∀ {r}, Peg (groupBody body role) src (.zeroOrMore d.tail.deLR) q true r → Peg (groupBody body role) src (.varName A) p true r
  | _, _, _, _, _, .seed _ h, hd, r, hr => by
    refine .ref ?_
    rw [groupBody_head hd]
    exact .seq_ok (GT.peg hG h (hG.refsHead _ _ hd).1) hr
  | A, d, p, q', _, .grow (q := q) (e := e) hg hb h, hd, r, hr => by
    obtain ⟨_, e', ms, hb', hg'⟩ := hG.shape A d hd
    rw [hb] at hb'
    injection hb' with hb'
    subst hb'
    exact GGrown.peg hG hg hd (.star_step ((HV.peg hG h hd hg' (hG.refsHead _ _ hd).2).1 rfl) hr)
end

end PP
