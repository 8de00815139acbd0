import Verif.Lemmas.Gen.Link
import Verif.Lemmas.Needs
import Verif.Spec.Cfg
import Mathlib.Tactic.Choose

/-! # Meaning of linked programs -/
namespace PP.Gen
variable {R : Type}

mutual
theorem rhs_plain {c : Refs} (hc : ∀ x, c.leftRec x = none) : ∀ {r : DRhs} {e}, r.hooks = [] → r.meaning written c = some e → e.Plain
  | .atom w a, e, hh, h => by
    unfold DRhs.meaning at h; unfold DRhs.hooks at hh
    exact atom_plain hc hh h
  | .chain o w a as, e, hh, h => by
    unfold DRhs.meaning at h; unfold DRhs.hooks at hh
    obtain ⟨hh1, hh2⟩ := List.append_eq_nil_iff.mp hh
    obtain ⟨x, h1, h2⟩ := Option.bind_eq_some_iff.mp h
    exact atoms_plain hc (atom_plain hc hh1 h1) hh2 h2
theorem atoms_plain {c : Refs} (hc : ∀ x, c.leftRec x = none) : ∀ {as : DAtoms} {x o e}, x.Plain → as.hooks = [] →
    as.meaning written c o x = some e → e.Plain
  | .one w a, x, o, e, hx, hh, h => by
    unfold DAtoms.meaning at h; unfold DAtoms.hooks at hh
    obtain ⟨y, h1, h2⟩ := Option.bind_eq_some_iff.mp h
    have := atom_plain hc hh h1
    cases h2
    cases o <;> exact ⟨hx, this⟩
  | .cons w a as, x, o, e, hx, hh, h => by
    unfold DAtoms.meaning at h; unfold DAtoms.hooks at hh
    obtain ⟨hh1, hh2⟩ := List.append_eq_nil_iff.mp hh
    obtain ⟨y, h1, h2⟩ := Option.bind_eq_some_iff.mp h
    have := atom_plain hc hh1 h1
    exact atoms_plain hc (by cases o <;> exact ⟨hx, this⟩) hh2 h2
theorem atom_plain {c : Refs} (hc : ∀ x, c.leftRec x = none) : ∀ {r : DAtom} {e}, r.hooks = [] → r.meaning written c = some e → e.Plain
  | .plain n, e, hh, h => by
    unfold DAtom.meaning at h; unfold DAtom.hooks at hh
    exact nuc_plain hc hh h
  | .pre o n, e, hh, h => by
    unfold DAtom.meaning at h; unfold DAtom.hooks at hh
    obtain ⟨y, h1, h2⟩ := Option.bind_eq_some_iff.mp h
    have := nuc_plain hc hh h1
    cases h2; cases o <;> exact this
  | .post o n w, e, hh, h => by
    unfold DAtom.meaning at h; unfold DAtom.hooks at hh
    obtain ⟨y, h1, h2⟩ := Option.bind_eq_some_iff.mp h
    have := nuc_plain hc hh h1
    cases h2; cases o <;> exact this
theorem nuc_plain {c : Refs} (hc : ∀ x, c.leftRec x = none) : ∀ {r : DNuc} {e}, r.hooks = [] → r.meaning written c = some e → e.Plain
  | .mk k w, e, hh, h => by
    unfold DNuc.meaning at h; unfold DNuc.hooks at hh
    exact core_plain hc hh h
theorem core_plain {c : Refs} (hc : ∀ x, c.leftRec x = none) : ∀ {r : DCore} {e}, r.hooks = [] → r.meaning written c = some e → e.Plain
  | .range w0 w1 lo hi w2, e, hh, h => by
    unfold DCore.meaning at h
    obtain ⟨y, h1, h2⟩ := Option.bind_eq_some_iff.mp h
    obtain ⟨z, h3, h4⟩ := Option.bind_eq_some_iff.mp h2
    cases h4; trivial
  | .hook name r, e, hh, h => by unfold DCore.hooks at hh; cases hh
  | .sub r, e, hh, h => by
    unfold DCore.meaning at h; unfold DCore.hooks at hh
    obtain ⟨y, h1, h2⟩ := Option.bind_eq_some_iff.mp h
    have := rhs_plain hc hh h1
    cases h2; exact this
  | .term t, e, hh, h => by
    unfold DCore.meaning at h
    cases t <;> (cases h; trivial)
  | .str s, e, hh, h => by
    unfold DCore.meaning at h
    obtain ⟨y, h1, h2⟩ := Option.bind_eq_some_iff.mp h
    cases h2; trivial
  | .ref nm, e, hh, h => by
    unfold DCore.meaning at h
    cases h
    unfold Refs.expr
    rw [hc]
    dsimp only
    split <;> trivial
end

section
variable {body : R → Expr R} {name : R → Bytes} {W : Bytes → Expr Bytes} {src : Source}

theorem Agrees.plain : ∀ {a : Expr R} {e}, Agrees name a e → e.Plain → a.Plain := by
  intro a
  induction a with
  | andPredicate a ih | notPredicate a ih | optional a ih | subexpression a ih | oneOrMore a ih | zeroOrMore a ih =>
    intro e he h; cases e <;> try exact he.elim
    exact ih he h
  | orderedChoice a b iha ihb | sequence a b iha ihb =>
    intro e he h; cases e <;> try exact he.elim
    exact ⟨iha he.1 h.1, ihb he.2 h.2⟩
  | varNameLR inv r | hooked n a => intro e he h; cases e <;> try exact he.elim
                                    exact h.elim
  | _ => intro e he h; trivial

theorem Agrees.peg (hW : ∀ r, ∃ e, Agrees name (body r) e ∧ W (name r) = e.erase) {a : Expr R} {p b q} (h : Peg body src a p b q) :
    ∀ {e}, Agrees name a e → Peg W src e.erase p b q := by
  induction h with
  | terminal_ok h1 h2 => intro e he; cases e <;> try exact he.elim
                         cases he; exact .terminal_ok h1 h2
  | terminal_fail h1 => intro e he; cases e <;> try exact he.elim
                        cases he; exact .terminal_fail h1
  | range_ok h1 h2 h3 h4 => intro e he; cases e <;> try exact he.elim
                            obtain ⟨rfl, rfl⟩ := he; exact .range_ok h1 h2 h3 h4
  | range_fail h1 => intro e he; cases e <;> try exact he.elim
                     obtain ⟨rfl, rfl⟩ := he; exact .range_fail h1
  | string_ok h1 h2 => intro e he; cases e <;> try exact he.elim
                       cases he; exact .string_ok h1 h2
  | string_fail h1 => intro e he; cases e <;> try exact he.elim
                      cases he; exact .string_fail h1
  | ref _ ih | inl _ ih =>
    intro e he; cases e <;> try exact he.elim
    rename_i r _ _ _ _ _
    obtain ⟨e', h1, h2⟩ := hW r
    cases he
    exact .ref (by rw [h2]; exact ih h1)
  | seq_ok _ _ i1 i2 => intro e he; cases e <;> try exact he.elim
                        exact .seq_ok (i1 he.1) (i2 he.2)
  | seq_fail1 _ i1 => intro e he; cases e <;> try exact he.elim
                      exact .seq_fail1 (i1 he.1)
  | seq_fail2 _ _ i1 i2 => intro e he; cases e <;> try exact he.elim
                           exact .seq_fail2 (i1 he.1) (i2 he.2)
  | choice_left _ i1 => intro e he; cases e <;> try exact he.elim
                        exact .choice_left (i1 he.1)
  | choice_right _ _ i1 i2 => intro e he; cases e <;> try exact he.elim
                              exact .choice_right (i1 he.1) (i2 he.2)
  | choice_fail _ _ i1 i2 => intro e he; cases e <;> try exact he.elim
                             exact .choice_fail (i1 he.1) (i2 he.2)
  | and_ok _ ih => intro e he; cases e <;> try exact he.elim
                   exact .and_ok (ih he)
  | and_fail _ ih => intro e he; cases e <;> try exact he.elim
                     exact .and_fail (ih he)
  | not_ok _ ih => intro e he; cases e <;> try exact he.elim
                   exact .not_ok (ih he)
  | not_fail _ ih => intro e he; cases e <;> try exact he.elim
                     exact .not_fail (ih he)
  | opt_some _ ih => intro e he; cases e <;> try exact he.elim
                     exact .opt_some (ih he)
  | opt_none _ ih => intro e he; cases e <;> try exact he.elim
                     exact .opt_none (ih he)
  | star_stop _ ih => intro e he; cases e <;> try exact he.elim
                      exact .star_stop (ih he)
  | star_step _ _ i1 i2 =>
    intro e he; cases e <;> try exact he.elim
    rename_i e
    exact .star_step (i1 he) (i2 (e := .zeroOrMore e) he)
  | plus_ok _ _ i1 i2 =>
    intro e he; cases e <;> try exact he.elim
    rename_i e
    exact .plus_ok (i1 he) (i2 (e := .zeroOrMore e) he)
  | plus_fail _ ih => intro e he; cases e <;> try exact he.elim
                      exact .plus_fail (ih he)
  | sub_ok _ ih => intro e he; cases e <;> try exact he.elim
                   exact .sub_ok (ih he)
  | sub_fail _ ih => intro e he; cases e <;> try exact he.elim
                     exact .sub_fail (ih he)

/-- Conversely, for closures without left-recursive references and hooks. -/
theorem Agrees.unpeg (hW : ∀ r, ∃ e, Agrees name (body r) e ∧ W (name r) = e.erase) (hb : ∀ r, (body r).Plain) {e0 : Expr Bytes} {p b q}
    (h : Peg W src e0 p b q) : ∀ {a : Expr R} {e}, a.Plain → Agrees name a e → e0 = e.erase → Peg body src a p b q := by
  choose E hE using hW
  induction h with
  | terminal_ok h1 h2 => intro a e ha he h; cases a <;> cases e <;> first | exact he.elim | cases h
                         cases he; exact .terminal_ok h1 h2
  | terminal_fail h1 => intro a e ha he h; cases a <;> cases e <;> first | exact he.elim | cases h
                        cases he; exact .terminal_fail h1
  | range_ok h1 h2 h3 h4 => intro a e ha he h; cases a <;> cases e <;> first | exact he.elim | cases h
                            obtain ⟨rfl, rfl⟩ := he; exact .range_ok h1 h2 h3 h4
  | range_fail h1 => intro a e ha he h; cases a <;> cases e <;> first | exact he.elim | cases h
                     obtain ⟨rfl, rfl⟩ := he; exact .range_fail h1
  | string_ok h1 h2 => intro a e ha he h; cases a <;> cases e <;> first | exact he.elim | cases h
                       cases he; exact .string_ok h1 h2
  | string_fail h1 => intro a e ha he h; cases a <;> cases e <;> first | exact he.elim | cases h
                      cases he; exact .string_fail h1
  | ref _ ih =>
    intro a e ha he h
    cases a <;> cases e <;> first | exact he.elim | exact ha.elim | cases h
    · cases he
      exact .ref (ih (hb _) (hE _).1 (hE _).2)
    · cases he
      exact .inl (ih (hb _) (hE _).1 (hE _).2)
  | inl _ ih => intro a e ha he h; cases a <;> cases e <;> first | exact he.elim | cases h
  | seq_ok _ _ i1 i2 => intro a e ha he h; cases a <;> cases e <;> first | exact he.elim | cases h
                        exact .seq_ok (i1 ha.1 he.1 rfl) (i2 ha.2 he.2 rfl)
  | seq_fail1 _ i1 => intro a e ha he h; cases a <;> cases e <;> first | exact he.elim | cases h
                      exact .seq_fail1 (i1 ha.1 he.1 rfl)
  | seq_fail2 _ _ i1 i2 => intro a e ha he h; cases a <;> cases e <;> first | exact he.elim | cases h
                           exact .seq_fail2 (i1 ha.1 he.1 rfl) (i2 ha.2 he.2 rfl)
  | choice_left _ i1 => intro a e ha he h; cases a <;> cases e <;> first | exact he.elim | cases h
                        exact .choice_left (i1 ha.1 he.1 rfl)
  | choice_right _ _ i1 i2 => intro a e ha he h; cases a <;> cases e <;> first | exact he.elim | cases h
                              exact .choice_right (i1 ha.1 he.1 rfl) (i2 ha.2 he.2 rfl)
  | choice_fail _ _ i1 i2 => intro a e ha he h; cases a <;> cases e <;> first | exact he.elim | cases h
                             exact .choice_fail (i1 ha.1 he.1 rfl) (i2 ha.2 he.2 rfl)
  | and_ok _ ih => intro a e ha he h; cases a <;> cases e <;> first | exact he.elim | cases h
                   exact .and_ok (ih ha he rfl)
  | and_fail _ ih => intro a e ha he h; cases a <;> cases e <;> first | exact he.elim | cases h
                     exact .and_fail (ih ha he rfl)
  | not_ok _ ih => intro a e ha he h; cases a <;> cases e <;> first | exact he.elim | cases h
                   exact .not_ok (ih ha he rfl)
  | not_fail _ ih => intro a e ha he h; cases a <;> cases e <;> first | exact he.elim | cases h
                     exact .not_fail (ih ha he rfl)
  | opt_some _ ih => intro a e ha he h; cases a <;> cases e <;> first | exact he.elim | cases h
                     exact .opt_some (ih ha he rfl)
  | opt_none _ ih => intro a e ha he h; cases a <;> cases e <;> first | exact he.elim | cases h
                     exact .opt_none (ih ha he rfl)
  | star_stop _ ih => intro a e ha he h; cases a <;> cases e <;> first | exact he.elim | cases h
                      exact .star_stop (ih ha he rfl)
  | star_step _ _ i1 i2 =>
    intro a e ha he h; cases a <;> cases e <;> first | exact he.elim | cases h
    exact .star_step (i1 ha he rfl) (i2 (a := .zeroOrMore _) (e := .zeroOrMore _) ha he rfl)
  | plus_ok _ _ i1 i2 =>
    intro a e ha he h; cases a <;> cases e <;> first | exact he.elim | cases h
    exact .plus_ok (i1 ha he rfl) (i2 (a := .zeroOrMore _) (e := .zeroOrMore _) ha he rfl)
  | plus_fail _ ih => intro a e ha he h; cases a <;> cases e <;> first | exact he.elim | cases h
                      exact .plus_fail (ih ha he rfl)
  | sub_ok _ ih => intro a e ha he h; cases a <;> cases e <;> first | exact he.elim | cases h
                   exact .sub_ok (ih ha he rfl)
  | sub_fail _ ih => intro a e ha he h; cases a <;> cases e <;> first | exact he.elim | cases h
                     exact .sub_fail (ih ha he rfl)

theorem Agrees.derives (hW : ∀ r, ∃ e, Agrees name (body r) e ∧ W (name r) = e.erase) {a : Expr R} {w} (h : Derives body a w) :
    ∀ {e}, Agrees name a e → Derives W e.erase w := by
  choose E hE using hW
  induction h with
  | terminal => intro e he; cases e <;> try exact he.elim
                cases he; exact .terminal
  | range h1 h2 => intro e he; cases e <;> try exact he.elim
                   obtain ⟨rfl, rfl⟩ := he; exact .range h1 h2
  | string => intro e he; cases e <;> try exact he.elim
              cases he; exact .string
  | ref _ ih | inl _ ih =>
    intro e he; cases e <;> try exact he.elim
    cases he
    exact .ref (by rw [(hE _).2]; exact ih (hE _).1)
  | lr _ ih =>
    intro e he; cases e <;> try exact he.elim
    obtain ⟨rfl, _⟩ := he
    exact .ref (by rw [(hE _).2]; exact ih (hE _).1)
  | seq _ _ i1 i2 => intro e he; cases e <;> try exact he.elim
                     exact .seq (i1 he.1) (i2 he.2)
  | left _ ih => intro e he; cases e <;> try exact he.elim
                 exact .left (ih he.1)
  | right _ ih => intro e he; cases e <;> try exact he.elim
                  exact .right (ih he.2)
  | andP => intro e he; cases e <;> try exact he.elim
            exact .andP
  | notP => intro e he; cases e <;> try exact he.elim
            exact .notP
  | none => intro e he; cases e <;> try exact he.elim
            exact .none
  | some _ ih => intro e he; cases e <;> try exact he.elim
                 exact .some (ih he)
  | starNil => intro e he; cases e <;> try exact he.elim
               exact .starNil
  | starCons _ _ i1 i2 =>
    intro e he; cases e <;> try exact he.elim
    rename_i e
    exact .starCons (i1 he) (i2 (e := .zeroOrMore e) he)
  | plus _ _ i1 i2 =>
    intro e he; cases e <;> try exact he.elim
    rename_i e
    exact .plus (i1 he) (i2 (e := .zeroOrMore e) he)
  | sub _ ih => intro e he; cases e <;> try exact he.elim
                exact .sub (ih he)
  | hook _ ih => intro e he; cases e <;> try exact he.elim
                 exact .hook (ih he.2)
end

/-- The bodies of the linked rules are the closures of the grammar as written. -/
theorem links_bodies {g : DGrammar} {ord : HashOrd} (hw : g.WF) (hsm : g.text.length < 82000000) {n : Nat} {c : GeneratedCode}
    (h : generateParser ord n g.text = .ok (.code c)) (hf : ∀ r ∈ g, r.rhs.Faithful) {body : R → Expr R} {name : R → Bytes}
    (hl : Links c body name) {W : Bytes → Expr Bytes} (hW : g.Means W) : ∀ r, ∃ e, Agrees name (body r) e ∧ W (name r) = e.erase := by
  obtain ⟨refs, hr, hb⟩ := links_written hw hsm h hf hl
  intro r
  obtain ⟨d, hd, hn, e, he, ha⟩ := hb r
  have := (rhs_link he).1
  rw [hW d hd] at this
  injection this with this
  exact ⟨e, ha, by rw [← hn]; exact this⟩

theorem links_plain {g : DGrammar} {ord : HashOrd} (hw : g.WF) (hsm : g.text.length < 82000000) {n : Nat} {c : GeneratedCode}
    (h : generateParser ord n g.text = .ok (.code c)) (hf : ∀ r ∈ g, r.rhs.Faithful) {body : R → Expr R} {name : R → Bytes}
    (hl : Links c body name) (hs : g.Simple) : ∀ r, (body r).Plain := by
  obtain ⟨refs, hr, hb⟩ := links_written hw hsm h hf hl
  intro r
  obtain ⟨d, hd, hn, e, he, ha⟩ := hb r
  exact Agrees.plain ha (rhs_plain (fun x => (hr.notLR x).mpr (hs.2 x)) (hs.1 d hd) he)

end PP.Gen
