import Verif.Spec.Link
import Verif.Props.Generator
import Verif.Props.Termination
import Mathlib.Data.Fintype.Card
import Mathlib.Data.Fintype.EquivFin

/-! # Parsers made of generated code -/
namespace PP.Gen
variable {R U : Type}

/-- All references made ordinary. -/
def _root_.PP.Expr.erase : Expr R → Expr R
  | .andPredicate e => .andPredicate e.erase
  | .notPredicate e => .notPredicate e.erase
  | .oneOrMore e => .oneOrMore e.erase
  | .zeroOrMore e => .zeroOrMore e.erase
  | .optional e => .optional e.erase
  | .subexpression e => .subexpression e.erase
  | .hooked h e => .hooked h e.erase
  | .orderedChoice a b => .orderedChoice a.erase b.erase
  | .sequence a b => .sequence a.erase b.erase
  | .terminal c => .terminal c
  | .stringTerminal d => .stringTerminal d
  | .matchRange lo hi => .matchRange lo hi
  | .varName r | .inlined r | .varNameLR _ r => .varName r

/-- The references that are not left recursive. -/
def _root_.PP.Expr.ordinary : Expr R → List R
  | .andPredicate e | .notPredicate e | .oneOrMore e | .zeroOrMore e | .optional e | .subexpression e | .hooked _ e => e.ordinary
  | .orderedChoice a b | .sequence a b => a.ordinary ++ b.ordinary
  | .varName r | .inlined r => [r]
  | _ => []

variable {c : Refs}

/-- All ordinary references of `e` come from names in `l` that are not left recursive. -/
def From (c : Refs) (l : List Bytes) (e : Expr Bytes) : Prop := ∀ f ∈ e.ordinary, ∃ z ∈ l, lower z = f ∧ c.leftRec z = none

theorem From.mono {l l' e} (h : From c l e) (hl : ∀ z ∈ l, z ∈ l') : From c l' e := fun f hf => by
  obtain ⟨z, hz, h⟩ := h f hf
  exact ⟨z, hl z hz, h⟩

theorem chain_link {o : ChainOp} {x y : Expr Bytes} {l l'} (hx : From c l x) (hy : From c l' y) :
    (o.mk x y).erase = o.mk x.erase y.erase ∧ From c (l ++ l') (o.mk x y) := by
  have : From c (l ++ l') (o.mk x y) := by
    intro f hf
    have : f ∈ x.ordinary ++ y.ordinary := by cases o <;> exact hf
    rcases List.mem_append.mp this with h | h
    · obtain ⟨z, hz, h⟩ := hx f h; exact ⟨z, List.mem_append_left _ hz, h⟩
    · obtain ⟨z, hz, h⟩ := hy f h; exact ⟨z, List.mem_append_right _ hz, h⟩
  exact ⟨by cases o <;> rfl, this⟩

mutual
theorem rhs_link : ∀ {r : DRhs} {e}, r.meaning written c = some e → r.meaning written plainRefs = some e.erase ∧ From c r.refs e
  | .atom w a, e, h => by
    unfold DRhs.meaning at h ⊢; unfold DRhs.refs
    exact atom_link h
  | .chain o w a as, e, h => by
    unfold DRhs.meaning at h ⊢; unfold DRhs.refs
    obtain ⟨x, h1, h2⟩ := Option.bind_eq_some_iff.mp h
    obtain ⟨k1, k2⟩ := atom_link h1
    obtain ⟨k3, k4⟩ := atoms_link k2 h2
    exact ⟨Option.bind_eq_some_iff.mpr ⟨_, k1, k3⟩, k4⟩
theorem atoms_link : ∀ {as : DAtoms} {l x o e}, From c l x → as.meaning written c o x = some e →
    as.meaning written plainRefs o x.erase = some e.erase ∧ From c (l ++ as.refs) e
  | .one w a, l, x, o, e, hx, h => by
    unfold DAtoms.meaning at h ⊢; unfold DAtoms.refs
    obtain ⟨y, h1, h2⟩ := Option.bind_eq_some_iff.mp h
    obtain ⟨k1, k2⟩ := atom_link h1
    cases h2
    obtain ⟨k3, k4⟩ := chain_link (o := o) hx k2
    exact ⟨Option.bind_eq_some_iff.mpr ⟨_, k1, by rw [k3]⟩, k4⟩
  | .cons w a as, l, x, o, e, hx, h => by
    unfold DAtoms.meaning at h ⊢; unfold DAtoms.refs
    obtain ⟨y, h1, h2⟩ := Option.bind_eq_some_iff.mp h
    obtain ⟨k1, k2⟩ := atom_link h1
    obtain ⟨k3, k4⟩ := chain_link (o := o) hx k2
    obtain ⟨k5, k6⟩ := atoms_link k4 h2
    refine ⟨Option.bind_eq_some_iff.mpr ⟨_, k1, by rw [← k3]; exact k5⟩, by rw [← List.append_assoc]; exact k6⟩
theorem atom_link : ∀ {a : DAtom} {e}, a.meaning written c = some e → a.meaning written plainRefs = some e.erase ∧ From c a.refs e
  | .plain n, e, h => by
    unfold DAtom.meaning at h ⊢; unfold DAtom.refs
    exact nuc_link h
  | .pre o n, e, h => by
    unfold DAtom.meaning at h ⊢; unfold DAtom.refs
    obtain ⟨y, h1, h2⟩ := Option.bind_eq_some_iff.mp h
    obtain ⟨k1, k2⟩ := nuc_link h1
    cases h2
    exact ⟨Option.bind_eq_some_iff.mpr ⟨_, k1, by cases o <;> rfl⟩, by cases o <;> exact k2⟩
  | .post o n w, e, h => by
    unfold DAtom.meaning at h ⊢; unfold DAtom.refs
    obtain ⟨y, h1, h2⟩ := Option.bind_eq_some_iff.mp h
    obtain ⟨k1, k2⟩ := nuc_link h1
    cases h2
    exact ⟨Option.bind_eq_some_iff.mpr ⟨_, k1, by cases o <;> rfl⟩, by cases o <;> exact k2⟩
theorem nuc_link : ∀ {a : DNuc} {e}, a.meaning written c = some e → a.meaning written plainRefs = some e.erase ∧ From c a.refs e
  | .mk k w, e, h => by
    unfold DNuc.meaning at h ⊢; unfold DNuc.refs
    exact core_link h
theorem core_link : ∀ {a : DCore} {e}, a.meaning written c = some e → a.meaning written plainRefs = some e.erase ∧ From c a.refs e
  | .range w0 w1 lo hi w2, e, h => by
    unfold DCore.meaning at h ⊢; unfold DCore.refs
    obtain ⟨y, h1, h2⟩ := Option.bind_eq_some_iff.mp h
    obtain ⟨z, h3, h4⟩ := Option.bind_eq_some_iff.mp h2
    cases h4
    exact ⟨h, fun f hf => by cases hf⟩
  | .hook name r, e, h => by
    unfold DCore.meaning at h ⊢; unfold DCore.refs
    obtain ⟨y, h1, h2⟩ := Option.bind_eq_some_iff.mp h
    obtain ⟨k1, k2⟩ := rhs_link h1
    cases h2
    exact ⟨Option.bind_eq_some_iff.mpr ⟨_, k1, rfl⟩, k2⟩
  | .sub r, e, h => by
    unfold DCore.meaning at h ⊢; unfold DCore.refs
    obtain ⟨y, h1, h2⟩ := Option.bind_eq_some_iff.mp h
    obtain ⟨k1, k2⟩ := rhs_link h1
    cases h2
    exact ⟨Option.bind_eq_some_iff.mpr ⟨_, k1, rfl⟩, k2⟩
  | .term t, e, h => by
    unfold DCore.meaning at h ⊢; unfold DCore.refs
    cases t <;> (cases h; exact ⟨rfl, fun f hf => by cases hf⟩)
  | .str s, e, h => by
    unfold DCore.meaning at h ⊢; unfold DCore.refs
    obtain ⟨y, h1, h2⟩ := Option.bind_eq_some_iff.mp h
    cases h2
    exact ⟨h, fun f hf => by cases hf⟩
  | .ref nm, e, h => by
    unfold DCore.meaning at h ⊢; unfold DCore.refs
    cases h
    unfold Refs.expr
    cases hl : c.leftRec nm with
    | some inv => exact ⟨rfl, fun f hf => by cases hf⟩
    | none =>
      cases hi : c.inline nm with
      | _ =>
        refine ⟨rfl, fun f hf => ?_⟩
        have : f = lower nm := by simpa [Expr.ordinary] using hf
        exact ⟨nm, by simp, this.symm, hl⟩
end

/-! ### Comparison of the linked program with the written grammar -/

section
variable {body : R → Expr R} {name : R → Bytes} {W : Bytes → Expr Bytes}

theorem Agrees.empty (hW : ∀ r, ∃ e, Agrees name (body r) e ∧ W (name r) = e.erase) {a : Expr R} (h : MayBeEmpty body a) :
    ∀ {e}, Agrees name a e → MayBeEmpty W e.erase := by
  induction h with
  | ref _ ih | inl _ ih | lr _ ih =>
    intro e he
    rename_i r _
    cases e <;> try exact he.elim
    obtain ⟨e', h1, h2⟩ := hW r
    have := ih h1
    simp only [Agrees] at he
    first
      | (subst he; exact .ref (h2 ▸ this))
      | (obtain ⟨rfl, _⟩ := he; exact .ref (h2 ▸ this))
  | string => intro e he; cases e <;> try exact he.elim
              cases he; exact .string
  | andP | notP | opt | star =>
    intro e he; cases e <;> try exact he.elim
    constructor
  | plus _ ih => intro e he; cases e <;> try exact he.elim
                 exact .plus (ih he)
  | sub _ ih => intro e he; cases e <;> try exact he.elim
                exact .sub (ih he)
  | hook _ ih => intro e he; cases e <;> try exact he.elim
                 exact .hook (ih he.2)
  | left _ ih => intro e he; cases e <;> try exact he.elim
                 exact .left (ih he.1)
  | right _ ih => intro e he; cases e <;> try exact he.elim
                  exact .right (ih he.2)
  | seq _ _ ih ih' => intro e he; cases e <;> try exact he.elim
                      exact .seq (ih he.1) (ih' he.2)

theorem Agrees.first (hW : ∀ r, ∃ e, Agrees name (body r) e ∧ W (name r) = e.erase) {a : Expr R} {r : R} (h : FirstRef body a r) :
    ∀ {e}, Agrees name a e → FirstRef W e.erase (name r) ∧ name r ∈ e.ordinary := by
  induction h with
  | ref => intro e he; cases e <;> try exact he.elim
           cases he; exact ⟨.ref, by simp [Expr.ordinary]⟩
  | inl => intro e he; cases e <;> try exact he.elim
           cases he; exact ⟨.ref, by simp [Expr.ordinary]⟩
  | andP _ ih => intro e he; cases e <;> try exact he.elim
                 exact ⟨.andP (ih he).1, (ih he).2⟩
  | notP _ ih => intro e he; cases e <;> try exact he.elim
                 exact ⟨.notP (ih he).1, (ih he).2⟩
  | opt _ ih => intro e he; cases e <;> try exact he.elim
                exact ⟨.opt (ih he).1, (ih he).2⟩
  | star _ ih => intro e he; cases e <;> try exact he.elim
                 exact ⟨.star (ih he).1, (ih he).2⟩
  | plus _ ih => intro e he; cases e <;> try exact he.elim
                 exact ⟨.plus (ih he).1, (ih he).2⟩
  | sub _ ih => intro e he; cases e <;> try exact he.elim
                exact ⟨.sub (ih he).1, (ih he).2⟩
  | hook _ ih => intro e he; cases e <;> try exact he.elim
                 exact ⟨.hook (ih he.2).1, (ih he.2).2⟩
  | left _ ih => intro e he; cases e <;> try exact he.elim
                 exact ⟨.left (ih he.1).1, List.mem_append_left _ (ih he.1).2⟩
  | right _ ih => intro e he; cases e <;> try exact he.elim
                  exact ⟨.right (ih he.2).1, List.mem_append_right _ (ih he.2).2⟩
  | fst _ ih => intro e he; cases e <;> try exact he.elim
                exact ⟨.fst (ih he.1).1, List.mem_append_left _ (ih he.1).2⟩
  | snd hm _ ih => intro e he; cases e <;> try exact he.elim
                   exact ⟨.snd (Agrees.empty hW hm he.1) (ih he.2).1, List.mem_append_right _ (ih he.2).2⟩

theorem Agrees.loops (hW : ∀ r, ∃ e, Agrees name (body r) e ∧ W (name r) = e.erase) :
    ∀ {a : Expr R} {e}, Agrees name a e → NoEmptyLoop W e.erase → NoEmptyLoop body a := by
  intro a
  induction a with
  | andPredicate a ih | notPredicate a ih | optional a ih | subexpression a ih =>
    intro e he h; cases e <;> try exact he.elim
    exact ih he h
  | oneOrMore a ih | zeroOrMore a ih =>
    intro e he h; cases e <;> try exact he.elim
    exact ⟨fun hm => h.1 (Agrees.empty hW hm he), ih he h.2⟩
  | hooked _ a ih =>
    intro e he h; cases e <;> try exact he.elim
    exact ih he.2 h
  | orderedChoice a b iha ihb | sequence a b iha ihb =>
    intro e he h; cases e <;> try exact he.elim
    exact ⟨iha he.1 h.1, ihb he.2 h.2⟩
  | _ => intro e he h; trivial

end

/-- The closures of the linked rules are those of the grammar. -/
theorem links_written {g : DGrammar} {ord : HashOrd} (hw : g.WF) (hsm : g.text.length < 82000000) {n : Nat} {c : GeneratedCode}
    (h : generateParser ord n g.text = .ok (.code c)) (hf : ∀ r ∈ g, r.rhs.Faithful) {body : R → Expr R} {name : R → Bytes}
    (hl : Links c body name) : ∃ refs, RefsFor g refs ∧ ∀ r, ∃ d ∈ g, lower d.name = name r ∧ ∃ e,
      d.rhs.meaning written refs = some e ∧ Agrees name (body r) e := by
  obtain ⟨refs, h1, h2, h3⟩ := denotes_grammar hw hsm h
  refine ⟨refs, h1, fun r => ?_⟩
  obtain ⟨k, hk, hn, e, he, ha⟩ := hl.fn r
  obtain ⟨i, hi, rfl⟩ := List.mem_iff_getElem.mp hk
  have hg : i < g.length := by omega
  obtain ⟨k', h4, h5, h6⟩ := h3 i _ (List.getElem?_eq_getElem hg)
  rw [List.getElem?_eq_getElem hi] at h4
  cases h4
  have hm := List.getElem_mem hg
  refine ⟨_, hm, by rw [← h5, hn], e, ?_, ha⟩
  rw [← (rhs_faithful (c := refs) (hw _ hm).2.2.1 (hf _ hm)).1, ← h6, he]

theorem links_wellFormed {g : DGrammar} {ord : HashOrd} (hw : g.WF) (hsm : g.text.length < 82000000) {n : Nat} {c : GeneratedCode}
    (h : generateParser ord n g.text = .ok (.code c)) (hf : ∀ r ∈ g, r.rhs.Faithful) {body : R → Expr R} {name : R → Bytes}
    (hl : Links c body name) (rules : List R) (hrules : ∀ r, r ∈ rules) {W : Bytes → Expr Bytes} (hW : g.Means W)
    (hcyc : ∀ x, ¬ Relation.TransGen (g.Hidden W) x x) (hloop : ∀ r ∈ g, NoEmptyLoop W (W (lower r.name))) : WellFormed body := by
  obtain ⟨refs, hr, hb⟩ := links_written hw hsm h hf hl
  have hbody : ∀ r, ∃ e, Agrees name (body r) e ∧ W (name r) = e.erase := fun r => by
    obtain ⟨d, hd, hn, e, he, ha⟩ := hb r
    have := (rhs_link he).1
    rw [hW d hd] at this
    injection this with this
    exact ⟨e, ha, by rw [← hn]; exact this⟩
  have hedge : ∀ r s, FirstRef body (body r) s → g.Hidden W (name r) (name s) := fun r s hrs => by
    obtain ⟨d, hd, hn, e, he, ha⟩ := hb r
    obtain ⟨k1, k2⟩ := rhs_link he
    rw [hW d hd] at k1
    injection k1 with k1
    obtain ⟨f1, f2⟩ := Agrees.first hbody hrs ha
    refine ⟨by rw [← hn, k1]; exact f1, d, hd, hn, ?_⟩
    obtain ⟨z, z1, z2, z3⟩ := k2 _ f2
    exact ⟨z, z1, z2, (hr.notLR z).mp z3⟩
  refine ⟨?_, fun r => ?_⟩
  · have : Finite R := _root_.Finite.of_surjective (fun i : Fin rules.length => rules[i]) fun r => by
      obtain ⟨i, hi, e⟩ := List.mem_iff_getElem.mp (hrules r)
      exact ⟨⟨i, hi⟩, e⟩
    have irr : ∀ r, ¬ Relation.TransGen (fun r' r => FirstRef body (body r) r') r r := fun r hc => hcyc (name r) (by
      have : ∀ a b, Relation.TransGen (fun r' r => FirstRef body (body r) r') a b → Relation.TransGen (g.Hidden W) (name b) (name a) := by
        intro a b h
        induction h with
        | single h => exact .single (hedge _ _ h)
        | tail _ h ih => exact .head (hedge _ _ h) ih
      exact this r r hc)
    have : Std.Irrefl (Relation.TransGen (fun r' r => FirstRef body (body r) r')) := ⟨irr⟩
    exact Subrelation.wf (fun {a b} h => Relation.TransGen.single h)
      (Finite.wellFounded_of_trans_of_irrefl (Relation.TransGen (fun r' r => FirstRef body (body r) r')))
  · obtain ⟨d, hd, hn, e, he, ha⟩ := hb r
    obtain ⟨k1, _⟩ := rhs_link he
    rw [hW d hd] at k1
    injection k1 with k1
    exact Agrees.loops hbody ha (k1 ▸ hloop d hd)

end PP.Gen
