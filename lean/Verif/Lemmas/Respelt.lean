import Verif.Spec.Respelt
import Verif.Lemmas.SameLink

/-! # Writing a grammar differently changes nothing -/
set_option linter.unusedSectionVars false
namespace PP
variable {R S T U : Type} {ρ : R → S → Prop} {σ : S → T → Prop} {τ : R → T → Prop}

theorem Expr.Same.trans (hτ : ∀ {r s t}, ρ r s → σ s t → τ r t) : ∀ {a : Expr R} {b : Expr S} {c : Expr T}, a.Same ρ b → b.Same σ c → a.Same τ c := by
  intro a
  induction a with
  | andPredicate _ ih | notPredicate _ ih | oneOrMore _ ih | zeroOrMore _ ih | optional _ ih | subexpression _ ih =>
    intro b c h h'; cases b <;> first | exact h.elim | (cases c <;> first | exact h'.elim | exact ih h h')
  | hooked _ _ ih => intro b c h h'; cases b <;> first | exact h.elim | (cases c <;> first | exact h'.elim | exact ⟨h.1.trans h'.1, ih h.2 h'.2⟩)
  | orderedChoice _ _ iha ihb | sequence _ _ iha ihb =>
    intro b c h h'; cases b <;> first | exact h.elim | (cases c <;> first | exact h'.elim | exact ⟨iha h.1 h'.1, ihb h.2 h'.2⟩)
  | terminal | stringTerminal =>
    intro b c h h'; cases b <;> first | exact h.elim | (cases c <;> first | exact h'.elim | exact Eq.trans h h')
  | varName | inlined => intro b c h h'; cases b <;> first | exact h.elim | (cases c <;> first | exact h'.elim | exact hτ h h')
  | matchRange => intro b c h h'; cases b <;> first | exact h.elim | (cases c <;> first | exact h'.elim | exact ⟨h.1.trans h'.1, h.2.trans h'.2⟩)
  | varNameLR inv r =>
    intro b c h h'; cases b <;> first | exact h.elim | cases c <;> first | exact h'.elim | skip
    refine ⟨hτ h.1 h'.1, fun x hx => ?_, fun z hz => ?_⟩
    · obtain ⟨y, hy, e⟩ := h.2.1 x hx
      obtain ⟨z, hz, e'⟩ := h'.2.1 y hy
      exact ⟨z, hz, hτ e e'⟩
    · obtain ⟨y, hy, e⟩ := h'.2.2 z hz
      obtain ⟨x, hx, e'⟩ := h.2.2 y hy
      exact ⟨x, hx, hτ e' e⟩

theorem Expr.Same.symm : ∀ {a : Expr R} {b : Expr S}, a.Same ρ b → b.Same (fun s r => ρ r s) a := by
  intro a
  induction a with
  | andPredicate _ ih | notPredicate _ ih | oneOrMore _ ih | zeroOrMore _ ih | optional _ ih | subexpression _ ih =>
    intro b h; cases b <;> first | exact h.elim | exact ih h
  | hooked _ _ ih => intro b h; cases b <;> first | exact h.elim | exact ⟨h.1.symm, ih h.2⟩
  | orderedChoice _ _ iha ihb | sequence _ _ iha ihb => intro b h; cases b <;> first | exact h.elim | exact ⟨iha h.1, ihb h.2⟩
  | terminal | stringTerminal => intro b h; cases b <;> first | exact h.elim | exact Eq.symm h
  | varName | inlined => intro b h; cases b <;> first | exact h.elim | exact h
  | matchRange => intro b h; cases b <;> first | exact h.elim | exact ⟨h.1.symm, h.2.symm⟩
  | varNameLR inv r => intro b h; cases b <;> first | exact h.elim | exact ⟨h.1, h.2.2, h.2.1⟩

namespace Gen

theorem agrees_iff {name : R → Bytes} {a : Expr R} {e : Expr Bytes} (h : Agrees name a e) : a.Same (fun r f => name r = f) e := by
  have hid : ∀ e : Expr Bytes, Agrees id e e := fun e => by
    induction e with
    | varNameLR inv r => exact ⟨rfl, fun x => by simp⟩
    | _ => simp_all [Agrees]
  exact agrees_same h (hid e)

/-! ## The references -/
variable {m : Bytes → Bytes} {g g' : DGrammar}

mutual
theorem respell_refs_rhs : ∀ r : DRhs, (r.respell m).refs = r.refs.map m
  | .atom _ a => respell_refs_atom a
  | .chain _ _ a as => by simp only [DRhs.respell, DRhs.refs, respell_refs_atom a, respell_refs_atoms as, List.map_append]
theorem respell_refs_atoms : ∀ r : DAtoms, (r.respell m).refs = r.refs.map m
  | .one _ a => respell_refs_atom a
  | .cons _ a as => by simp only [DAtoms.respell, DAtoms.refs, respell_refs_atom a, respell_refs_atoms as, List.map_append]
theorem respell_refs_atom : ∀ r : DAtom, (r.respell m).refs = r.refs.map m
  | .plain n => respell_refs_nuc n
  | .pre _ n => respell_refs_nuc n
  | .post _ n _ => respell_refs_nuc n
theorem respell_refs_nuc : ∀ r : DNuc, (r.respell m).refs = r.refs.map m
  | .mk c _ => respell_refs_core c
theorem respell_refs_core : ∀ r : DCore, (r.respell m).refs = r.refs.map m
  | .range .. => rfl
  | .hook _ r => respell_refs_rhs r
  | .sub r => respell_refs_rhs r
  | .term _ => rfl
  | .str _ => rfl
  | .ref x => rfl
end

mutual
theorem respell_lefts_rhs : ∀ r : DRhs, (r.respell m).lefts = r.lefts.map m
  | .atom _ a => respell_lefts_atom a
  | .chain .seq _ a _ => respell_lefts_atom a
  | .chain .choice _ a as => by simp only [DRhs.respell, DRhs.lefts, respell_lefts_atom a, respell_lefts_atoms as, List.map_append]
theorem respell_lefts_atoms : ∀ r : DAtoms, (r.respell m).lefts = r.lefts.map m
  | .one _ a => rfl
  | .cons _ a as => by simp only [DAtoms.respell, DAtoms.lefts, respell_lefts_atom a, respell_lefts_atoms as, List.map_append]
theorem respell_lefts_atom : ∀ r : DAtom, (r.respell m).lefts = r.lefts.map m
  | .plain n => respell_lefts_nuc n
  | .pre _ n => respell_lefts_nuc n
  | .post .plus n _ => respell_lefts_nuc n
  | .post .star n _ => rfl
  | .post .opt n _ => rfl
theorem respell_lefts_nuc : ∀ r : DNuc, (r.respell m).lefts = r.lefts.map m
  | .mk c _ => respell_lefts_core c
theorem respell_lefts_core : ∀ r : DCore, (r.respell m).lefts = r.lefts.map m
  | .range .. => rfl
  | .hook _ r => respell_lefts_rhs r
  | .sub r => respell_lefts_rhs r
  | .term _ => rfl
  | .str _ => rfl
  | .ref x => rfl
end

mutual
theorem respell_hooks_rhs : ∀ r : DRhs, (r.respell m).hooks = r.hooks
  | .atom _ a => respell_hooks_atom a
  | .chain _ _ a as => by simp only [DRhs.respell, DRhs.hooks, respell_hooks_atom a, respell_hooks_atoms as, List.map_append]
theorem respell_hooks_atoms : ∀ r : DAtoms, (r.respell m).hooks = r.hooks
  | .one _ a => respell_hooks_atom a
  | .cons _ a as => by simp only [DAtoms.respell, DAtoms.hooks, respell_hooks_atom a, respell_hooks_atoms as, List.map_append]
theorem respell_hooks_atom : ∀ r : DAtom, (r.respell m).hooks = r.hooks
  | .plain n => respell_hooks_nuc n
  | .pre _ n => respell_hooks_nuc n
  | .post _ n _ => respell_hooks_nuc n
theorem respell_hooks_nuc : ∀ r : DNuc, (r.respell m).hooks = r.hooks
  | .mk c _ => respell_hooks_core c
theorem respell_hooks_core : ∀ r : DCore, (r.respell m).hooks = r.hooks
  | .range .. => rfl
  | .hook _ r => by simp only [DCore.respell, DCore.hooks, respell_hooks_rhs r]
  | .sub r => respell_hooks_rhs r
  | .term _ => rfl
  | .str _ => rfl
  | .ref x => rfl
end


/-! ## Leftmost references -/

/-- Everything about two grammars that is used below. -/
theorem mem_unique (hc : g.Closed) {r s : DRule} (hr : r ∈ g) (hs : s ∈ g) (e : lower r.name = lower s.name) : r = s := by
  have hn : (g.map fun r => lower r.name).Nodup := by
    rw [List.Nodup, List.pairwise_map]
    exact hc.2
  exact nodup_inj hn hr hs e

theorem lookup_mem_iff (hc : g.Closed) {x : Bytes} {r : DRule} : g.lookup x = some r ↔ r ∈ g ∧ r.name = x := by
  unfold DGrammar.lookup
  constructor
  · intro h
    exact ⟨List.mem_reverse.mp (List.mem_of_find?_eq_some h), by simpa using List.find?_some h⟩
  · rintro ⟨hr, rfl⟩
    cases h : g.reverse.find? fun s => decide (s.name = r.name) with
    | none => exact absurd (List.find?_eq_none.mp h r (List.mem_reverse.mpr hr)) (by simp)
    | some s =>
      have h1 := List.mem_reverse.mp (List.mem_of_find?_eq_some h)
      have h2 : s.name = r.name := by simpa using List.find?_some h
      rw [mem_unique hc h1 hr (by rw [h2])]

theorem DRule.Respelt.refs {r r' : DRule} (h : r.Respelt m r') : r'.rhs.refs = r.rhs.refs.map m := by
  have := congrArg DRhs.refs h.2.2
  rwa [respell_refs_rhs, respell_refs_rhs, List.map_id] at this
theorem DRule.Respelt.lefts {r r' : DRule} (h : r.Respelt m r') : r'.rhs.lefts = r.rhs.lefts.map m := by
  have := congrArg DRhs.lefts h.2.2
  rwa [respell_lefts_rhs, respell_lefts_rhs, List.map_id] at this

/-- `x` is declared. -/
def Declared (g : DGrammar) (x : Bytes) : Prop := ∃ r ∈ g, r.name = x

theorem lefts_declared (hc : g.Closed) {r : DRule} (hr : r ∈ g) {y : Bytes} (hy : y ∈ r.rhs.lefts) (hl : ∀ r : DRhs, ∀ y ∈ r.lefts, y ∈ r.refs) :
    Declared g y := hc.1 r hr y (hl _ _ hy)

mutual
theorem lefts_refs_rhs : ∀ (r : DRhs), ∀ y ∈ r.lefts, y ∈ r.refs
  | .atom _ a => lefts_refs_atom a
  | .chain .seq _ a _ => fun y hy => List.mem_append_left _ (lefts_refs_atom a y hy)
  | .chain .choice _ a as => fun y hy => by
    simp only [DRhs.lefts, List.mem_append] at hy
    exact List.mem_append.mpr (hy.imp (lefts_refs_atom a y) (lefts_refs_atoms as y))
theorem lefts_refs_atoms : ∀ (r : DAtoms), ∀ y ∈ r.lefts, y ∈ r.refs
  | .one _ _ => fun _ hy => nomatch hy
  | .cons _ a as => fun y hy => by
    simp only [DAtoms.lefts, List.mem_append] at hy
    exact List.mem_append.mpr (hy.imp (lefts_refs_atom a y) (lefts_refs_atoms as y))
theorem lefts_refs_atom : ∀ (r : DAtom), ∀ y ∈ r.lefts, y ∈ r.refs
  | .plain n => lefts_refs_nuc n
  | .pre _ n => lefts_refs_nuc n
  | .post .plus n _ => lefts_refs_nuc n
  | .post .star _ _ => fun _ hy => nomatch hy
  | .post .opt _ _ => fun _ hy => nomatch hy
theorem lefts_refs_nuc : ∀ (r : DNuc), ∀ y ∈ r.lefts, y ∈ r.refs
  | .mk c _ => lefts_refs_core c
theorem lefts_refs_core : ∀ (r : DCore), ∀ y ∈ r.lefts, y ∈ r.refs
  | .hook _ r => lefts_refs_rhs r
  | .sub r => lefts_refs_rhs r
  | .ref _ => fun _ hy => hy
  | .range .. => fun _ hy => nomatch hy
  | .term _ => fun _ hy => nomatch hy
  | .str _ => fun _ hy => nomatch hy
end

section
variable (hc : g.Closed) (hc' : g'.Closed) (hm : DGrammar.Respelt m g g')
include hc hc' hm

theorem Respelt.unique {r s : DRule} (hr : r ∈ g) (hs : s ∈ g) (e : m r.name = m s.name) : r = s :=
  mem_unique hc hr hs (by rw [hm.inj r hr s hs e])

theorem left_iff {x : Bytes} (hx : Declared g x) (y' : Bytes) : g'.Left (m x) y' ↔ ∃ y, y' = m y ∧ g.Left x y := by
  obtain ⟨r, hr, rfl⟩ := hx
  obtain ⟨r', hr', e⟩ := hm.there r hr
  constructor
  · rintro ⟨s', hs', hy⟩
    obtain ⟨h1, h2⟩ := (lookup_mem_iff hc').mp hs'
    obtain rfl : s' = r' := mem_unique hc' h1 hr' (by rw [h2, e.1])
    rw [e.lefts, List.mem_map] at hy
    obtain ⟨y, hy, rfl⟩ := hy
    exact ⟨y, rfl, r, (lookup_mem_iff hc).mpr ⟨hr, rfl⟩, hy⟩
  · rintro ⟨y, rfl, s, hs, hy⟩
    obtain ⟨h1, h2⟩ := (lookup_mem_iff hc).mp hs
    obtain rfl : s = r := mem_unique hc h1 hr (by rw [h2])
    exact ⟨r', (lookup_mem_iff hc').mpr ⟨hr', e.1⟩, by rw [e.lefts]; exact List.mem_map_of_mem hy⟩

theorem left_declared {x y : Bytes} (h : g.Left x y) : Declared g y := by
  obtain ⟨r, hr, hy⟩ := h
  exact hc.1 r ((lookup_mem_iff hc).mp hr).1 y (lefts_refs_rhs _ _ hy)

theorem leads_there {x y : Bytes} (h : g.Leads x y) (hx : Declared g x) : g'.Leads (m x) (m y) ∧ Declared g y := by
  induction h with
  | refl => exact ⟨.refl _, hx⟩
  | step hl _ ih =>
    obtain ⟨h1, h2⟩ := ih (left_declared hc hc' hm hl)
    exact ⟨.step ((left_iff hc hc' hm hx _).mpr ⟨_, rfl, hl⟩) h1, h2⟩

theorem leads_back {x' y' : Bytes} (h : g'.Leads x' y') : ∀ {x}, x' = m x → Declared g x → ∃ y, y' = m y ∧ g.Leads x y := by
  induction h with
  | refl => intro x e _; exact ⟨x, e, .refl _⟩
  | step hl _ ih =>
    intro x e hx
    subst e
    obtain ⟨y, rfl, hl'⟩ := (left_iff hc hc' hm hx _).mp hl
    obtain ⟨z, rfl, h⟩ := ih rfl (left_declared hc hc' hm hl')
    exact ⟨z, rfl, .step hl' h⟩

theorem declared_inj {x y : Bytes} (hx : Declared g x) (hy : Declared g y) (e : m x = m y) : x = y := by
  obtain ⟨r, hr, rfl⟩ := hx
  obtain ⟨s, hs, rfl⟩ := hy
  exact hm.inj r hr s hs e

theorem leftRec_iff {x : Bytes} (hx : Declared g x) : g'.LeftRecursive (m x) ↔ g.LeftRecursive x := by
  constructor
  · rintro ⟨y', z', h1, h2, h3⟩
    obtain ⟨y, rfl, k1⟩ := leads_back hc hc' hm h1 rfl hx
    have hy := (leads_there hc hc' hm k1 hx).2
    obtain ⟨z, rfl, k2⟩ := (left_iff hc hc' hm hy _).mp h2
    have hz := left_declared hc hc' hm k2
    obtain ⟨y2, e, k3⟩ := leads_back hc hc' hm h3 rfl hz
    obtain rfl := declared_inj hc hc' hm hy (leads_there hc hc' hm k3 hz).2 e
    exact ⟨y, z, k1, k2, k3⟩
  · rintro ⟨y, z, h1, h2, h3⟩
    have hy := leads_there hc hc' hm h1 hx
    exact ⟨_, _, hy.1, (left_iff hc hc' hm hy.2 _).mpr ⟨_, rfl, h2⟩, (leads_there hc hc' hm h3 (left_declared hc hc' hm h2)).1⟩

theorem inlined_iff {x : Bytes} (hx : Declared g x) : g'.Inlined (m x) ↔ g.Inlined x := by
  obtain ⟨r, hr, rfl⟩ := hx
  obtain ⟨r', hr', e⟩ := hm.there r hr
  constructor
  · rintro ⟨s', hs', h1, h2⟩
    obtain rfl : s' = r' := mem_unique hc' hs' hr' (by rw [h1, e.1])
    exact ⟨r, hr, rfl, e.2.1 ▸ h2⟩
  · rintro ⟨s, hs, h1, h2⟩
    obtain rfl : s = r := mem_unique hc hs hr (by rw [h1])
    exact ⟨r', hr', e.1, e.2.1.trans h2⟩

/-- The functions of partners. -/
def Partner (m : Bytes → Bytes) (g : DGrammar) (f f' : Bytes) : Prop := ∃ d ∈ g, f = lower d.name ∧ f' = lower (m d.name)

theorem partner_pairing : Pairing (Partner m g) := by
  constructor
  · rintro f f' f'' ⟨d, hd, rfl, rfl⟩ ⟨d', hd', e, rfl⟩
    rw [mem_unique hc hd hd' e]
  · rintro f f' f'' ⟨d, hd, rfl, rfl⟩ ⟨d', hd', rfl, e⟩
    obtain ⟨r, hr, h⟩ := hm.there d hd
    obtain ⟨r', hr', h'⟩ := hm.there d' hd'
    have := mem_unique hc' hr hr' (by rw [h.1, h'.1, e])
    subst this
    rw [hm.inj d hd d' hd' (h.1.symm.trans h'.1)]

theorem partner_refs {refs refs' : Refs} (h : RefsFor g refs) (h' : RefsFor g' refs') {x : Bytes} (hx : Declared g x) :
    (refs.expr x).Same (Partner m g) (refs'.expr (m x)) := by
  have hp : Partner m g (lower x) (lower (m x)) := by
    obtain ⟨r, hr, rfl⟩ := hx
    exact ⟨r, hr, rfl, rfl⟩
  unfold Refs.expr
  by_cases hl : g.LeftRecursive x
  · cases e : refs.leftRec x with
    | none => exact absurd hl ((h.notLR x).mp e)
    | some inv =>
      cases e' : refs'.leftRec (m x) with
      | none => exact absurd ((leftRec_iff hc hc' hm hx).mpr hl) ((h'.notLR _).mp e')
      | some inv' =>
        refine ⟨hp, fun f hf => ?_, fun f' hf' => ?_⟩
        · obtain ⟨y, h1, h2, rfl⟩ := (h.involved x inv e f).mp hf
          have h3 := leads_there hc hc' hm h2 hx
          obtain ⟨r, hr, rfl⟩ := h3.2
          exact ⟨_, (h'.involved _ inv' e' _).mpr ⟨_, (leftRec_iff hc hc' hm h3.2).mpr h1, h3.1, rfl⟩, r, hr, rfl, rfl⟩
        · obtain ⟨y', h1, h2, rfl⟩ := (h'.involved _ inv' e' f').mp hf'
          obtain ⟨y, rfl, k2⟩ := leads_back hc hc' hm h2 rfl hx
          have h3 := (leads_there hc hc' hm k2 hx).2
          obtain ⟨r, hr, e3⟩ := id h3
          subst e3
          exact ⟨_, (h.involved x inv e _).mpr ⟨_, (leftRec_iff hc hc' hm h3).mp h1, k2, rfl⟩, r, hr, rfl, rfl⟩
  · rw [(h.notLR x).mpr hl, (h'.notLR _).mpr fun h => hl ((leftRec_iff hc hc' hm hx).mp h)]
    have hi : refs'.inline (m x) = refs.inline x := by
      have h1 := h.inline x
      have h2 := h'.inline (m x)
      rw [inlined_iff hc hc' hm hx] at h2
      cases hc : refs.inline x <;> cases hc' : refs'.inline (m x) <;> simp_all
    simp only [hi]
    split <;> exact hp
end

/-! ## Meanings -/

/-- Both undefined, or both defined and the same. -/
def OptSame (ρ : Bytes → Bytes → Prop) : Option (Expr Bytes) → Option (Expr Bytes) → Prop
  | some e, some e' => e.Same ρ e'
  | none, none => True
  | _, _ => False

theorem OptSame.bind {ρ : Bytes → Bytes → Prop} {x y : Option (Expr Bytes)} {f k : Expr Bytes → Option (Expr Bytes)} (h : OptSame ρ x y)
    (hf : ∀ a b, Expr.Same ρ a b → OptSame ρ (f a) (k b)) : OptSame ρ (x >>= f) (y >>= k) := by
  cases x <;> cases y <;> first | exact h.elim | trivial | exact hf _ _ h

theorem same_self {ρ : Bytes → Bytes → Prop} {x : Option (Expr Bytes)} (h : ∀ e, x = some e → e.Same ρ e) : OptSame ρ x x := by
  cases x with
  | none => trivial
  | some e => exact h e rfl

section
variable {ρ : Bytes → Bytes → Prop} {refs refs' : Refs}

mutual
theorem respell_meaning_rhs : ∀ (r : DRhs), (∀ x ∈ r.refs, (refs.expr x).Same ρ (refs'.expr (m x))) →
    OptSame ρ (r.meaning written refs) ((r.respell m).meaning written refs')
  | .atom _ a, h => respell_meaning_atom a h
  | .chain o _ a as, h => OptSame.bind (respell_meaning_atom a fun x hx => h x (List.mem_append_left _ hx)) fun _ _ hxy =>
      respell_meaning_atoms as o hxy fun x hx => h x (List.mem_append_right _ hx)
theorem respell_meaning_atoms : ∀ (r : DAtoms) (o : ChainOp) {x y : Expr Bytes}, x.Same ρ y → (∀ x ∈ r.refs, (refs.expr x).Same ρ (refs'.expr (m x))) →
    OptSame ρ (r.meaning written refs o x) ((r.respell m).meaning written refs' o y)
  | .one _ a, o, _, _, hxy, h => OptSame.bind (respell_meaning_atom a h) fun _ _ h => by cases o <;> exact ⟨hxy, h⟩
  | .cons _ a as, o, _, _, hxy, h => OptSame.bind (respell_meaning_atom a fun x hx => h x (List.mem_append_left _ hx)) fun _ _ h' =>
      respell_meaning_atoms as o (by cases o <;> exact ⟨hxy, h'⟩) fun x hx => h x (List.mem_append_right _ hx)
theorem respell_meaning_atom : ∀ (r : DAtom), (∀ x ∈ r.refs, (refs.expr x).Same ρ (refs'.expr (m x))) →
    OptSame ρ (r.meaning written refs) ((r.respell m).meaning written refs')
  | .plain n, h => respell_meaning_nuc n h
  | .pre o n, h => OptSame.bind (respell_meaning_nuc n h) fun _ _ h' => by cases o <;> exact h'
  | .post o n _, h => OptSame.bind (respell_meaning_nuc n h) fun _ _ h' => by cases o <;> exact h'
theorem respell_meaning_nuc : ∀ (r : DNuc), (∀ x ∈ r.refs, (refs.expr x).Same ρ (refs'.expr (m x))) →
    OptSame ρ (r.meaning written refs) ((r.respell m).meaning written refs')
  | .mk c _, h => respell_meaning_core c h
theorem respell_meaning_core : ∀ (r : DCore), (∀ x ∈ r.refs, (refs.expr x).Same ρ (refs'.expr (m x))) →
    OptSame ρ (r.meaning written refs) ((r.respell m).meaning written refs')
  | .range _ _ lo hi _, _ => by
    simp only [DCore.respell, DCore.meaning]
    refine same_self fun e he => ?_
    cases h1 : written.bound lo <;> cases h2 : written.bound hi <;> rw [h1, h2] at he <;> cases he
    exact ⟨rfl, rfl⟩
  | .hook _ r, h => OptSame.bind (respell_meaning_rhs r h) fun _ _ h => ⟨rfl, h⟩
  | .sub r, h => OptSame.bind (respell_meaning_rhs r h) fun _ _ h => h
  | .term t, _ => by cases t <;> exact rfl
  | .str s, _ => by
    simp only [DCore.respell, DCore.meaning]
    refine same_self fun e he => ?_
    cases h1 : written.str s <;> rw [h1] at he <;> cases he
    exact rfl
  | .ref x, h => h x (List.mem_singleton.mpr rfl)
end
end

end Gen
end PP
