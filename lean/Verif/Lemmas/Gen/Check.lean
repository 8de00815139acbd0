import Verif.Lemmas.Gen.LinkExists
import Verif.Spec.Files

/-! # Deciding the hypotheses of the generator theorems for a concrete grammar file -/
set_option linter.unusedSectionVars false
namespace PP.Gen


/-! ## Well-formedness -/

instance (l : List Bytes) : Decidable (StrictSorted l) := inferInstanceAs (Decidable (l.Pairwise fun a b => bytesLe a b = true ∧ a ≠ b))

instance (w : Bytes) : Decidable (IsWs w) := inferInstanceAs (Decidable (∀ c ∈ w, c = 32 ∨ c = 10 ∨ c = 13 ∨ c = 9))
instance (c : UInt8) : Decidable (IsLetter c) :=
  inferInstanceAs (Decidable ((97 ≤ c.toNat ∧ c.toNat ≤ 122) ∨ (65 ≤ c.toNat ∧ c.toNat ≤ 90)))
instance : (w : Bytes) → Decidable (IsName w)
  | [] => inferInstanceAs (Decidable False)
  | c :: cs => inferInstanceAs (Decidable (IsLetter c ∧ ∀ d ∈ cs, IsLetter d ∨ d = 95))
instance (c : UInt8) : Decidable (IsDigit c) := inferInstanceAs (Decidable (48 ≤ c.toNat ∧ c.toNat ≤ 57))
instance (c : UInt8) : Decidable (IsHexDigit c) :=
  inferInstanceAs (Decidable ((48 ≤ c.toNat ∧ c.toNat ≤ 57) ∨ (65 ≤ c.toNat ∧ c.toNat ≤ 70)))
instance (w : Bytes) : Decidable (IsHex w) := inferInstanceAs (Decidable (w ≠ [] ∧ ∀ d ∈ w, IsHexDigit d))
instance : (w : Bytes) → Decidable (IsInt w)
  | [] => inferInstanceAs (Decidable False)
  | c :: cs => inferInstanceAs (Decidable ((49 ≤ c.toNat ∧ c.toNat ≤ 57) ∧ ∀ d ∈ cs, IsDigit d))
instance : (t : DTerm) → Decidable t.WF
  | .chr _ => inferInstanceAs (Decidable True)
  | .esc c => inferInstanceAs (Decidable (c = 110 ∨ c = 114 ∨ c = 116))
  | .eps => inferInstanceAs (Decidable True)
instance : (b : DBound) → Decidable b.WF
  | .term t => inferInstanceAs (Decidable t.WF)
  | .int ds => inferInstanceAs (Decidable (IsInt ds))
  | .hex ds => inferInstanceAs (Decidable (IsHex ds))
instance : (b : DStr) → Decidable b.WF
  | .quoted s => inferInstanceAs (Decidable (2 ≤ s.length ∧ ∀ c ∈ s, c ≠ 34))
  | .hex ds => inferInstanceAs (Decidable (IsHex ds))
  | .int ds => inferInstanceAs (Decidable (IsInt ds))

mutual
def DRhs.decWF : (r : DRhs) → Decidable r.WF
  | .atom w a => have := a.decWF; inferInstanceAs (Decidable (IsWs w ∧ a.WF))
  | .chain _ w a as => have := a.decWF; have := as.decWF; inferInstanceAs (Decidable (IsWs w ∧ a.WF ∧ as.WF))
def DAtoms.decWF : (r : DAtoms) → Decidable r.WF
  | .one w a => have := a.decWF; inferInstanceAs (Decidable (IsWs w ∧ a.WF))
  | .cons w a as => have := a.decWF; have := as.decWF; inferInstanceAs (Decidable (IsWs w ∧ a.WF ∧ as.WF))
def DAtom.decWF : (r : DAtom) → Decidable r.WF
  | .plain n => have := n.decWF; inferInstanceAs (Decidable (n.WF ∧ n.lead = []))
  | .pre _ n => n.decWF
  | .post _ n w => have := n.decWF; inferInstanceAs (Decidable (n.WF ∧ n.lead = [] ∧ IsWs w))
def DNuc.decWF : (r : DNuc) → Decidable r.WF
  | .mk c w => have := c.decWF; inferInstanceAs (Decidable (c.WF ∧ IsWs w))
def DCore.decWF : (r : DCore) → Decidable r.WF
  | .range w0 w1 lo hi w2 => inferInstanceAs (Decidable (IsWs w0 ∧ IsWs w1 ∧ lo.WF ∧ hi.WF ∧ IsWs w2))
  | .hook name r => have := r.decWF; inferInstanceAs (Decidable (IsName name ∧ r.WF))
  | .sub r => r.decWF
  | .term t => inferInstanceAs (Decidable t.WF)
  | .str s => inferInstanceAs (Decidable s.WF)
  | .ref name => inferInstanceAs (Decidable (IsName name))
end
instance (r : DRhs) : Decidable r.WF := r.decWF
instance : (s : DSep) → Decidable s.WF
  | .plain w => inferInstanceAs (Decidable (IsWs w))
  | .inline w w' => inferInstanceAs (Decidable (IsWs w ∧ IsWs w'))
instance (c : DComment) : Decidable c.WF := inferInstanceAs (Decidable ((∀ b ∈ c.body, b ≠ 35) ∧ IsWs c.w))
instance (r : DRule) : Decidable r.WF :=
  inferInstanceAs (Decidable (IsName r.name ∧ r.sep.WF ∧ r.rhs.WF ∧ IsWs r.w ∧ ∀ c ∈ r.comments, c.WF))
instance (g : DGrammar) : Decidable g.WF := inferInstanceAs (Decidable (∀ r ∈ g, r.WF))

/-! ## Faithful leaves, comments, closedness -/

instance : (b : DBound) → Decidable b.Faithful
  | .term (.chr c) => inferInstanceAs (Decidable (c < 128))
  | .term (.esc _) => inferInstanceAs (Decidable False)
  | .term .eps => inferInstanceAs (Decidable False)
  | .int _ => inferInstanceAs (Decidable False)
  | .hex ds => inferInstanceAs (Decidable (hexValue ds < 4294967296))
instance : (b : DTerm) → Decidable b.Faithful
  | .chr c => inferInstanceAs (Decidable (c < 128 ∧ c ≠ 10 ∧ c ≠ 13 ∧ c ≠ 9))
  | .esc _ => inferInstanceAs (Decidable True)
  | .eps => inferInstanceAs (Decidable False)
instance : (b : DStr) → Decidable b.Faithful
  | .quoted s => inferInstanceAs (Decidable (∀ c ∈ s, c < 128 ∧ c ≠ 92 ∧ c ≠ 13))
  | .hex ds => inferInstanceAs (Decidable (hexValue ds < 128 ∧ hexValue ds ≠ 34 ∧ hexValue ds ≠ 92 ∧ hexValue ds ≠ 13))
  | .int _ => inferInstanceAs (Decidable False)
mutual
def DRhs.decFaithful : (r : DRhs) → Decidable r.Faithful
  | .atom _ a => a.decFaithful
  | .chain _ _ a as => have := a.decFaithful; have := as.decFaithful; inferInstanceAs (Decidable (a.Faithful ∧ as.Faithful))
def DAtoms.decFaithful : (r : DAtoms) → Decidable r.Faithful
  | .one _ a => a.decFaithful
  | .cons _ a as => have := a.decFaithful; have := as.decFaithful; inferInstanceAs (Decidable (a.Faithful ∧ as.Faithful))
def DAtom.decFaithful : (r : DAtom) → Decidable r.Faithful
  | .plain n => n.decFaithful
  | .pre _ n => n.decFaithful
  | .post _ n _ => n.decFaithful
def DNuc.decFaithful : (r : DNuc) → Decidable r.Faithful
  | .mk c _ => c.decFaithful
def DCore.decFaithful : (r : DCore) → Decidable r.Faithful
  | .range _ _ lo hi _ => inferInstanceAs (Decidable (lo.Faithful ∧ hi.Faithful))
  | .hook _ r => r.decFaithful
  | .sub r => r.decFaithful
  | .term t => inferInstanceAs (Decidable t.Faithful)
  | .str s => inferInstanceAs (Decidable s.Faithful)
  | .ref _ => inferInstanceAs (Decidable True)
end
instance (r : DRhs) : Decidable r.Faithful := r.decFaithful

/-- Non-empty and starting with an ASCII byte. -/
def DComment.calm (c : DComment) : Bool :=
  match c.body with
  | [] => false
  | b :: _ => decide (b.toNat < 128)
theorem DComment.calm_ok {c : DComment} (h : c.calm = true) : ¬ c.Panics := by
  unfold calm at h
  rintro (h1 | ⟨b, s, h1, h2⟩)
  · rw [h1] at h; cases h
  · rw [h1] at h
    simp only [decide_eq_true_eq] at h
    unfold IsCont at h2
    omega

instance (g : DGrammar) : Decidable g.Closed :=
  inferInstanceAs (Decidable ((∀ r ∈ g, ∀ z ∈ r.rhs.refs, ∃ r' ∈ g, r'.name = z) ∧ g.Pairwise fun r r' => lower r.name ≠ lower r'.name))

/-! ## Leftmost references -/

/-- The leftmost references of a name. -/
def DGrammar.leftOf (g : DGrammar) (x : Bytes) : List Bytes :=
  match g.lookup x with
  | some r => r.rhs.lefts
  | none => []
theorem mem_leftOf {g : DGrammar} {x y : Bytes} : y ∈ g.leftOf x ↔ g.Left x y := by
  unfold DGrammar.leftOf DGrammar.Left
  cases g.lookup x <;> simp

/-- One more step. -/
def DGrammar.reachStep (g : DGrammar) (l : List Bytes) : List Bytes :=
  (l.flatMap g.leftOf).foldl (fun l y => if y ∈ l then l else l ++ [y]) l
/-- What `n` steps reach. -/
def DGrammar.reachN (g : DGrammar) (n : Nat) (x : Bytes) : List Bytes := n.repeat g.reachStep [x]

theorem Leads.trans {g : DGrammar} {x y z : Bytes} (h : g.Leads x y) (h' : g.Leads y z) : g.Leads x z := by
  induction h with
  | refl => exact h'
  | step a _ ih => exact .step a (ih h')

theorem fold_mem {m l : List Bytes} {y : Bytes} :
    y ∈ m.foldl (fun l y => if y ∈ l then l else l ++ [y]) l → y ∈ l ∨ y ∈ m := by
  induction m generalizing l with
  | nil => exact Or.inl
  | cons a m ih =>
    intro h
    rcases ih h with h | h
    · dsimp only at h
      split at h
      · exact Or.inl h
      · simp only [List.mem_append, List.mem_singleton] at h
        rcases h with h | rfl
        · exact Or.inl h
        · exact Or.inr (by simp)
    · exact Or.inr (by simp [h])
theorem fold_keep {m l : List Bytes} {y : Bytes} (h : y ∈ l) :
    y ∈ m.foldl (fun l y => if y ∈ l then l else l ++ [y]) l := by
  induction m generalizing l with
  | nil => exact h
  | cons a m ih =>
    refine ih ?_
    dsimp only
    split
    · exact h
    · simp [h]

theorem reach_sound {g : DGrammar} {x y : Bytes} : ∀ n, y ∈ g.reachN n x → g.Leads x y := by
  intro n
  induction n generalizing y with
  | zero => intro h; simp only [DGrammar.reachN, Nat.repeat, List.mem_singleton] at h; exact h ▸ .refl _
  | succ n ih =>
    intro h
    rcases fold_mem h with h | h
    · exact ih h
    · obtain ⟨z, hz, hy⟩ := List.mem_flatMap.mp h
      exact Leads.trans (ih hz) (.step (mem_leftOf.mp hy) (.refl _))
theorem reach_self {g : DGrammar} {x : Bytes} : ∀ n, x ∈ g.reachN n x := by
  intro n
  induction n with
  | zero => simp [DGrammar.reachN, Nat.repeat]
  | succ n ih => exact fold_keep ih

/-- `reach` is closed under leftmost references. -/
def DGrammar.closedAt (g : DGrammar) (n : Nat) (x : Bytes) : Bool :=
  (g.reachN n x).all fun y => (g.leftOf y).all fun z => decide (z ∈ g.reachN n x)

theorem closed_complete {g : DGrammar} {n : Nat} {x : Bytes} (h : g.closedAt n x = true) {y z : Bytes} (hl : g.Leads y z) :
    y ∈ g.reachN n x → z ∈ g.reachN n x := by
  induction hl with
  | refl => exact id
  | step a _ ih =>
    intro hy
    have h1 := List.all_eq_true.mp (List.all_eq_true.mp h _ hy) _ (mem_leftOf.mpr a)
    exact ih (by simpa using h1)

/-- `x` leads to a cycle. -/
def DGrammar.isLR (g : DGrammar) (n : Nat) (x : Bytes) : Bool :=
  (g.reachN n x).any fun y => (g.leftOf y).any fun z => decide (y ∈ g.reachN n z)

/-- All declared and leftmost names have closed reaches. -/
def DGrammar.reachOk (g : DGrammar) (n : Nat) : Bool :=
  (g.all fun r => g.closedAt n r.name) && g.all fun r => r.rhs.lefts.all fun z => g.closedAt n z

theorem reachOk_at {g : DGrammar} {n : Nat} (h : g.reachOk n = true) (x : Bytes) : g.closedAt n x = true := by
  have h := (Bool.and_eq_true_iff.mp h).1
  by_cases hx : ∃ r ∈ g, r.name = x
  · obtain ⟨r, hr, rfl⟩ := hx
    exact List.all_eq_true.mp h r hr
  · have hl : g.leftOf x = [] := by
      unfold DGrammar.leftOf
      cases hr : g.lookup x with
      | none => rfl
      | some r =>
        unfold DGrammar.lookup at hr
        exact absurd ⟨r, by simpa using List.mem_of_find?_eq_some hr, by simpa using List.find?_some hr⟩ hx
    have hr : ∀ n, g.reachN n x = [x] := by
      intro n
      induction n with
      | zero => rfl
      | succ n ih =>
        show g.reachStep (g.reachN n x) = _
        rw [ih]
        simp [DGrammar.reachStep, hl]
    simp [DGrammar.closedAt, hr, hl]

theorem leads_iff {g : DGrammar} {n : Nat} (h : g.reachOk n = true) {x y : Bytes} : g.Leads x y ↔ y ∈ g.reachN n x :=
  ⟨fun hl => closed_complete (reachOk_at h x) hl (reach_self n), reach_sound n⟩

theorem isLR_iff {g : DGrammar} {n : Nat} (h : g.reachOk n = true) {x : Bytes} : g.isLR n x = true ↔ g.LeftRecursive x := by
  unfold DGrammar.isLR DGrammar.LeftRecursive
  simp only [List.any_eq_true, decide_eq_true_eq, ← leads_iff h, mem_leftOf]
  exact ⟨fun ⟨y, h1, z, h2, h3⟩ => ⟨y, z, h1, h2, h3⟩, fun ⟨y, z, h1, h2, h3⟩ => ⟨y, h1, z, h2, h3⟩⟩

/-- The references of a grammar, computed. -/
def DGrammar.refsOf (g : DGrammar) (n : Nat) : Refs where
  inline x := g.any fun r => r.name = x ∧ r.sep.isInline = true
  leftRec x := if g.isLR n x then some (((g.reachN n x).filter (g.isLR n)).map lower) else none

theorem refsOf_ok {g : DGrammar} {n : Nat} (h : g.reachOk n = true) : RefsFor g (g.refsOf n) where
  inline x := by simp [DGrammar.refsOf, DGrammar.Inlined]
  notLR x := by
    rw [← isLR_iff h]
    simp only [DGrammar.refsOf]
    split <;> simp [*]
  involved x inv hx f := by
    simp only [DGrammar.refsOf] at hx
    split at hx
    · injection hx with hx
      subst hx
      simp only [List.mem_map, List.mem_filter, isLR_iff h, ← leads_iff h]
      exact ⟨fun ⟨y, ⟨h1, h2⟩, h3⟩ => ⟨y, h2, h1, h3.symm⟩, fun ⟨y, h1, h2, h3⟩ => ⟨y, ⟨h2, h1⟩, h3.symm⟩⟩
    · cases hx

/-! ## Two translations of the same references agree -/

/-- The same up to the order of involved sets. -/
def SameExpr (e e' : Expr Bytes) : Prop := ∀ {R : Type} (name : R → Bytes) (a : Expr R), Agrees name a e → Agrees name a e'

theorem refs_expr_same {g : DGrammar} {c c' : Refs} (h : RefsFor g c) (h' : RefsFor g c') (x : Bytes) : SameExpr (c.expr x) (c'.expr x) := by
  intro R name a ha
  unfold Refs.expr at ha ⊢
  by_cases hl : g.LeftRecursive x
  · cases e : c.leftRec x with
    | none => exact absurd hl ((h.notLR x).mp e)
    | some inv =>
      cases e' : c'.leftRec x with
      | none => exact absurd hl ((h'.notLR x).mp e')
      | some inv' =>
        rw [e] at ha
        cases a with
        | varNameLR i r => exact ⟨ha.1, fun y => by rw [h'.involved x inv' e' y, ← h.involved x inv e y]; exact ha.2 y⟩
        | _ => exact ha
  · rw [(h.notLR x).mpr hl] at ha
    rw [(h'.notLR x).mpr hl]
    have hi : c'.inline x = c.inline x := by
      have h1 := h.inline x
      have h2 := h'.inline x
      cases hc : c.inline x <;> cases hc' : c'.inline x <;> simp_all
    simpa only [hi] using ha

/-- Both undefined, or both defined and the same. -/
def SameOpt : Option (Expr Bytes) → Option (Expr Bytes) → Prop
  | some e, some e' => SameExpr e e'
  | none, none => True
  | _, _ => False

theorem SameExpr.rfl' {e : Expr Bytes} : SameExpr e e := fun _ _ h => h
theorem SameOpt.rfl' {e : Option (Expr Bytes)} : SameOpt e e := by
  cases e with
  | none => exact trivial
  | some e => exact SameExpr.rfl'

theorem same_unary {f : ∀ {R : Type}, Expr R → Expr R} {x y : Expr Bytes}
    (hf : ∀ {R : Type} (name : R → Bytes) (a : Expr R) (e : Expr Bytes), Agrees name a (f e) ↔ ∃ b, a = f b ∧ Agrees name b e)
    (h : SameExpr x y) : SameExpr (f x) (f y) := by
  intro R name a ha
  obtain ⟨b, rfl, hb⟩ := (hf name a x).mp ha
  exact (hf name _ y).mpr ⟨b, rfl, h name b hb⟩

theorem same_sub {x y : Expr Bytes} (h : SameExpr x y) : SameExpr (.subexpression x) (.subexpression y) :=
  same_unary (f := .subexpression) (fun name a e => by cases a <;> simp [Agrees]) h
theorem same_hook {x y : Expr Bytes} (s : String) (h : SameExpr x y) : SameExpr (.hooked s x) (.hooked s y) :=
  same_unary (f := .hooked s) (fun name a e => by cases a <;> simp [Agrees]) h
theorem same_pre {x y : Expr Bytes} (o : PreOp) (h : SameExpr x y) : SameExpr (o.mk x) (o.mk y) := by
  cases o with
  | and => exact same_unary (f := .andPredicate) (fun name a e => by cases a <;> simp [Agrees]) h
  | not => exact same_unary (f := .notPredicate) (fun name a e => by cases a <;> simp [Agrees]) h
theorem same_post {x y : Expr Bytes} (o : PostOp) (h : SameExpr x y) : SameExpr (o.mk x) (o.mk y) := by
  cases o with
  | plus => exact same_unary (f := .oneOrMore) (fun name a e => by cases a <;> simp [Agrees]) h
  | star => exact same_unary (f := .zeroOrMore) (fun name a e => by cases a <;> simp [Agrees]) h
  | opt => exact same_unary (f := .optional) (fun name a e => by cases a <;> simp [Agrees]) h
theorem same_chain {x y x' y' : Expr Bytes} (o : ChainOp) (h : SameExpr x y) (h' : SameExpr x' y') : SameExpr (o.mk x x') (o.mk y y') := by
  intro R name a ha
  cases o <;> cases a <;> first | exact ha.elim | exact ⟨h _ _ ha.1, h' _ _ ha.2⟩

section
variable {g : DGrammar} {c c' : Refs}

mutual
theorem rhs_sameRefs (h : RefsFor g c) (h' : RefsFor g c') (lv : Leaves) : ∀ r : DRhs, SameOpt (r.meaning lv c) (r.meaning lv c')
  | .atom _ a => atom_sameRefs h h' lv a
  | .chain o _ a as => by
    have i1 := atom_sameRefs h h' lv a
    show SameOpt ((a.meaning lv c).bind fun x => as.meaning lv c o x) ((a.meaning lv c').bind fun x => as.meaning lv c' o x)
    cases h1 : a.meaning lv c <;> cases h2 : a.meaning lv c' <;> rw [h1, h2] at i1
    · trivial
    · exact i1.elim
    · exact i1.elim
    · exact atoms_sameRefs h h' lv o as _ _ i1
theorem atoms_sameRefs (h : RefsFor g c) (h' : RefsFor g c') (lv : Leaves) (o : ChainOp) : ∀ (r : DAtoms) (x x' : Expr Bytes),
    SameExpr x x' → SameOpt (r.meaning lv c o x) (r.meaning lv c' o x')
  | .one _ a, x, x', hx => by
    have i1 := atom_sameRefs h h' lv a
    show SameOpt ((a.meaning lv c).bind fun y => some (o.mk x y)) ((a.meaning lv c').bind fun y => some (o.mk x' y))
    cases h1 : a.meaning lv c <;> cases h2 : a.meaning lv c' <;> rw [h1, h2] at i1
    · trivial
    · exact i1.elim
    · exact i1.elim
    · exact same_chain o hx i1
  | .cons _ a as, x, x', hx => by
    have i1 := atom_sameRefs h h' lv a
    show SameOpt ((a.meaning lv c).bind fun y => as.meaning lv c o (o.mk x y)) ((a.meaning lv c').bind fun y => as.meaning lv c' o (o.mk x' y))
    cases h1 : a.meaning lv c <;> cases h2 : a.meaning lv c' <;> rw [h1, h2] at i1
    · trivial
    · exact i1.elim
    · exact i1.elim
    · exact atoms_sameRefs h h' lv o as _ _ (same_chain o hx i1)
theorem atom_sameRefs (h : RefsFor g c) (h' : RefsFor g c') (lv : Leaves) : ∀ r : DAtom, SameOpt (r.meaning lv c) (r.meaning lv c')
  | .plain n => nuc_sameRefs h h' lv n
  | .pre o n => by
    have i1 := nuc_sameRefs h h' lv n
    show SameOpt ((n.meaning lv c).bind fun x => some (o.mk x)) ((n.meaning lv c').bind fun x => some (o.mk x))
    cases h1 : n.meaning lv c <;> cases h2 : n.meaning lv c' <;> rw [h1, h2] at i1
    · trivial
    · exact i1.elim
    · exact i1.elim
    · exact same_pre o i1
  | .post o n _ => by
    have i1 := nuc_sameRefs h h' lv n
    show SameOpt ((n.meaning lv c).bind fun x => some (o.mk x)) ((n.meaning lv c').bind fun x => some (o.mk x))
    cases h1 : n.meaning lv c <;> cases h2 : n.meaning lv c' <;> rw [h1, h2] at i1
    · trivial
    · exact i1.elim
    · exact i1.elim
    · exact same_post o i1
theorem nuc_sameRefs (h : RefsFor g c) (h' : RefsFor g c') (lv : Leaves) : ∀ r : DNuc, SameOpt (r.meaning lv c) (r.meaning lv c')
  | .mk k _ => core_sameRefs h h' lv k
theorem core_sameRefs (h : RefsFor g c) (h' : RefsFor g c') (lv : Leaves) : ∀ r : DCore, SameOpt (r.meaning lv c) (r.meaning lv c')
  | .range _ _ _ _ _ => SameOpt.rfl'
  | .hook name r => by
    have i1 := rhs_sameRefs h h' lv r
    show SameOpt ((r.meaning lv c).bind fun x => some (.hooked (asStr name) (.subexpression x)))
      ((r.meaning lv c').bind fun x => some (.hooked (asStr name) (.subexpression x)))
    cases h1 : r.meaning lv c <;> cases h2 : r.meaning lv c' <;> rw [h1, h2] at i1
    · trivial
    · exact i1.elim
    · exact i1.elim
    · exact same_hook _ (same_sub i1)
  | .sub r => by
    have i1 := rhs_sameRefs h h' lv r
    show SameOpt ((r.meaning lv c).bind fun x => some (.subexpression x)) ((r.meaning lv c').bind fun x => some (.subexpression x))
    cases h1 : r.meaning lv c <;> cases h2 : r.meaning lv c' <;> rw [h1, h2] at i1
    · trivial
    · exact i1.elim
    · exact i1.elim
    · exact same_sub i1
  | .term _ => SameOpt.rfl'
  | .str _ => SameOpt.rfl'
  | .ref name => refs_expr_same h h' name
end
end

/-! ## The checks -/

/-- `Agrees`, computed. -/
def agreesB {R : Type} (name : R → Bytes) : Expr R → Expr Bytes → Bool
  | .andPredicate a, .andPredicate e => agreesB name a e
  | .notPredicate a, .notPredicate e => agreesB name a e
  | .oneOrMore a, .oneOrMore e => agreesB name a e
  | .zeroOrMore a, .zeroOrMore e => agreesB name a e
  | .optional a, .optional e => agreesB name a e
  | .subexpression a, .subexpression e => agreesB name a e
  | .hooked h a, .hooked h' e => decide (h = h') && agreesB name a e
  | .orderedChoice a b, .orderedChoice e f => agreesB name a e && agreesB name b f
  | .sequence a b, .sequence e f => agreesB name a e && agreesB name b f
  | .terminal c, .terminal c' => decide (c = c')
  | .stringTerminal d, .stringTerminal d' => decide (d = d')
  | .matchRange lo hi, .matchRange lo' hi' => decide (lo = lo') && decide (hi = hi')
  | .varName r, .varName f => decide (name r = f)
  | .inlined r, .inlined f => decide (name r = f)
  | .varNameLR inv r, .varNameLR inv' f =>
    decide (name r = f) && (inv'.all fun x => (inv.map name).contains x) && inv.all fun s => inv'.contains (name s)
  | _, _ => false

theorem agreesB_ok {R : Type} {name : R → Bytes} {a : Expr R} {e : Expr Bytes} (h : agreesB name a e = true) : Agrees name a e := by
  fun_induction agreesB name a e <;> simp_all [Agrees]
  rename_i inv r inv' f
  intro x
  constructor
  · intro hx
    obtain ⟨s, h1, h2⟩ := h.1.2 x hx
    exact ⟨s, h1, h2⟩
  · rintro ⟨s, hs, rfl⟩
    exact h.2 s hs

/-- Everything the theorems need to know about a grammar file `pieces` (one string per rule), its grammar `g` and the rules `rules`
with their bodies: checked by computation. -/
structure FileOk {R : Type} (g : DGrammar) (pieces : List String) (n : Nat) (sortedNames : List Bytes) (enum : List String) (rules : List R) (body : R → Expr R) (name : R → Bytes) : Prop where
  text : g.map DRule.text = pieces.map utf8Of
  wf : g.WF
  faithful : ∀ r ∈ g, r.rhs.Faithful
  closed : g.Closed
  calm : ∀ r ∈ g, ∀ k ∈ r.comments, k.calm = true
  left : g.all (fun r => r.rhs.lefts.all fun y => (g.lookup y).isSome) = true
  reach : g.reachOk n = true
  small : ((g.map DRule.text).map List.length).sum < 82000000
  sorted : StrictSorted sortedNames
  declared : (∀ x ∈ sortedNames, ∃ r ∈ g, r.name = x) ∧ ∀ r ∈ g, r.name ∈ sortedNames
  variants : (sortedNames.filter fun x => !(g.refsOf n).inline x).map cap = enum.map utf8Of
  names : g.map (fun r => lower r.name) = rules.map name
  mem : ∀ r, r ∈ rules
  bodies : ((g.zip rules).all fun x => match x.1.rhs.meaning written (g.refsOf n) with
    | some e => agreesB name (body x.2) e
    | none => false) = true

theorem text_flatten (g : DGrammar) : g.text = (g.map DRule.text).flatten := by
  induction g with
  | nil => rfl
  | cons r g ih => simp [DGrammar.text, ih]

theorem FileOk.file {R : Type} {g pieces n sortedNames enum} {rules : List R} {body name} (h : FileOk g pieces n sortedNames enum rules body name) : g.text = fileOf pieces := by
  rw [text_flatten, h.text]; rfl

theorem FileOk.length {R : Type} {g pieces n sortedNames enum} {rules : List R} {body name} (h : FileOk g pieces n sortedNames enum rules body name) :
    g.text.length < 82000000 := by
  rw [text_flatten]
  simpa [List.length_flatten] using h.small

theorem FileOk.not_dangling {R : Type} {g pieces n sortedNames enum} {rules : List R} {body name} (h : FileOk g pieces n sortedNames enum rules body name) : ¬ g.Dangling :=
  not_dangling_of h.left

theorem sorted_ext {l l' : List Bytes} (h : StrictSorted l) (h' : StrictSorted l') (hm : ∀ x, x ∈ l ↔ x ∈ l') : l = l' :=
  (perm_of_nodup h.nodup h'.nodup hm).eq_of_pairwise (fun a b _ _ h1 h2 => bytesLe_antisymm a b h1.1 h2.1) h h'

theorem FileOk.enum_eq {R : Type} {g pieces n sortedNames enum} {rules : List R} {body name} (h : FileOk g pieces n sortedNames enum rules body name) :
    variantsOf g.symbols = enum.map utf8Of := by
  rw [← h.variants]
  have h1 : g.symbols.names = sortedNames := sorted_ext (symbols_names_sorted g) h.sorted fun x => by
    rw [symbols_mem]
    exact ⟨fun ⟨r, hr, e⟩ => e ▸ h.declared.2 r hr, h.declared.1 x⟩
  unfold variantsOf
  rw [h1]
  congr 2
  funext x
  have h2 := symbols_inline g (nm := x)
  have h3 := (refsOf_ok h.reach).inline x
  unfold DGrammar.Inlined at h3
  rw [← h3] at h2
  cases h4 : g.symbols.isInline x <;> cases h5 : (g.refsOf n).inline x <;> simp_all

theorem FileOk.links {R : Type} {g pieces n sortedNames enum} {rules : List R} {body name}
    (h : FileOk g pieces n sortedNames enum rules body name) : Regenerates (fileOf pieces) rules body name (enum.map utf8Of) := by
  have hd := h.not_dangling
  rw [← h.file]
  obtain ⟨c, N, h1, refs, h2, h3, h4⟩ := round_trip h.wf h.length hd h.faithful (fun r hr k hk => DComment.calm_ok (h.calm r hr k hk)) .id
  have hnames : c.rules.map (fun k => k.name) = rules.map name := by
    rw [← h.names]
    refine List.ext_getElem (by simp [h3]) fun i hi hi' => ?_
    have hi : i < c.rules.length := by simpa using hi
    obtain ⟨k', _, h5, h6, _⟩ := h4 i _ (List.getElem?_eq_getElem (by omega))
    rw [List.getElem?_eq_getElem hi] at h5
    cases h5
    simpa using h6
  have hout := gen_code h.wf h.length (h1 N (Nat.le_refl _))
  refine ⟨c, fun ord => ?_, ⟨?_, ?_, ?_, ?_⟩, hnames, (output_ok hout).2.2.1.trans h.enum_eq⟩
  · obtain ⟨_, _, N, hN⟩ := gen_conv h.wf h.length ord
    exact ⟨N, fun m hm => (hN m hm).trans hout⟩
  · rw [hnames, ← h.names]
    exact List.pairwise_map.mpr h.closed.2
  · intro r s hrs
    exact List.inj_on_of_nodup_map (by rw [← h.names]; exact List.pairwise_map.mpr h.closed.2) (h.mem r) (h.mem s) hrs
  · intro k hk
    have : k.name ∈ rules.map name := by rw [← hnames]; exact List.mem_map_of_mem hk
    obtain ⟨r, _, hr⟩ := List.mem_map.mp this
    exact ⟨r, hr⟩
  · intro r
    obtain ⟨i, hi⟩ := List.getElem?_of_mem (h.mem r)
    have hlen : g.length = rules.length := by simpa using congrArg List.length h.names
    have hi' : i < g.length := by
      rw [hlen]; exact (List.getElem?_eq_some_iff.mp hi).1
    obtain ⟨d, hd'⟩ : ∃ d, g[i]? = some d := ⟨_, List.getElem?_eq_getElem hi'⟩
    obtain ⟨k, e, k1, k2, k3, k4⟩ := h4 i d hd'
    have hz : (d, r) ∈ g.zip rules := List.mem_of_getElem? (i := i) (by rw [List.getElem?_zip_eq_some]; exact ⟨hd', hi⟩)
    have hb := List.all_eq_true.mp h.bodies _ hz
    have hn : lower d.name = name r := by
      have := congrArg (fun l => l[i]?) h.names
      simpa [hd', hi] using this
    refine ⟨k, List.mem_of_getElem? k1, by rw [k2, hn], e, k4, ?_⟩
    have hsame := rhs_sameRefs (refsOf_ok h.reach) h2 written d.rhs
    rw [k3] at hsame
    dsimp only at hb
    split at hb
    · rename_i e' he'
      rw [he'] at hsame
      exact hsame name _ (agreesB_ok hb)
    · cases hb

end PP.Gen
