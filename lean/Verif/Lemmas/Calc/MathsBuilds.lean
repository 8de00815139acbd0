import Verif.Lemmas.Calc.MathsReads
import Verif.Lemmas.Read.Builds

/-! # Examples 3 and 4: the trees the rules build -/
namespace PP
open Calc

section
variable {R : Type} {body : R → Expr R} {role : R → Role R} {src : Source} {lo : Nat}

/-- The rule at the root. -/
def Tree.root : Tree R → R
  | .node r _ _ => r

theorem GGrown.node : ∀ {A d p q t}, GGrown body role src A d p q t → ∃ ks, t = .node A (some (p, q)) ks
  | _, _, _, _, _, .seed _ _ => ⟨_, rfl⟩
  | _, _, _, _, _, .grow _ _ _ => ⟨_, rfl⟩

/-- A reference to a head, when the tree is not there already. -/
theorem head_builds {X : Type} {A : R} {D : LRDecl R} (hA : role A = .head D) {y : X → List UInt8} {ty : Nat → X → Tree R}
    (hg : ∀ p q t, lo ≤ p → GGrown body role src A D p q t → ∃ u, TextAt src p (y u) ∧ q = p + (y u).length ∧ t.prune = [ty p u])
    {pre p q ts} (hp : lo ≤ p) (hpre : ∀ t ∈ pre, Tree.Failed t ∨ t.root ≠ A)
    (h : GT body role src pre (.varNameLR D.involved A) p true q ts) :
    ∃ u, TextAt src p (y u) ∧ q = p + (y u).length ∧ Tree.prune.pruneL ts = [ty p u] := by
  generalize hi : D.involved = inv at h
  cases h with
  | lr_ok hd hgr _ =>
    have := hd.symm.trans hA
    simp only [Role.head.injEq] at this
    subst this
    obtain ⟨u, h1, h2, h3⟩ := hg _ _ _ hp hgr
    exact ⟨u, h1, h2, by simp [Tree.prune.pruneL, h3]⟩
  | @lr_dup _ _ D' _ _ _ t hd hm h =>
    exfalso
    generalize D'.involved = inv at h
    have : ∃ ks, t = .node A (some (p, q)) ks := by
      generalize he : Expr.varNameLR inv A = e at h
      generalize hts : [t] = ts at h
      cases h with
      | lr_ok _ hgr _ =>
        cases he
        cases hts
        exact hgr.node
      | _ => first | cases he; done | (cases hts; done)
    obtain ⟨ks, rfl⟩ := this
    rcases hpre _ hm with h | h
    · simp [Tree.Failed, Tree.span] at h
    · exact h rfl

/-- A sum or product: the tree grown by left recursion. -/
structure ChainT {X Y : Type} (body : R → Expr R) (role : R → Role R) (H M N : R) (inv : List R) (c d : UInt8) (op : Expr R)
    (a : X → List UInt8) (tx : Nat → X → Tree R) (y : Y → List UInt8) (ty : Nat → Y → Tree R) (one : X → Y) (k1 k2 : Y → X → Y) : Prop where
  tone : ∀ x, y (one x) = a x
  tk1 : ∀ u x, y (k1 u x) = y u ++ c :: a x
  tk2 : ∀ u x, y (k2 u x) = y u ++ d :: a x
  fone : ∀ p x, ty p (one x) = .node H (spanOf p (a x)) [tx p x]
  fk1 : ∀ p u x, ty p (k1 u x) = .node H (spanOf p (y (k1 u x))) [.node M (spanOf p (y (k1 u x))) [ty p u, tx (p + (y u).length + 1) x]]
  fk2 : ∀ p u x, ty p (k2 u x) = .node H (spanOf p (y (k2 u x))) [.node N (spanOf p (y (k2 u x))) [ty p u, tx (p + (y u).length + 1) x]]
  ne : ∀ x, a x ≠ []
  bH : body H = .orderedChoice (.orderedChoice (.varNameLR inv M) (.varNameLR inv N)) op
  bM : body M = .sequence (.sequence (.varNameLR inv H) (.terminal c)) op
  bN : body N = .sequence (.sequence (.varNameLR inv H) (.terminal d)) op
  rH : ∃ D, role H = .head D
  rM : role M = .member H
  rN : role N = .member H

/-- The operand, after failed nodes or the tree so far. -/
def OpBuilds {X : Type} (body : R → Expr R) (role : R → Role R) (src : Source) (lo : Nat) (H : R) (op : Expr R) (a : X → List UInt8)
    (tx : Nat → X → Tree R) : Prop :=
  ∀ pre p q ts, lo ≤ p → (∀ t ∈ pre, Tree.Failed t ∨ t.root = H) → GT body role src pre op p true q ts →
    ∃ x, TextAt src p (a x) ∧ q = p + (a x).length ∧ Tree.prune.pruneL ts = [tx p x]

variable {X Y : Type} {H M N : R} {inv : List R} {c d : UInt8} {op : Expr R}
    {a : X → List UInt8} {tx : Nat → X → Tree R} {y : Y → List UInt8} {ty : Nat → Y → Tree R} {one : X → Y} {k1 k2 : Y → X → Y}

theorem hv_headN {p s t inv b q us} (hH : ∃ D, role H = .head D) (h : HV body role src H p s t [] (.varNameLR inv H) b q us) :
    b = true ∧ q = s ∧ us = [t] := by
  obtain ⟨D, hD⟩ := hH
  cases h with
  | head => exact ⟨rfl, rfl, rfl⟩
  | head_dup hm => cases hm
  | member hr _ => rw [hD] at hr; cases hr
  | member_dup hr _ _ => rw [hD] at hr; cases hr

theorem hv_memberN {p s t inv c q us} (hH : ∃ D, role H = .head D) (ht : t.root = H) (hop : OpBuilds body role src lo H op a tx) (hs : lo ≤ s)
    (h : HV body role src H p s t [] (.sequence (.sequence (.varNameLR inv H) (.terminal c)) op) true q us) :
    ByteAt src s c ∧ ∃ x, TextAt src (s + 1) (a x) ∧ q = s + 1 + (a x).length ∧ Tree.prune.pruneL us = t.prune ++ [tx (s + 1) x] := by
  cases h with
  | seq_ok h1 h2 =>
    cases h1 with
    | seq_ok h0 h1 =>
      obtain ⟨_, rfl, rfl⟩ := hv_headN hH h0
      obtain ⟨_, _, rfl, h3⟩ := builds_byte (lo := 0) _ _ _ _ (Nat.zero_le _) h1
      cases h1 with
      | terminal h1 =>
        cases h1 with
        | terminal_ok g1 g2 =>
          obtain ⟨x, k1, rfl, k2⟩ := hop _ _ _ _ (by simp; omega) (by simp; exact Or.inr ht) h2
          exact ⟨⟨g1, g2⟩, x, k1, rfl, by simp [Tree.prune.pruneL, k2]⟩

theorem chain_grown (hc : ChainT body role H M N inv c d op a tx y ty one k1 k2) (hop : OpBuilds body role src lo H op a tx) :
    ∀ {A D p q t}, GGrown body role src A D p q t → A = H → role A = .head D → D.first = op → lo ≤ p →
      ∃ u, TextAt src p (y u) ∧ q = p + (y u).length ∧ y u ≠ [] ∧ t.prune = [ty p u]
  | A, D, p, q, _, .seed (ts := ts) hf h, hA, hr, hD, hp => by
    subst hA hD
    obtain ⟨x, h1, rfl, h2⟩ := hop _ _ _ _ hp (fun t ht => Or.inl (hf t ht)) h
    refine ⟨one x, by rwa [hc.tone], by rw [hc.tone], by rw [hc.tone]; exact hc.ne x, ?_⟩
    have := hc.ne x
    simp [Tree.prune, pruneL_append, pruneL_failed hf, h2, hc.fone, spanOf, this]
  | A, D, p, _, _, .grow (q := q) (t := t) (us := us) hg hb h, hA, hr, hD, hp => by
    obtain ⟨u, h1, rfl, h2, ht⟩ := chain_grown hc hop hg hA hr hD hp
    obtain ⟨ks, hks⟩ := hg.node
    have hroot : t.root = A := by rw [hks]; rfl
    subst hA
    rw [hc.bH] at hb
    simp only [Expr.orderedChoice.injEq] at hb
    obtain ⟨rfl, _⟩ := hb
    have pos := List.length_pos_iff.mpr h2
    cases h with
    | choice_left h =>
      cases h with
      | head =>
        exfalso
        obtain ⟨D', hD'⟩ := hc.rH
        have := hc.rM
        rw [hD'] at this
        cases this
      | head_dup hm => cases hm
      | member_dup _ _ hm => cases hm
      | member _ h =>
        rw [hc.bM] at h
        obtain ⟨g1, x, g2, rfl, g3⟩ := hv_memberN hc.rH hroot hop (by omega) h
        refine ⟨k1 u x, by rw [hc.tk1]; exact textAt_append.mpr ⟨h1, g1, g2⟩, by simp [hc.tk1]; omega, by simp [hc.tk1], ?_⟩
        have e1 : p ≠ p + (y u).length + 1 + (a x).length := by omega
        simp [Tree.mk, Tree.prune, Tree.prune.pruneL, g3, ht, e1, hc.fk1, spanOf, hc.tk1]
        omega
    | @choice_right _ _ _ _ _ _ _ _ _ ts0 _ h h' =>
      have hfail : ∀ f ∈ ts0, Tree.Failed f := by
        cases h with
        | member_dup _ _ hm => cases hm
        | member _ h => simp [Tree.Failed, Tree.mk, Tree.span]
      cases h' with
      | head =>
        exfalso
        obtain ⟨D', hD'⟩ := hc.rH
        have := hc.rN
        rw [hD'] at this
        cases this
      | head_dup hm =>
        exfalso
        obtain ⟨D', hD'⟩ := hc.rH
        have := hc.rN
        rw [hD'] at this
        cases this
      | member_dup _ _ hm =>
        have := hfail _ (by simpa using hm)
        simp [Tree.Failed, Tree.mk, Tree.span] at this
      | member _ h' =>
        rw [hc.bN] at h'
        obtain ⟨g1, x, g2, rfl, g3⟩ := hv_memberN hc.rH hroot hop (by omega) h'
        refine ⟨k2 u x, by rw [hc.tk2]; exact textAt_append.mpr ⟨h1, g1, g2⟩, by simp [hc.tk2]; omega, by simp [hc.tk2], ?_⟩
        have e1 : p ≠ p + (y u).length + 1 + (a x).length := by omega
        simp [Tree.mk, Tree.prune, pruneL_append, pruneL_failed hfail, Tree.prune.pruneL, g3, ht, e1, hc.fk2, spanOf, hc.tk2]
        omega

end

section
variable {R : Type} {body : R → Expr R} {role : R → Role R} {C : MathRules R} {w : Bool} {dig nz opnd : R} {E T : List R}
  {src : Source} {lo : Nat}
variable (G : MathsG body role C w dig nz opnd E T)
include G

theorem bare_dig : Bare body role src (.inlined dig) := by
  refine bare_inl ?_
  rw [G.bDig]
  exact bare_range

theorem bare_nz : Bare body role src (.inlined nz) := by
  refine bare_inl ?_
  rw [G.bNz]
  exact bare_range

theorem builds_dig : Builds body role src lo (.inlined dig) digTxt (fun _ _ => []) := by
  refine builds_inl ?_
  rw [G.bDig]
  exact builds_range digit_iff

theorem builds_nz : Builds body role src lo (.inlined nz) nzTxt (fun _ _ => []) := by
  refine builds_inl ?_
  rw [G.bNz]
  exact builds_range nz_iff

theorem builds_digs : Builds body role src lo (.oneOrMore (.inlined dig)) digsTxt (fun _ _ => []) :=
  builds_map (builds_plus (builds_dig G) (bare_dig G).clean) id digs_eq fun _ _ => rfl

theorem builds_sign : Builds body role src lo (.varName C.sign) Sign.text (fun p s => s.trees C p) := by
  refine builds_map (builds_ref (f := fun _ _ => []) (a := Sign.text) ?_) id (fun _ => rfl) ?_
  · rw [G.bSign]
    refine builds_map (builds_opt (builds_sub (builds_choice builds_byte bare_byte.clean builds_byte))
      (bare_sub (bare_choice bare_byte bare_byte)).clean) signOf signOf_text ?_
    rintro p (_ | ⟨⟩ | ⟨⟩) <;> rfl
  · rintro p (_ | _ | _) <;> simp [refForest, Sign.text, Sign.trees, spanOf]

theorem builds_integer : Builds body role src lo (.varName C.integer) (pairTxt Sign.text intTxt)
    (fun p x => [.node C.integer (spanOf p (pairTxt Sign.text intTxt x)) (x.1.trees C p)]) := by
  refine builds_map (builds_ref (f := fun p x => x.1.trees C p) (a := pairTxt Sign.text intTxt) ?_) id (fun _ => rfl) ?_
  · rw [G.bInteger]
    refine builds_map (builds_seq (b := intTxt) (g := fun _ _ => []) (builds_sign G) (builds_sub ?_)) id (fun _ => rfl) ?_
    · refine builds_map (builds_choice (builds_sub (builds_seq (builds_nz G) (builds_digs G)))
        (bare_sub (bare_seq (bare_nz G) (bare_plus (bare_dig G)))).clean (builds_dig G)) intOf intOf_text ?_
      rintro p (⟨f, s, r⟩ | d) <;> rfl
    · rintro p ⟨s, i⟩
      simp [pairForest]
  · rintro p x
    have := nonNil_pair' (a := Sign.text) nonNil_int x
    simp [refForest, spanOf, this]

theorem builds_fraction : Builds body role src lo (.varName C.fraction) Fraction.text
    (fun p x => [.node C.fraction (spanOf p x.text) []]) := by
  refine builds_map (builds_ref (f := fun _ _ => []) (a := Fraction.text) ?_) id (fun _ => rfl) ?_
  · rw [G.bFraction]
    exact builds_map (builds_sub (builds_seq builds_byte (builds_digs G))) fracOf fracOf_text fun _ _ => rfl
  · rintro p x
    have := nonNil_frac x
    simp [refForest, spanOf, this]

theorem builds_exponent : Builds body role src lo (.varName C.exponent) Exponent.text
    (fun p x => [.node C.exponent (spanOf p x.text) (x.sign.trees C (p + 1))]) := by
  refine builds_map (builds_ref (f := fun p x => x.sign.trees C (p + 1)) (a := Exponent.text) ?_) id (fun _ => rfl) ?_
  · rw [G.bExponent]
    refine builds_map (builds_sub (builds_seq (builds_seq (a := letterTxt) (f := fun _ _ => []) (builds_sub ?_) (builds_sign G))
      (builds_digs G))) expOf expOf_text ?_
    · refine builds_map (builds_choice builds_byte bare_byte.clean builds_byte) id (fun _ => rfl) ?_
      rintro p (⟨⟩ | ⟨⟩) <;> rfl
    · rintro p ⟨⟨⟨⟩ | ⟨⟩, s⟩, f, r⟩ <;> simp [pairForest, expOf, letterTxt, sumTxt]
  · rintro p x
    have := nonNil_exp x
    simp [refForest, spanOf, this]

omit G in
theorem number_tree (p : Nat) (x : ((Sign × IntPart) × Option Fraction) × Option Exponent) :
    [(numOf x).tree C p] = refForest C.number numTxt (pairForest (pairTxt (pairTxt Sign.text intTxt) (optTxt Fraction.text))
      (pairForest (pairTxt Sign.text intTxt) (fun p x => [.node C.integer (spanOf p (pairTxt Sign.text intTxt x)) (x.1.trees C p)])
        (optForest fun p x => [.node C.fraction (spanOf p x.text) []]))
      (optForest fun p x => [.node C.exponent (spanOf p x.text) (x.sign.trees C (p + 1))])) p x := by
  have hn := nonNil_num (numOf x)
  have ht := numOf_text x
  rw [ht] at hn
  obtain ⟨⟨⟨s, i⟩, f⟩, e⟩ := x
  simp only [refForest, hn, if_false, Number.tree, ht]
  congr 2
  cases f <;> cases e <;>
    simp [pairForest, optForest, numOf, Number.intText, Number.fracText, pairTxt, intTxt, optTxt, Nat.add_assoc]

theorem builds_number : Builds body role src lo (.varName C.number) Number.text (fun p n => [n.tree C p]) := by
  refine builds_map (builds_ref (a := numTxt) ?_) numOf numOf_text number_tree
  rw [G.bNumber]
  exact builds_seq (builds_seq (builds_integer G) (builds_opt (builds_fraction G) clean_ref)) (builds_opt (builds_exponent G) clean_ref)

/-- A reference to `expr` with no tree before it. -/
def ExprBuilds (body : R → Expr R) (role : R → Role R) (src : Source) (C : MathRules R) (w : Bool) (E : List R) (lo : Nat) : Prop :=
  ∀ p q ts, lo ≤ p → GT body role src [] (.varNameLR E C.expr) p true q ts →
    ∃ e : MExpr w, TextAt src p e.text ∧ q = p + e.text.length ∧ Tree.prune.pruneL ts = [e.tree C p]

theorem builds_paren (ih : lo < src.len → ExprBuilds body role src C w E (lo + 1)) :
    Builds body role src lo (.varName C.parentheses) (parenTxt (w := w))
      (fun p e => [.node C.parentheses (spanOf p (MFactor.paren e).text) [e.tree C (p + 1)]]) := by
  refine builds_map (builds_ref0 (a := parenTxt (w := w)) (f := fun p e => [e.tree C (p + 1)]) ?_) id (fun _ => rfl) ?_
  · rw [G.bPar]
    intro p q ts hp h
    cases h with
    | seq_ok h1 h2 =>
      cases h1 with
      | seq_ok h0 h1 =>
        obtain ⟨_, k1, rfl, _⟩ := builds_byte (lo := 0) _ _ _ _ (Nat.zero_le _) h0
        obtain ⟨_, k2, rfl, _⟩ := builds_byte (lo := 0) _ _ _ _ (Nat.zero_le _) h2
        cases h0 with
        | terminal _ =>
          cases h2 with
          | terminal _ =>
            have := k1.1.1
            obtain ⟨e, g1, rfl, g2⟩ := ih (by omega) _ _ _ (by simp; omega) h1
            refine ⟨e, ⟨k1.1, textAt_append.mpr ⟨g1, k2⟩⟩, by simp [parenTxt]; omega, by simpa using g2⟩
  · intro p e
    simp [refForest, spanOf, MFactor.text, parenTxt]

theorem builds_factor (ih : lo < src.len → ExprBuilds body role src C w E (lo + 1)) :
    Builds body role src lo (.varName C.factor) (MFactor.text (w := w)) (fun p f => [f.tree C p]) := by
  refine builds_map (builds_ref (a := MFactor.text (w := w)) (f := fun p f => match f with
    | .num n => [n.tree C p]
    | .paren e => [.node C.parentheses (spanOf p (MFactor.paren e).text) [e.tree C (p + 1)]]) ?_) id (fun _ => rfl) ?_
  · rw [G.bFactor]
    refine builds_map (builds_choice (builds_paren G ih) clean_ref (builds_number G)) facOf facOf_text ?_
    rintro p (e | n) <;> rfl
  · intro p f
    have := nonNil_fac f
    unfold refForest
    rw [if_neg this]
    cases f <;> rfl

/-- The operand rule below terms. -/
def OpndBuilds (body : R → Expr R) (role : R → Role R) (src : Source) (C : MathRules R) (w : Bool) (opnd : R) (lo : Nat) : Prop :=
  Builds body role src lo (.varName opnd) (MPower.text (w := w)) (fun p o => [o.tree C p])

theorem builds_opnd (ih : lo < src.len → ExprBuilds body role src C w E (lo + 1))
    (ihp : lo < src.len → OpndBuilds body role src C w opnd (lo + 1)) : OpndBuilds body role src C w opnd lo := by
  have hf := builds_factor G ih
  rcases G.operand with ⟨hw, rfl⟩ | ⟨hw, rfl, hp, h1, h2⟩
  · refine builds_map hf facPow (fun _ => rfl) ?_
    intro p f
    simp [facPow, MPower.tree, hw]
  · have hpow : Builds body role src lo (.varName C.power) (pairTxt (pairTxt (MFactor.text (w := w)) (fun _ : Unit => [94])) MPower.text)
        (fun p x => [.node C.power (spanOf p (MPower.pow hw x.1.1 x.2).text)
          [x.1.1.tree C p, x.2.tree C (p + x.1.1.text.length + 1)]]) := by
      have h0 : Builds body role src lo (body C.power) (pairTxt (pairTxt (MFactor.text (w := w)) (fun _ : Unit => [94])) (MPower.text (w := w)))
          (pairForest (pairTxt MFactor.text (fun _ : Unit => [94])) (pairForest MFactor.text (fun p f => [f.tree C p]) (fun _ _ => []))
            (fun p o => [o.tree C p])) := by
        rw [h2]
        refine builds_seq' (builds_seq hf builds_byte) fun x p hp hx => ?_
        obtain ⟨f, ⟨⟩⟩ := x
        obtain ⟨k1, _⟩ := textAt_append.mp hx
        have := fac_lt hp k1
        exact Builds.mono (ihp this.1) (by simp [pairTxt]; omega)
      refine builds_map (builds_ref h0) id (fun _ => rfl) ?_
      rintro p ⟨⟨f, ⟨⟩⟩, o⟩
      have := nonNil_fac f
      simp [refForest, pairTxt, spanOf, pairForest, MPower.text, Nat.add_assoc]
    refine builds_map (builds_ref (a := MPower.text (w := w)) (f := fun p o => match o with
      | .fac f => [f.tree C p]
      | .pow h f o => [.node C.power (spanOf p (MPower.pow h f o).text) [f.tree C p, o.tree C (p + f.text.length + 1)]]) ?_) id (fun _ => rfl) ?_
    · rw [h1]
      refine builds_map (builds_choice hpow clean_ref hf) (powSum hw) (powSum_text hw) ?_
      rintro p (⟨⟨f, ⟨⟩⟩, o⟩ | f) <;> rfl
    · intro p o
      have := nonNil_pow o
      cases o <;> simp [refForest, this, spanOf, MPower.tree, hw]

theorem chain_term : ChainT body role C.term C.multiplication C.division T 42 47 (.varName opnd) (MPower.text (w := w))
    (fun p o => o.tree C p) MTerm.text (fun p t => t.tree C p) MTerm.one MTerm.mul MTerm.div where
  tone _ := rfl
  tk1 _ _ := rfl
  tk2 _ _ := rfl
  fone _ _ := rfl
  fk1 _ _ _ := rfl
  fk2 _ _ _ := rfl
  ne := nonNil_pow
  bH := G.bTerm
  bM := G.bMul
  bN := G.bDiv
  rH := ⟨_, G.rTerm⟩
  rM := G.rMul
  rN := G.rDiv

theorem chain_expr : ChainT body role C.expr C.addition C.subtraction E 43 45 (.varNameLR T C.term) (MTerm.text (w := w))
    (fun p o => o.tree C p) MExpr.text (fun p t => t.tree C p) MExpr.term MExpr.add MExpr.sub where
  tone _ := rfl
  tk1 _ _ := rfl
  tk2 _ _ := rfl
  fone _ _ := rfl
  fk1 _ _ _ := rfl
  fk2 _ _ _ := rfl
  ne := nonNil_term
  bH := G.bExpr
  bM := G.bAdd
  bN := G.bSub
  rH := ⟨_, G.rExpr⟩
  rM := G.rAdd
  rN := G.rSub

theorem builds_term (h : OpndBuilds body role src C w opnd lo) :
    OpBuilds body role src lo C.expr (.varNameLR T C.term) (MTerm.text (w := w)) (fun p t => t.tree C p) := by
  intro pre p q ts hp hpre hg
  refine head_builds G.rTerm (fun p q t hp hg => ?_) hp (fun t ht => ?_) hg
  · obtain ⟨u, h1, h2, _, h3⟩ := chain_grown (chain_term G) (fun _ _ _ _ hp _ hg => h _ _ _ _ hp hg) hg rfl G.rTerm rfl hp
    exact ⟨u, h1, h2, h3⟩
  · rcases hpre t ht with h | h
    · exact Or.inl h
    · right
      rw [h]
      intro he
      have h1 := G.rExpr
      have h2 := G.bExpr
      rw [he, G.bTerm] at h2
      simp at h2

theorem builds_expr_of (h : OpndBuilds body role src C w opnd lo) : ExprBuilds body role src C w E lo := by
  intro p q ts hp hg
  refine head_builds G.rExpr (fun p q t hp hg => ?_) hp (fun t ht => by cases ht) hg
  obtain ⟨u, h1, h2, _, h3⟩ := chain_grown (chain_expr G) (builds_term G h) hg rfl G.rExpr rfl hp
  exact ⟨u, h1, h2, h3⟩

theorem builds_all : ∀ k lo, src.len ≤ lo + k → ExprBuilds body role src C w E lo ∧ OpndBuilds body role src C w opnd lo
  | 0, lo, h => by
    have hp := builds_opnd (src := src) (lo := lo) G (fun h' => by omega) (fun h' => by omega)
    exact ⟨builds_expr_of G hp, hp⟩
  | k + 1, lo, h => by
    have ih := builds_all k (lo + 1) (by omega)
    have hp := builds_opnd (src := src) (lo := lo) G (fun _ => ih.1) (fun _ => ih.2)
    exact ⟨builds_expr_of G hp, hp⟩

/-- The rule `expr` builds the tree of the expression it reads. -/
theorem builds_expr : ExprBuilds body role src C w E lo := (builds_all G src.len lo (by omega)).1

end
end PP
