import Verif.Lemmas.Calc.MathsText
import Verif.Spec.CalcTree
import Verif.Spec.Group

/-! # Examples 3 and 4: what the rules read -/
namespace PP
open Calc

/-- The grammar shared by examples 3 and 4: `opnd` is what a term consists of. -/
structure MathsG {R : Type} (body : R → Expr R) (role : R → Role R) (C : MathRules R) (w : Bool) (dig nz opnd : R)
    (E T : List R) : Prop where
  bNz : body nz = .matchRange 49 57
  bDig : body dig = .matchRange 48 57
  bInteger : body C.integer = .sequence (.varName C.sign) (.subexpression (.orderedChoice (.subexpression (.sequence (.inlined nz)
    (.oneOrMore (.inlined dig)))) (.inlined dig)))
  bNumber : body C.number = .sequence (.sequence (.varName C.integer) (.optional (.varName C.fraction))) (.optional (.varName C.exponent))
  bFraction : body C.fraction = .subexpression (.sequence (.terminal 46) (.oneOrMore (.inlined dig)))
  bExponent : body C.exponent = .subexpression (.sequence (.sequence (.subexpression (.orderedChoice (.terminal 69) (.terminal 101)))
    (.varName C.sign)) (.oneOrMore (.inlined dig)))
  bSign : body C.sign = .optional (.subexpression (.orderedChoice (.terminal 43) (.terminal 45)))
  bAdd : body C.addition = .sequence (.sequence (.varNameLR E C.expr) (.terminal 43)) (.varNameLR T C.term)
  bSub : body C.subtraction = .sequence (.sequence (.varNameLR E C.expr) (.terminal 45)) (.varNameLR T C.term)
  bMul : body C.multiplication = .sequence (.sequence (.varNameLR T C.term) (.terminal 42)) (.varName opnd)
  bDiv : body C.division = .sequence (.sequence (.varNameLR T C.term) (.terminal 47)) (.varName opnd)
  bPar : body C.parentheses = .sequence (.sequence (.terminal 40) (.varNameLR E C.expr)) (.terminal 41)
  bExpr : body C.expr = .orderedChoice (.orderedChoice (.varNameLR E C.addition) (.varNameLR E C.subtraction)) (.varNameLR T C.term)
  bTerm : body C.term = .orderedChoice (.orderedChoice (.varNameLR T C.multiplication) (.varNameLR T C.division)) (.varName opnd)
  bFactor : body C.factor = .orderedChoice (.varName C.parentheses) (.varName C.number)
  plain : ∀ r, r = nz ∨ r = dig ∨ r = C.integer ∨ r = C.number ∨ r = C.fraction ∨ r = C.exponent ∨ r = C.sign ∨
    r = C.parentheses ∨ r = C.factor ∨ r = opnd → role r = .plain
  rExpr : role C.expr = .head ⟨E, .varNameLR T C.term, .orderedChoice
    (.sequence (.sequence (.stringTerminal []) (.terminal 43)) (.varNameLR T C.term))
    (.sequence (.sequence (.stringTerminal []) (.terminal 45)) (.varNameLR T C.term))⟩
  rTerm : role C.term = .head ⟨T, .varName opnd, .orderedChoice
    (.sequence (.sequence (.stringTerminal []) (.terminal 42)) (.varName opnd))
    (.sequence (.sequence (.stringTerminal []) (.terminal 47)) (.varName opnd))⟩
  rAdd : role C.addition = .member C.expr
  rSub : role C.subtraction = .member C.expr
  rMul : role C.multiplication = .member C.term
  rDiv : role C.division = .member C.term
  neMul : C.multiplication ≠ C.division
  neAdd : C.addition ≠ C.subtraction
  operand : (w = false ∧ opnd = C.factor) ∨ (w = true ∧ opnd = C.powerExpr ∧ role C.power = .plain ∧
    body C.powerExpr = .orderedChoice (.varName C.power) (.varName C.factor) ∧
    body C.power = .sequence (.sequence (.varName C.factor) (.terminal 94)) (.varName C.powerExpr))

section
variable {R : Type} {body : R → Expr R} {role : R → Role R} {C : MathRules R} {w : Bool} {dig nz opnd : R} {E T : List R}
  {src : Source} {lo : Nat}

theorem gBody_plain {r : R} (h : role r = .plain) : groupBody body role r = (body r).deLR := by
  unfold groupBody; rw [h]

theorem gBody_head {r : R} {d : LRDecl R} (h : role r = .head d) :
    groupBody body role r = .sequence d.first.deLR (.zeroOrMore d.tail.deLR) := by
  unfold groupBody; rw [h]

theorem digit_iff (c : UInt8) : 48 ≤ c.toNat ∧ c.toNat ≤ 57 ↔ ∃ d : Fin 10, digitByte d = c := by
  constructor
  · rintro ⟨h1, h2⟩
    obtain ⟨d, rfl, _⟩ := digitByte_of h1 h2
    exact ⟨d, rfl⟩
  · rintro ⟨d, rfl⟩
    exact isD_digit d

theorem nz_iff (c : UInt8) : 49 ≤ c.toNat ∧ c.toNat ≤ 57 ↔ ∃ d : Fin 9, digitByte ⟨d.val + 1, by omega⟩ = c := by
  constructor
  · rintro ⟨h1, h2⟩
    obtain ⟨d, rfl, hd⟩ := digitByte_of (c := c) (by omega) h2
    refine ⟨⟨d.val - 1, by omega⟩, ?_⟩
    congr 1
    exact Fin.ext (by simp; omega)
  · rintro ⟨d, rfl⟩
    rw [digitByte_toNat]
    simp
    omega

/-- The alternatives of an integer's digits. -/
def intOf : Fin 9 × (Fin 10 × List (Fin 10)) ⊕ Fin 10 → IntPart
  | .inl (f, s, r) => .more f s r
  | .inr d => .one d

theorem intOf_surj : ∀ i, ∃ x, intOf x = i
  | .more f s r => ⟨.inl (f, s, r), rfl⟩
  | .one d => ⟨.inr d, rfl⟩

theorem intOf_text (x) : intTxt (intOf x) = sumTxt (pairTxt nzTxt digsTxt) digTxt x := by
  rcases x with ⟨f, s, r⟩ | d <;> rfl

def signOf : Option (Unit ⊕ Unit) → Sign
  | none => .absent
  | some (.inl _) => .plus
  | some (.inr _) => .minus

theorem signOf_surj : ∀ s, ∃ x, signOf x = s
  | .absent => ⟨none, rfl⟩
  | .plus => ⟨some (.inl ()), rfl⟩
  | .minus => ⟨some (.inr ()), rfl⟩

theorem signOf_text (x) : (signOf x).text = optTxt (sumTxt (fun _ : Unit => [43]) (fun _ : Unit => [45])) x := by
  rcases x with _ | ⟨⟩ | ⟨⟩ <;> rfl

def fracOf (x : Unit × (Fin 10 × List (Fin 10))) : Fraction := ⟨x.2.1, x.2.2⟩
theorem fracOf_surj (f : Fraction) : ∃ x, fracOf x = f := ⟨((), f.first, f.rest), rfl⟩
theorem fracOf_text (x) : (fracOf x).text = pairTxt (fun _ : Unit => [46]) digsTxt x := rfl

def letterTxt : Unit ⊕ Unit → List UInt8 := sumTxt (fun _ : Unit => [69]) (fun _ : Unit => [101])
def expOf (x : ((Unit ⊕ Unit) × Sign) × (Fin 10 × List (Fin 10))) : Exponent :=
  ⟨match x.1.1 with | .inl _ => true | .inr _ => false, x.1.2, x.2.1, x.2.2⟩
theorem expOf_surj : ∀ f : Exponent, ∃ x, expOf x = f
  | ⟨true, s, f, r⟩ => ⟨((.inl (), s), f, r), rfl⟩
  | ⟨false, s, f, r⟩ => ⟨((.inr (), s), f, r), rfl⟩
theorem expOf_text (x) : (expOf x).text = pairTxt (pairTxt letterTxt Sign.text) digsTxt x := by
  obtain ⟨⟨⟨⟩ | ⟨⟩, s⟩, f, r⟩ := x <;> simp [expOf, Exponent.text, pairTxt, letterTxt, sumTxt, digsTxt]

def numOf (x : ((Sign × IntPart) × Option Fraction) × Option Exponent) : Number := ⟨x.1.1.1, x.1.1.2, x.1.2, x.2⟩
theorem numOf_surj (n : Number) : ∃ x, numOf x = n := ⟨numParts n, rfl⟩
theorem numOf_text (x) : (numOf x).text = numTxt x := num_eq (numOf x)

theorem cmp_letter : CmpFrom src lo letterTxt (fun _ => False) := by
  intro p hp x y hx hy
  rcases x with ⟨⟩ | ⟨⟩ <;> rcases y with ⟨⟩ | ⟨⟩
  · exact Or.inl rfl
  · exact absurd (hx.1.unique hy.1) (by decide)
  · exact absurd (hx.1.unique hy.1) (by decide)
  · exact Or.inl rfl

theorem cmp_letters : CmpFrom src lo (pairTxt letterTxt Sign.text) IsSign :=
  (cmp_pair cmp_letter cmp_sign firsts_sign fun _ _ => id).mono (Nat.le_refl _) (by
    rintro c (h | h)
    · exact h.elim
    · exact h)

variable (G : MathsG body role C w dig nz opnd E T)
include G

local notation "g" => groupBody body role

theorem reads_dig : Reads g src lo (.inlined dig) digTxt := by
  refine reads_inl ?_
  rw [gBody_plain (G.plain _ (by simp)), G.bDig]
  exact reads_range digit_iff

theorem reads_nz : Reads g src lo (.inlined nz) nzTxt := by
  refine reads_inl ?_
  rw [gBody_plain (G.plain _ (by simp)), G.bNz]
  exact reads_range nz_iff

theorem reads_digs : Reads g src lo (.oneOrMore (.inlined dig)) digsTxt :=
  reads_map (reads_plus (reads_dig G) (cmp_dig (S := fun _ => False)) firsts_dig fun _ _ => id) id (fun y => ⟨y, rfl⟩) digs_eq

theorem reads_sign : Reads g src lo (.varName C.sign) Sign.text := by
  refine reads_ref ?_
  rw [gBody_plain (G.plain _ (by simp)), G.bSign]
  refine reads_map (reads_opt (reads_sub (reads_choice reads_byte reads_byte ?_))) signOf signOf_surj signOf_text
  intro p x y _ _ _
  simp

theorem reads_integer : Reads g src lo (.varName C.integer) (pairTxt Sign.text intTxt) := by
  refine reads_ref ?_
  rw [gBody_plain (G.plain _ (by simp)), G.bInteger]
  refine reads_seq (reads_sign G) (reads_sub ?_) cmp_sign firsts_int fun _ => isSign_not_isD
  refine reads_map (reads_choice (reads_sub (reads_seq (S := fun _ => False) (reads_nz G) (reads_digs G) ?_ firsts_digs fun _ _ => id))
    (reads_dig G) ?_) intOf intOf_surj intOf_text
  · exact cmp_byte fun x y h => by
      have := digitByte_inj h
      simp at this
      exact Fin.ext this
  · intro p x y _ _ _
    simp [digTxt, pairTxt, nzTxt]

theorem reads_fraction : Reads g src lo (.varName C.fraction) Fraction.text := by
  refine reads_ref ?_
  rw [gBody_plain (G.plain _ (by simp)), G.bFraction]
  exact reads_map (reads_sub (reads_seq (S := fun _ => False) reads_byte (reads_digs G) cmp_const firsts_digs fun _ _ => id))
    fracOf fracOf_surj fracOf_text

theorem reads_exponent : Reads g src lo (.varName C.exponent) Exponent.text := by
  refine reads_ref ?_
  rw [gBody_plain (G.plain _ (by simp)), G.bExponent]
  refine reads_map (reads_sub (reads_seq (reads_seq (a := letterTxt) (reads_sub (reads_choice reads_byte reads_byte ?_)) (reads_sign G) cmp_letter firsts_sign
    fun _ _ => id) (reads_digs G) cmp_letters firsts_digs fun _ => isSign_not_isD)) expOf expOf_surj expOf_text
  intro p x y _ _ _
  simp

theorem reads_number : Reads g src lo (.varName C.number) Number.text := by
  refine reads_ref ?_
  rw [gBody_plain (G.plain _ (by simp)), G.bNumber]
  refine reads_map (reads_seq (reads_seq (reads_integer G) (reads_opt (reads_fraction G)) cmp_integer (firsts_opt firsts_frac) ?_)
    (reads_opt (reads_exponent G)) cmp_intFrac (firsts_opt firsts_exp) exp_not_intFrac) numOf numOf_surj numOf_text
  rintro c rfl
  exact not_isD (by decide)

/-- Rules inside parentheses. -/
theorem reads_paren (ih : lo < src.len → Reads g src (lo + 1) (.varName C.expr) (MExpr.text (w := w))) :
    Reads g src lo (.varName C.parentheses) (parenTxt (w := w)) := by
  refine reads_ref ?_
  rw [gBody_plain (G.plain _ (by simp)), G.bPar]
  refine reads_map (reads_seq (reads_seq' (S := fun _ => False) (F := fun _ => True) reads_byte (fun x p hp hx => ?_) cmp_const
    (fun _ _ _ => trivial) fun _ _ => id) reads_byte (cmp_open fun _ => cmp_expr src w _) firsts_close close_not_sExpr)
    (fun x => x.1.2) (fun e => ⟨(((), e), ()), rfl⟩) paren_eq'
  exact (ih (open_lt (x := x) hp hx)).mono (by simp; omega)
where
  paren_eq' (x : (Unit × MExpr w) × Unit) :
      parenTxt x.1.2 = pairTxt (pairTxt (fun _ : Unit => [40]) MExpr.text) (fun _ : Unit => [41]) x := paren_eq x.1.2

theorem reads_factor (ih : lo < src.len → Reads g src (lo + 1) (.varName C.expr) (MExpr.text (w := w))) :
    Reads g src lo (.varName C.factor) (MFactor.text (w := w)) := by
  refine reads_ref ?_
  rw [gBody_plain (G.plain _ (by simp)), G.bFactor]
  exact reads_map (reads_choice (reads_paren G ih) (reads_number G) (le_of_disjoint paren_not_num)) facOf facOf_surj facOf_text

/-- A power with `^`, and without. -/
def powSum (hw : w = true) : (MFactor w × Unit) × MPower w ⊕ MFactor w → MPower w
  | .inl ((f, ()), o) => .pow hw f o
  | .inr f => .fac f

omit G in
theorem powSum_surj (hw : w = true) : ∀ o : MPower w, ∃ x, powSum hw x = o
  | .pow _ f o => ⟨.inl ((f, ()), o), rfl⟩
  | .fac f => ⟨.inr f, rfl⟩

omit G in
theorem powSum_text (hw : w = true) (x) :
    (powSum hw x).text = sumTxt (pairTxt (pairTxt MFactor.text (fun _ : Unit => [94])) MPower.text) MFactor.text x := by
  rcases x with ⟨⟨f, ⟨⟩⟩, o⟩ | f
  · simp [powSum, MPower.text, sumTxt, pairTxt]
  · rfl

omit G in
theorem firsts_hat1 : Firsts (fun _ : Unit => ([94] : List UInt8)) (· = 94) := by
  intro x c hc
  simpa using hc.symm

omit G in
theorem cmp_facHat : CmpFrom src lo (pairTxt (MFactor.text (w := w)) (fun _ : Unit => [94])) (fun _ => False) :=
  cmp_pair_nn (cmp_fac src w lo) (fun _ _ _ _ => cmp_const) firsts_hat1 (fun _ => by simp) hat_not_sNum

theorem reads_opnd (ih : lo < src.len → Reads g src (lo + 1) (.varName C.expr) (MExpr.text (w := w)))
    (ihp : lo < src.len → Reads g src (lo + 1) (.varName opnd) (MPower.text (w := w))) :
    Reads g src lo (.varName opnd) (MPower.text (w := w)) := by
  have hf := reads_factor G ih
  rcases G.operand with ⟨hw, rfl⟩ | ⟨hw, rfl, hp, h1, h2⟩
  · exact reads_map hf facPow (facPow_surj hw) fun _ => rfl
  · refine reads_ref ?_
    rw [gBody_plain (G.plain _ (by simp)), h1]
    refine reads_map (reads_choice (reads_ref ?_) hf ?_) (powSum hw) (powSum_surj hw) (powSum_text hw)
    · rw [gBody_plain hp, h2]
      refine reads_seq' (S := fun _ => False) (F := fun _ => True) (reads_seq hf reads_byte (cmp_fac src w lo) firsts_hat1 hat_not_sNum)
        (fun x p hp hx => ?_) cmp_facHat (fun _ _ _ => trivial) fun _ _ => id
      obtain ⟨f, ⟨⟩⟩ := x
      obtain ⟨k1, _⟩ := textAt_append.mp hx
      have := fac_lt hp k1
      exact (ihp this.1).mono (by simp [pairTxt]; omega)
    · rintro p ⟨⟨f, ⟨⟩⟩, o⟩ f' hp hx hy
      obtain ⟨k1, _⟩ := textAt_append.mp hx
      obtain ⟨k1, k2, _⟩ := textAt_append.mp k1
      simp only [pairTxt, List.length_append]
      rcases cmp_fac src w lo p hp f f' k1 hy with rfl | ⟨_, c, k3, k4⟩ | ⟨k, _⟩
      · omega
      · exact absurd k4 (hat_not_sNum c (k3.unique k2))
      · omega

omit G in
/-- `a (c a / d a)*`. -/
theorem reads_chain {X : Type} {e : Expr R} {a : X → List UInt8} {S : UInt8 → Prop} {c d : UInt8} {b : R → Expr R}
    (h : Reads b src lo e a) (ha : CmpFrom src lo a S) (hn : NonNil a) (hcd : c ≠ d) (hc : ¬ S c) (hd : ¬ S d) :
    Reads b src lo (.sequence e (.zeroOrMore (.orderedChoice (.sequence (.sequence (.stringTerminal []) (.terminal c)) e)
      (.sequence (.sequence (.stringTerminal []) (.terminal d)) e)))) (chainTxt c d a) := by
  have hdis : ∀ x, (x = c ∨ x = d) → ¬ S x := by
    rintro x (rfl | rfl)
    · exact hc
    · exact hd
  have one : ∀ k : UInt8, Reads b src lo (.sequence (.sequence (.stringTerminal []) (.terminal k)) e)
      (pairTxt (pairTxt (fun _ : Unit => []) (fun _ : Unit => [k])) a) := fun k =>
    reads_seq (S := fun _ => False) (F := fun _ => True)
      (reads_seq (S := fun _ => False) (F := fun _ => True) reads_empty reads_byte cmp_const (fun _ _ _ => trivial) fun _ _ => id)
      h (fun _ _ _ _ _ _ => Or.inl (Prod.ext rfl rfl)) (fun _ _ _ => trivial) fun _ _ => id
  have hop : Reads b src lo (.orderedChoice (.sequence (.sequence (.stringTerminal []) (.terminal c)) e)
      (.sequence (.sequence (.stringTerminal []) (.terminal d)) e)) (opTxt c d a) := by
    refine reads_map (reads_choice (one c) (one d) (le_of_disjoint ?_))
      (fun x => match x with | .inl y => (true, y.2) | .inr y => (false, y.2)) ?_ ?_
    · rintro p ⟨⟨⟨⟩, ⟨⟩⟩, x⟩ ⟨⟨⟨⟩, ⟨⟩⟩, y⟩ _ hx hy
      exact hcd (hx.1.unique hy.1)
    · rintro ⟨_ | _, y⟩
      · exact ⟨.inr (((), ()), y), rfl⟩
      · exact ⟨.inl (((), ()), y), rfl⟩
    · rintro (⟨⟨⟨⟩, ⟨⟩⟩, y⟩ | ⟨⟨⟨⟩, ⟨⟩⟩, y⟩) <;> rfl
  exact reads_seq h (reads_star hop (cmp_op hcd ha (F := fun _ => True) (fun _ _ _ => trivial) hn) firsts_op hdis) ha
    (firsts_list firsts_op) hdis

theorem reads_term_of (h : Reads g src lo (.varName opnd) (MPower.text (w := w))) :
    Reads g src lo (.varName C.term) (MTerm.text (w := w)) := by
  refine reads_ref ?_
  rw [gBody_head G.rTerm]
  exact reads_map (reads_chain h (cmp_pow src w lo) nonNil_pow (by decide) (not_sPow (by decide) (by decide))
    (not_sPow (by decide) (by decide))) buildTerm buildTerm_surj buildTerm_text

theorem reads_expr_of (h : Reads g src lo (.varName C.term) (MTerm.text (w := w))) :
    Reads g src lo (.varName C.expr) (MExpr.text (w := w)) := by
  refine reads_ref ?_
  rw [gBody_head G.rExpr]
  exact reads_map (reads_chain h (cmp_term (cmp_pow src w lo)) nonNil_term (by decide) (not_sTerm (by decide) (by decide))
    (not_sTerm (by decide) (by decide))) buildExpr buildExpr_surj buildExpr_text

theorem reads_all : ∀ k lo, src.len ≤ lo + k →
    Reads g src lo (.varName C.expr) (MExpr.text (w := w)) ∧ Reads g src lo (.varName opnd) (MPower.text (w := w))
  | 0, lo, h => by
    have hp := reads_opnd (src := src) (lo := lo) G (fun h' => by omega) (fun h' => by omega)
    exact ⟨reads_expr_of G (reads_term_of G hp), hp⟩
  | k + 1, lo, h => by
    have ih := reads_all k (lo + 1) (by omega)
    have hp := reads_opnd (src := src) (lo := lo) G (fun _ => ih.1) (fun _ => ih.2)
    exact ⟨reads_expr_of G (reads_term_of G hp), hp⟩

/-- The rule `expr` reads the longest expression. -/
theorem reads_expr : Reads g src lo (.varName C.expr) (MExpr.text (w := w)) := (reads_all G src.len lo (by omega)).1

end
end PP
