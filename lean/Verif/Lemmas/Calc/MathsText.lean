import Verif.Lemmas.Read.Basic

/-! # Arithmetic expressions: a text is written in one way only -/
namespace PP
open Calc

/-- Decimal digits. -/
def IsD (c : UInt8) : Prop := 48 ≤ c.toNat ∧ c.toNat ≤ 57
/-- What may continue a number. -/
def SNum (c : UInt8) : Prop := IsD c ∨ c = 46 ∨ c = 69 ∨ c = 101
/-- … a power -/
def SPow (c : UInt8) : Prop := SNum c ∨ c = 94
/-- … a term -/
def STerm (c : UInt8) : Prop := SPow c ∨ c = 42 ∨ c = 47
/-- … an expression -/
def SExpr (c : UInt8) : Prop := STerm c ∨ c = 43 ∨ c = 45

theorem isD_digit (d : Fin 10) : IsD (digitByte d) := by
  unfold IsD
  rw [digitByte_toNat]
  omega

theorem not_isD {c : UInt8} (h : c.toNat < 48 ∨ 57 < c.toNat) : ¬ IsD c := by unfold IsD; omega

theorem not_sNum {c : UInt8} (h : (c.toNat < 48 ∨ 57 < c.toNat) ∧ c ≠ 46 ∧ c ≠ 69 ∧ c ≠ 101) : ¬ SNum c := by
  rintro (h' | h' | h' | h')
  · exact not_isD h.1 h'
  · exact h.2.1 h'
  · exact h.2.2.1 h'
  · exact h.2.2.2 h'

theorem not_sPow {c : UInt8} (h : (c.toNat < 48 ∨ 57 < c.toNat) ∧ c ≠ 46 ∧ c ≠ 69 ∧ c ≠ 101) (h' : c ≠ 94) : ¬ SPow c := by
  rintro (g | g)
  · exact not_sNum h g
  · exact h' g

theorem not_sTerm {c : UInt8} (h : (c.toNat < 48 ∨ 57 < c.toNat) ∧ c ≠ 46 ∧ c ≠ 69 ∧ c ≠ 101) (h' : c ≠ 94 ∧ c ≠ 42 ∧ c ≠ 47) :
    ¬ STerm c := by
  rintro (g | g | g)
  · exact not_sPow h h'.1 g
  · exact h'.2.1 g
  · exact h'.2.2 g

theorem not_sExpr {c : UInt8} (h : (c.toNat < 48 ∨ 57 < c.toNat) ∧ c ≠ 46 ∧ c ≠ 69 ∧ c ≠ 101)
    (h' : c ≠ 94 ∧ c ≠ 42 ∧ c ≠ 47 ∧ c ≠ 43 ∧ c ≠ 45) : ¬ SExpr c := by
  rintro (g | g | g)
  · exact not_sTerm h ⟨h'.1, h'.2.1, h'.2.2.1⟩ g
  · exact h'.2.2.2.1 g
  · exact h'.2.2.2.2 g

variable {src : Source} {lo : Nat}

/-! ## Digits -/

def digTxt (d : Fin 10) : List UInt8 := [digitByte d]
/-- One of 1–9. -/
def nzTxt (d : Fin 9) : List UInt8 := [digitByte ⟨d.val + 1, by omega⟩]
def digsTxt (d : Fin 10 × List (Fin 10)) : List UInt8 := digitsText (d.1 :: d.2)

theorem firsts_dig : Firsts digTxt IsD := by
  intro d c hc
  obtain rfl : digitByte d = c := by simpa [digTxt] using hc
  exact isD_digit d

theorem cmp_dig {S : UInt8 → Prop} : CmpFrom src lo digTxt S := cmp_byte fun _ _ => digitByte_inj

theorem listTxt_dig (ds : List (Fin 10)) : listTxt digTxt ds = digitsText ds := by
  induction ds with
  | nil => rfl
  | cons d ds ih => rw [listTxt, ih]; rfl

theorem digs_eq (d : Fin 10 × List (Fin 10)) : digsTxt d = pairTxt digTxt (listTxt digTxt) d := by
  rw [pairTxt, listTxt_dig]; rfl

theorem nonNil_dig : NonNil digTxt := fun d => by simp [digTxt]

theorem cmp_digits : CmpFrom src lo digitsText IsD := by
  have := cmp_list (src := src) (lo := lo) (cmp_dig (S := fun _ => False)) firsts_dig nonNil_dig (fun _ _ => id)
  refine (cmp_comap this id (fun _ _ h => h) fun y => (listTxt_dig y).symm).mono (Nat.le_refl _) ?_
  rintro c (h | h)
  · exact h.elim
  · exact h

theorem cmp_digs : CmpFrom src lo digsTxt IsD :=
  cmp_comap cmp_digits (fun d => d.1 :: d.2) (by rintro ⟨a, b⟩ ⟨c, d⟩ h; simpa using h) fun _ => rfl

theorem firsts_digits : Firsts digitsText IsD := firsts_comap (firsts_list firsts_dig) id fun y => (listTxt_dig y).symm
theorem firsts_digs : Firsts digsTxt IsD := firsts_comap firsts_digits (fun d => d.1 :: d.2) fun _ => rfl
theorem nonNil_digs : NonNil digsTxt := fun d => by simp [digsTxt, digitsText]

/-! ## Numbers -/

def IsSign (c : UInt8) : Prop := c = 43 ∨ c = 45

theorem isSign_not_isD {c : UInt8} (h : IsD c) : ¬ IsSign c := by
  rintro (rfl | rfl) <;> exact absurd h (not_isD (by decide))

theorem firsts_sign : Firsts Sign.text IsSign := by
  intro s c hc
  cases s with
  | absent => cases hc
  | plus => left; simpa [Sign.text] using hc.symm
  | minus => right; simpa [Sign.text] using hc.symm

theorem cmp_sign : CmpFrom src lo Sign.text IsSign := by
  intro p hp x y hx hy
  cases x <;> cases y
  case absent.absent | plus.plus | minus.minus => exact Or.inl rfl
  case absent.plus | absent.minus => exact Or.inr (Or.inl ⟨by simp [Sign.text], _, hy.1, by simp [IsSign]⟩)
  case plus.absent | minus.absent => exact Or.inr (Or.inr ⟨by simp [Sign.text], _, hx.1, by simp [IsSign]⟩)
  case plus.minus | minus.plus => exact absurd (hx.1.unique hy.1) (by decide)

def intTxt (i : IntPart) : List UInt8 := digitsText i.digits

theorem intPart_inj (i j : IntPart) (h : i.digits = j.digits) : i = j := by
  cases i <;> cases j <;> simp_all [IntPart.digits]
  exact Fin.ext (by omega)

theorem cmp_int : CmpFrom src lo intTxt IsD := cmp_comap cmp_digits IntPart.digits intPart_inj fun _ => rfl
theorem firsts_int : Firsts intTxt IsD := firsts_comap firsts_digits IntPart.digits fun _ => rfl
theorem nonNil_int : NonNil intTxt := fun i => by cases i <;> simp [intTxt, IntPart.digits, digitsText]

theorem cmp_integer : CmpFrom src lo (pairTxt Sign.text intTxt) IsD :=
  cmp_pair_nn cmp_sign (fun _ _ _ _ => cmp_int) firsts_int nonNil_int fun _ => isSign_not_isD

theorem firsts_frac : Firsts Fraction.text (· = 46) := by
  intro x c hc
  simpa [Fraction.text] using hc.symm

theorem nonNil_frac : NonNil Fraction.text := fun x => by simp [Fraction.text]

theorem frac_eq (x : Fraction) : x.text = pairTxt (fun _ : Unit => [46]) digsTxt ((), x.first, x.rest) := rfl

theorem cmp_frac : CmpFrom src lo Fraction.text IsD := by
  refine cmp_comap (cmp_pair_nn (S := fun _ => False) cmp_const (fun _ _ _ _ => cmp_digs) firsts_digs nonNil_digs fun _ _ => id)
    (fun x : Fraction => ((), x.first, x.rest)) ?_ frac_eq
  rintro ⟨a, b⟩ ⟨c, d⟩ h
  simpa using h

def expByte (u : Bool) : UInt8 := if u then 69 else 101

theorem firsts_exp : Firsts Exponent.text (fun c => c = 69 ∨ c = 101) := by
  intro x c hc
  simp only [Exponent.text, List.head?_cons, Option.some.injEq] at hc
  subst hc
  cases x.upper <;> simp

theorem nonNil_exp : NonNil Exponent.text := fun x => by simp [Exponent.text]

theorem exp_eq (x : Exponent) :
    x.text = pairTxt (pairTxt (fun u => [expByte u]) Sign.text) digsTxt ((x.upper, x.sign), x.first, x.rest) := by
  simp [Exponent.text, pairTxt, digsTxt, expByte]

theorem cmp_letter_sign : CmpFrom src lo (pairTxt (fun u => [expByte u]) Sign.text) IsSign := by
  refine (cmp_pair (S := fun _ => False) (cmp_byte ?_) cmp_sign firsts_sign fun _ _ => id).mono (Nat.le_refl _) ?_
  · intro x y h
    cases x <;> cases y <;> first | rfl | exact absurd h (by decide)
  · rintro c (h | h)
    · exact h.elim
    · exact h

theorem cmp_exp : CmpFrom src lo Exponent.text IsD := by
  refine cmp_comap (cmp_pair_nn cmp_letter_sign (fun _ _ _ _ => cmp_digs) firsts_digs nonNil_digs fun _ => isSign_not_isD)
    (fun x : Exponent => ((x.upper, x.sign), x.first, x.rest)) ?_ exp_eq
  rintro ⟨a, b, c, d⟩ ⟨a', b', c', d'⟩ h
  simp at h
  simp [h]

/-- A number as its parts. -/
def numParts (n : Number) : ((Sign × IntPart) × Option Fraction) × Option Exponent := (((n.sign, n.int), n.frac), n.exp)

def numTxt := pairTxt (pairTxt (pairTxt Sign.text intTxt) (optTxt Fraction.text)) (optTxt Exponent.text)

theorem num_eq (n : Number) : n.text = numTxt (numParts n) := by
  obtain ⟨s, i, f, x⟩ := n
  cases f <;> cases x <;> rfl

theorem cmp_intFrac : CmpFrom src lo (pairTxt (pairTxt Sign.text intTxt) (optTxt Fraction.text)) (fun c => IsD c ∨ c = 46) := by
  refine (cmp_pair cmp_integer (cmp_opt cmp_frac firsts_frac nonNil_frac) (firsts_opt firsts_frac) ?_).mono (Nat.le_refl _) ?_
  · rintro c rfl
    exact not_isD (by decide)
  · rintro c (h | h | h)
    · exact Or.inl h
    · exact Or.inl h
    · exact Or.inr h

theorem exp_not_intFrac : ∀ c : UInt8, (c = 69 ∨ c = 101) → ¬ (IsD c ∨ c = 46) := by
  rintro c (rfl | rfl) (h | h)
  · exact not_isD (by decide) h
  · revert h; decide
  · exact not_isD (by decide) h
  · revert h; decide

theorem cmp_num : CmpFrom src lo Number.text SNum := by
  refine (cmp_comap (cmp_pair cmp_intFrac (cmp_opt cmp_exp firsts_exp nonNil_exp) (firsts_opt firsts_exp) exp_not_intFrac)
    numParts ?_ num_eq).mono (Nat.le_refl _) ?_
  · rintro ⟨a, b, c, d⟩ ⟨a', b', c', d'⟩ h
    simp [numParts] at h
    simp [h]
  · rintro c ((h | h) | h | h)
    · exact Or.inl h
    · exact Or.inr (Or.inl h)
    · exact Or.inl h
    · exact Or.inr (Or.inr h)

theorem nonNil_num : NonNil Number.text := by
  intro n
  rw [num_eq]
  exact nonNil_pair (nonNil_pair (nonNil_pair' nonNil_int)) _

theorem firsts_num : Firsts Number.text (fun c => IsSign c ∨ IsD c) :=
  firsts_comap (firsts_pair (firsts_pair (firsts_pair' (firsts_sign.mono fun _ => Or.inl) (firsts_int.mono fun _ => Or.inr))
    (nonNil_pair' nonNil_int)) (nonNil_pair (nonNil_pair' nonNil_int))) numParts num_eq

/-! ## Expressions -/
variable {w : Bool}

mutual
theorem nonNil_expr : ∀ e : MExpr w, e.text ≠ []
  | .term t => nonNil_term t
  | .add e t => by simp [MExpr.text]
  | .sub e t => by simp [MExpr.text]
theorem nonNil_term : ∀ t : MTerm w, t.text ≠ []
  | .one o => nonNil_pow o
  | .mul t o => by simp [MTerm.text]
  | .div t o => by simp [MTerm.text]
theorem nonNil_pow : ∀ o : MPower w, o.text ≠ []
  | .fac f => nonNil_fac f
  | .pow h f o => by simp [MPower.text]
theorem nonNil_fac : ∀ f : MFactor w, f.text ≠ []
  | .num n => nonNil_num n
  | .paren e => by simp [MFactor.text]
end

/-- The operator and the operand after it. -/
def opTxt {X : Type} (c d : UInt8) (a : X → List UInt8) (x : Bool × X) : List UInt8 := (if x.1 then c else d) :: a x.2

theorem op_eq {X : Type} (c d : UInt8) (a : X → List UInt8) (x : Bool × X) :
    opTxt c d a x = pairTxt (fun b : Bool => [if b then c else d]) a x := rfl

theorem nonNil_op {X : Type} {c d : UInt8} {a : X → List UInt8} : NonNil (opTxt c d a) := fun x => by simp [opTxt]

theorem firsts_op {X : Type} {c d : UInt8} {a : X → List UInt8} : Firsts (opTxt c d a) (fun x => x = c ∨ x = d) := by
  rintro ⟨b, x⟩ y hy
  simp only [opTxt, List.head?_cons, Option.some.injEq] at hy
  subst hy
  cases b <;> simp

theorem cmp_op {X : Type} {c d : UInt8} (hcd : c ≠ d) {a : X → List UInt8} {F S : UInt8 → Prop} (h : CmpFrom src lo a S)
    (hF : Firsts a F) (hn : NonNil a) : CmpFrom src lo (opTxt c d a) S := by
  refine cmp_comap (cmp_pair_nn (S := fun _ => False) (cmp_byte ?_) (fun _ _ _ _ => h.mono (by omega) fun _ h => h) hF hn
    fun _ _ => id) id (fun _ _ h => h) (op_eq c d a)
  intro x y hxy
  cases x <;> cases y <;> simp at hxy
  · rfl
  · exact absurd hxy.symm hcd
  · exact absurd hxy hcd
  · rfl

/-- Operands and operators. -/
def chainTxt {X : Type} (c d : UInt8) (a : X → List UInt8) : X × List (Bool × X) → List UInt8 := pairTxt a (listTxt (opTxt c d a))

theorem cmp_chain {X : Type} {c d : UInt8} (hcd : c ≠ d) {a : X → List UInt8} {S : UInt8 → Prop} (h : CmpFrom src lo a S)
    (hn : NonNil a) (hc : ¬ S c) (hd : ¬ S d) : CmpFrom src lo (chainTxt c d a) (fun x => S x ∨ x = c ∨ x = d) := by
  have hdis : ∀ x, (x = c ∨ x = d) → ¬ S x := by
    rintro x (rfl | rfl)
    · exact hc
    · exact hd
  refine (cmp_pair h (cmp_list (cmp_op hcd h (F := fun _ => True) (fun _ _ _ => trivial) hn) firsts_op nonNil_op hdis)
    (firsts_list firsts_op) hdis).mono (Nat.le_refl _) ?_
  rintro x (h | h | h)
  · exact Or.inl h
  · exact Or.inl h
  · exact Or.inr h

def buildExpr (x : MTerm w × List (Bool × MTerm w)) : MExpr w :=
  x.2.foldl (fun e y => if y.1 then .add e y.2 else .sub e y.2) (.term x.1)

def buildTerm (x : MPower w × List (Bool × MPower w)) : MTerm w :=
  x.2.foldl (fun e y => if y.1 then .mul e y.2 else .div e y.2) (.one x.1)

theorem buildExpr_text (x : MTerm w × List (Bool × MTerm w)) : (buildExpr x).text = chainTxt 43 45 MTerm.text x := by
  obtain ⟨t, l⟩ := x
  have : ∀ (l : List (Bool × MTerm w)) (e : MExpr w),
      (l.foldl (fun e y => if y.1 then .add e y.2 else .sub e y.2) e).text = e.text ++ listTxt (opTxt 43 45 MTerm.text) l := by
    intro l
    induction l with
    | nil => intro e; simp [listTxt]
    | cons y l ih =>
      intro e
      obtain ⟨b, y⟩ := y
      rw [List.foldl_cons, ih]
      cases b <;> simp [listTxt, opTxt, MExpr.text]
  simpa [buildExpr, chainTxt, pairTxt, MExpr.text] using this l (.term t)

theorem buildTerm_text (x : MPower w × List (Bool × MPower w)) : (buildTerm x).text = chainTxt 42 47 MPower.text x := by
  obtain ⟨t, l⟩ := x
  have : ∀ (l : List (Bool × MPower w)) (e : MTerm w),
      (l.foldl (fun e y => if y.1 then .mul e y.2 else .div e y.2) e).text = e.text ++ listTxt (opTxt 42 47 MPower.text) l := by
    intro l
    induction l with
    | nil => intro e; simp [listTxt]
    | cons y l ih =>
      intro e
      obtain ⟨b, y⟩ := y
      rw [List.foldl_cons, ih]
      cases b <;> simp [listTxt, opTxt, MTerm.text]
  simpa [buildTerm, chainTxt, pairTxt, MTerm.text] using this l (.one t)

theorem buildExpr_surj : ∀ e : MExpr w, ∃ x, buildExpr x = e
  | .term t => ⟨(t, []), rfl⟩
  | .add e t => by
    obtain ⟨⟨t', l⟩, rfl⟩ := buildExpr_surj e
    exact ⟨(t', l ++ [(true, t)]), by simp [buildExpr]⟩
  | .sub e t => by
    obtain ⟨⟨t', l⟩, rfl⟩ := buildExpr_surj e
    exact ⟨(t', l ++ [(false, t)]), by simp [buildExpr]⟩

theorem buildTerm_surj : ∀ e : MTerm w, ∃ x, buildTerm x = e
  | .one t => ⟨(t, []), rfl⟩
  | .mul e t => by
    obtain ⟨⟨t', l⟩, rfl⟩ := buildTerm_surj e
    exact ⟨(t', l ++ [(true, t)]), by simp [buildTerm]⟩
  | .div e t => by
    obtain ⟨⟨t', l⟩, rfl⟩ := buildTerm_surj e
    exact ⟨(t', l ++ [(false, t)]), by simp [buildTerm]⟩

/-- A factor in parentheses. -/
def parenTxt (e : MExpr w) : List UInt8 := 40 :: (e.text ++ [41])

theorem paren_eq (e : MExpr w) : parenTxt e = pairTxt (pairTxt (fun _ : Unit => [40]) MExpr.text) (fun _ : Unit => [41]) (((), e), ()) := by
  simp [parenTxt, pairTxt]

theorem firsts_paren : Firsts (parenTxt (w := w)) (· = 40) := by
  intro x c hc
  simpa [parenTxt] using hc.symm

theorem nonNil_paren : NonNil (parenTxt (w := w)) := fun x => by simp [parenTxt]

theorem firsts_close : Firsts (fun _ : Unit => ([41] : List UInt8)) (· = 41) := by
  intro x c hc
  simpa using hc.symm

theorem close_not_sExpr : ∀ c : UInt8, c = 41 → ¬ SExpr c := by
  rintro c rfl
  exact not_sExpr (by decide) (by decide)

/-- After an opening parenthesis the rest of the source is shorter. -/
theorem open_lt {p : Nat} {x : Unit} (hp : lo ≤ p) (h : TextAt src p ((fun _ : Unit => ([40] : List UInt8)) x)) : lo < src.len := by
  have := h.1.1
  omega

theorem cmp_open (ih : lo < src.len → CmpFrom src (lo + 1) (MExpr.text (w := w)) SExpr) :
    CmpFrom src lo (pairTxt (fun _ : Unit => [40]) (MExpr.text (w := w))) SExpr :=
  cmp_pair_nn (S := fun _ => False) (F := fun _ => True) cmp_const
    (fun p x hp hx => (ih (open_lt (x := x) hp hx)).mono (by simp; omega) fun _ h => h) (fun _ _ _ => trivial) nonNil_expr (fun _ _ => id)

theorem cmp_paren (ih : lo < src.len → CmpFrom src (lo + 1) (MExpr.text (w := w)) SExpr) {S : UInt8 → Prop} :
    CmpFrom src lo (parenTxt (w := w)) S :=
  cmp_comap (cmp_pair_nn (cmp_open ih) (fun _ _ _ _ => cmp_const) firsts_close (fun _ => by simp) close_not_sExpr)
    (fun e => (((), e), ())) (by intro x y h; simpa using h) paren_eq

def facOf : MExpr w ⊕ Number → MFactor w
  | .inl e => .paren e
  | .inr n => .num n

theorem facOf_surj : ∀ f : MFactor w, ∃ x, facOf x = f
  | .paren e => ⟨.inl e, rfl⟩
  | .num n => ⟨.inr n, rfl⟩

theorem facOf_text (x : MExpr w ⊕ Number) : (facOf x).text = sumTxt parenTxt Number.text x := by
  cases x <;> rfl

theorem paren_not_num : ∀ p (x : MExpr w) (y : Number), lo ≤ p → TextAt src p (parenTxt x) → TextAt src p y.text → False :=
  disjoint_firsts firsts_paren firsts_num nonNil_paren nonNil_num (by
    rintro c rfl ((h | h) | h)
    · revert h; decide
    · revert h; decide
    · exact not_isD (by decide) h)

theorem cmp_factor (ih : lo < src.len → CmpFrom src (lo + 1) (MExpr.text (w := w)) SExpr) :
    CmpFrom src lo (MFactor.text (w := w)) SNum :=
  (cmp_map (cmp_sum (cmp_paren (S := fun _ => False) ih) cmp_num paren_not_num) facOf facOf_surj facOf_text).mono (Nat.le_refl _) (by
    rintro c (h | h)
    · exact h.elim
    · exact h)

/-- A power: a factor, and perhaps `^` and a power. -/
def powOf (hw : w = true) : MFactor w × Option (Unit × MPower w) → MPower w
  | (f, none) => .fac f
  | (f, some ((), o)) => .pow hw f o

theorem powOf_surj (hw : w = true) : ∀ o : MPower w, ∃ x, powOf hw x = o
  | .fac f => ⟨(f, none), rfl⟩
  | .pow _ f o => ⟨(f, some ((), o)), rfl⟩

def hatTxt : Unit × MPower w → List UInt8 := pairTxt (fun _ : Unit => [94]) MPower.text

theorem powOf_text (hw : w = true) (x : MFactor w × Option (Unit × MPower w)) :
    (powOf hw x).text = pairTxt MFactor.text (optTxt hatTxt) x := by
  obtain ⟨f, _ | ⟨⟨⟩, o⟩⟩ := x
  · simp [powOf, MPower.text, pairTxt, optTxt]
  · rfl

theorem firsts_hat : Firsts (hatTxt (w := w)) (· = 94) := by
  intro x c hc
  simpa [hatTxt, pairTxt] using hc.symm

theorem nonNil_hat : NonNil (hatTxt (w := w)) := fun x => by simp [hatTxt, pairTxt]

theorem hat_not_sNum : ∀ c : UInt8, c = 94 → ¬ SNum c := by
  rintro c rfl
  exact not_sNum (by decide)

theorem fac_lt {p : Nat} {f : MFactor w} (hp : lo ≤ p) (h : TextAt src p f.text) : lo < src.len ∧ lo + 1 ≤ p + f.text.length := by
  have := h.le_len (nonNil_fac f)
  have := List.length_pos_iff.mpr (nonNil_fac f)
  omega

/-- Without powers, a power is a factor. -/
def facPow (f : MFactor w) : MPower w := .fac f

theorem facPow_surj (hw : w = false) : ∀ o : MPower w, ∃ f, facPow f = o
  | .fac f => ⟨f, rfl⟩
  | .pow h _ _ => absurd h (by simp [hw])

theorem cmp_power (ih : lo < src.len → CmpFrom src (lo + 1) (MExpr.text (w := w)) SExpr)
    (ihp : lo < src.len → CmpFrom src (lo + 1) (MPower.text (w := w)) SPow) :
    CmpFrom src lo (MPower.text (w := w)) SPow := by
  by_cases hw : w = true
  · refine (cmp_map (cmp_pair' (T := SPow) (cmp_factor ih) ?_ (firsts_opt firsts_hat) hat_not_sNum) (powOf hw) (powOf_surj hw)
      (powOf_text hw)).mono (Nat.le_refl _) ?_
    · intro p f hp hf
      have := fac_lt hp hf
      refine (cmp_opt (S := SPow) (a := hatTxt) ?_ firsts_hat nonNil_hat).mono (Nat.le_refl _) ?_
      · exact cmp_pair_nn (S := fun _ => False) (F := fun _ => True) cmp_const
          (fun p' _ _ _ => (ihp this.1).mono (by omega) fun _ h => h) (fun _ _ _ => trivial) nonNil_pow (fun _ _ => id)
      · rintro c (h | h)
        · exact h
        · exact Or.inr h
    · rintro c (h | h)
      · exact Or.inl h
      · exact h
  · exact (cmp_map (cmp_factor ih) facPow (facPow_surj (by simpa using hw)) fun _ => rfl).mono (Nat.le_refl _) fun _ => Or.inl

theorem cmp_term (h : CmpFrom src lo (MPower.text (w := w)) SPow) : CmpFrom src lo (MTerm.text (w := w)) STerm :=
  cmp_map (cmp_chain (by decide) h nonNil_pow (not_sPow (by decide) (by decide)) (not_sPow (by decide) (by decide))) buildTerm
    buildTerm_surj buildTerm_text

theorem cmp_expr_of (h : CmpFrom src lo (MTerm.text (w := w)) STerm) : CmpFrom src lo (MExpr.text (w := w)) SExpr :=
  cmp_map (cmp_chain (by decide) h nonNil_term (not_sTerm (by decide) (by decide)) (not_sTerm (by decide) (by decide))) buildExpr
    buildExpr_surj buildExpr_text

theorem cmp_all (src : Source) (w : Bool) : ∀ k lo, src.len ≤ lo + k →
    CmpFrom src lo (MExpr.text (w := w)) SExpr ∧ CmpFrom src lo (MPower.text (w := w)) SPow
  | 0, lo, h => by
    have hp := cmp_power (src := src) (lo := lo) (w := w) (fun h' => by omega) (fun h' => by omega)
    exact ⟨cmp_expr_of (cmp_term hp), hp⟩
  | k + 1, lo, h => by
    have ih := cmp_all src w k (lo + 1) (by omega)
    have hp := cmp_power (src := src) (lo := lo) (w := w) (fun _ => ih.1) (fun _ => ih.2)
    exact ⟨cmp_expr_of (cmp_term hp), hp⟩

theorem cmp_expr (src : Source) (w : Bool) (lo : Nat) : CmpFrom src lo (MExpr.text (w := w)) SExpr :=
  (cmp_all src w src.len lo (by omega)).1
theorem cmp_pow (src : Source) (w : Bool) (lo : Nat) : CmpFrom src lo (MPower.text (w := w)) SPow :=
  (cmp_all src w src.len lo (by omega)).2
theorem cmp_fac (src : Source) (w : Bool) (lo : Nat) : CmpFrom src lo (MFactor.text (w := w)) SNum :=
  cmp_factor fun _ => cmp_expr src w _

end PP
