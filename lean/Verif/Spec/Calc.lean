/-! # Specification: what the calculator examples compute

Arithmetic expressions as abstract syntax, the text they are written as, and their value. -/
namespace PP.Calc

/-- The character of a decimal digit. -/
def digitByte (d : Fin 10) : UInt8 := UInt8.ofNat (48 + d.val)

def digitsText (ds : List (Fin 10)) : List UInt8 := ds.map digitByte

/-- Positional value, most significant digit first. -/
def digitsVal : List (Fin 10) → Nat
  | [] => 0
  | d :: ds => d.val * 10 ^ ds.length + digitsVal ds

/-- `x` is a 64-bit signed integer. -/
def Fits (x : Int) : Prop := -2 ^ 63 ≤ x ∧ x < 2 ^ 63

instance (x : Int) : Decidable (Fits x) := inferInstanceAs (Decidable (_ ∧ _))

/-- An operation with exact result `x`: in a debug build it panics (`none`) if `x` does not fit, in a release build it wraps. -/
def result (checked : Bool) (x : Int) : Option Int :=
  if Fits x then some x else if checked then none else some (x.bmod (2 ^ 64))

/-! ## Example 1: sums -/

/-- A positive integer without leading zeros: the first digit is `first + 1`. -/
structure Num1 where
  first : Fin 9
  rest : List (Fin 10)

def Num1.digits (n : Num1) : List (Fin 10) := ⟨n.first.val + 1, by omega⟩ :: n.rest
def Num1.text (n : Num1) : List UInt8 := digitsText n.digits
def Num1.val (n : Num1) : Int := digitsVal n.digits

/-- Numbers that do not fit in 64 bits make the evaluator panic. -/
def Num1.eval (n : Num1) : Option Int := if Fits n.val then some n.val else none

inductive Sum1 where
  | num (n : Num1)
  | add (s : Sum1) (n : Num1)
  | sub (s : Sum1) (n : Num1)

def Sum1.text : Sum1 → List UInt8
  | num n => n.text
  | add s n => s.text ++ 43 :: n.text
  | sub s n => s.text ++ 45 :: n.text

/-- The exact value: from left to right. -/
def Sum1.val : Sum1 → Int
  | num n => n.val
  | add s n => s.val + n.val
  | sub s n => s.val - n.val

/-- The value in 64-bit arithmetic; `none` is a panic. -/
def Sum1.eval (checked : Bool) : Sum1 → Option Int
  | num n => n.eval
  | add s n => do
    let a ← s.eval checked
    let b ← n.eval
    result checked (a + b)
  | sub s n => do
    let a ← s.eval checked
    let b ← n.eval
    result checked (a - b)

/-- All numbers and partial sums are 64-bit integers. -/
def Sum1.AllFit : Sum1 → Prop
  | num n => Fits n.val
  | add s n => s.AllFit ∧ Fits n.val ∧ Fits (s.val + n.val)
  | sub s n => s.AllFit ∧ Fits n.val ∧ Fits (s.val - n.val)

/-! ## Examples 3 and 4: arithmetic -/

inductive Sign where
  | absent | plus | minus

def Sign.text : Sign → List UInt8
  | absent => []
  | plus => [43]
  | minus => [45]

/-- One digit, or several of which the first is `first + 1`, not 0. -/
inductive IntPart where
  | one (d : Fin 10)
  | more (first : Fin 9) (second : Fin 10) (rest : List (Fin 10))

def IntPart.digits : IntPart → List (Fin 10)
  | one d => [d]
  | more f s r => ⟨f.val + 1, by omega⟩ :: s :: r

/-- `E` or `e`, a sign, digits. -/
structure Exponent where
  upper : Bool
  sign : Sign
  first : Fin 10
  rest : List (Fin 10)

def Exponent.text (x : Exponent) : List UInt8 :=
  (if x.upper then 69 else 101) :: (x.sign.text ++ digitsText (x.first :: x.rest))

/-- `.` and digits. -/
structure Fraction where
  first : Fin 10
  rest : List (Fin 10)

def Fraction.text (x : Fraction) : List UInt8 := 46 :: digitsText (x.first :: x.rest)

structure Number where
  sign : Sign
  int : IntPart
  frac : Option Fraction
  exp : Option Exponent

def Number.intText (n : Number) : List UInt8 := n.sign.text ++ digitsText n.int.digits
def Number.fracText (n : Number) : List UInt8 := match n.frac with | none => [] | some x => x.text
def Number.expText (n : Number) : List UInt8 := match n.exp with | none => [] | some x => x.text
def Number.text (n : Number) : List UInt8 := n.intText ++ n.fracText ++ n.expText

/-- Value of the integer part. -/
def Number.intVal (n : Number) : Int :=
  match n.sign with
  | .minus => -(digitsVal n.int.digits : Int)
  | _ => digitsVal n.int.digits

/-- A number with neither fraction nor exponent. -/
def Number.Whole (n : Number) : Prop := n.frac = none ∧ n.exp = none

instance (n : Number) : Decidable n.Whole :=
  decidable_of_iff (n.frac.isNone = true ∧ n.exp.isNone = true) (by simp [Number.Whole])

/-- The evaluators support whole numbers of 64 bits only. -/
def Number.eval (n : Number) : Option Int := if n.Whole ∧ Fits n.intVal then some n.intVal else none

mutual
/-- Sums of terms.  `w`: with powers (example 4) or without (example 3). -/
inductive MExpr (w : Bool) where
  | term (t : MTerm w)
  | add (e : MExpr w) (t : MTerm w)
  | sub (e : MExpr w) (t : MTerm w)
/-- Products. -/
inductive MTerm (w : Bool) where
  | one (o : MPower w)
  | mul (t : MTerm w) (o : MPower w)
  | div (t : MTerm w) (o : MPower w)
/-- Powers, to the right. -/
inductive MPower (w : Bool) where
  | fac (f : MFactor w)
  | pow (h : w = true) (f : MFactor w) (o : MPower w)
inductive MFactor (w : Bool) where
  | num (n : Number)
  | paren (e : MExpr w)
end

variable {w : Bool}

mutual
def MExpr.text : MExpr w → List UInt8
  | .term t => t.text
  | .add e t => e.text ++ 43 :: t.text
  | .sub e t => e.text ++ 45 :: t.text
def MTerm.text : MTerm w → List UInt8
  | .one o => o.text
  | .mul t o => t.text ++ 42 :: o.text
  | .div t o => t.text ++ 47 :: o.text
def MPower.text : MPower w → List UInt8
  | .fac f => f.text
  | .pow _ f o => f.text ++ 94 :: o.text
def MFactor.text : MFactor w → List UInt8
  | .num n => n.text
  | .paren e => 40 :: (e.text ++ [41])
end

/-- `/` of 64-bit integers: truncates, and panics on division by 0 and on overflow, in every build. -/
def quotient (a b : Int) : Option Int := if b = 0 ∨ (a = -2 ^ 63 ∧ b = -1) then none else some (a.tdiv b)

/-- `a.pow(b as u32)`: the exponent is taken modulo 2^32. -/
def power (checked : Bool) (a b : Int) : Option Int := result checked (a ^ (b % 2 ^ 32).toNat)

mutual
/-- The value in 64-bit arithmetic; `none` is a panic. -/
def MExpr.eval (checked : Bool) : MExpr w → Option Int
  | .term t => t.eval checked
  | .add e t => do
    let a ← e.eval checked
    let b ← t.eval checked
    result checked (a + b)
  | .sub e t => do
    let a ← e.eval checked
    let b ← t.eval checked
    result checked (a - b)
def MTerm.eval (checked : Bool) : MTerm w → Option Int
  | .one o => o.eval checked
  | .mul t o => do
    let a ← t.eval checked
    let b ← o.eval checked
    result checked (a * b)
  | .div t o => do
    let a ← t.eval checked
    let b ← o.eval checked
    quotient a b
def MPower.eval (checked : Bool) : MPower w → Option Int
  | .fac f => f.eval checked
  | .pow _ f o => do
    let a ← f.eval checked
    let b ← o.eval checked
    power checked a b
def MFactor.eval (checked : Bool) : MFactor w → Option Int
  | .num n => n.eval
  | .paren e => e.eval checked
end

mutual
/-- The exact value, with division truncating; `none` for fractions, exponents, division by 0 and negative powers. -/
def MExpr.val : MExpr w → Option Int
  | .term t => t.val
  | .add e t => do
    let a ← e.val
    let b ← t.val
    some (a + b)
  | .sub e t => do
    let a ← e.val
    let b ← t.val
    some (a - b)
def MTerm.val : MTerm w → Option Int
  | .one o => o.val
  | .mul t o => do
    let a ← t.val
    let b ← o.val
    some (a * b)
  | .div t o => do
    let a ← t.val
    let b ← o.val
    if b = 0 then none else some (a.tdiv b)
def MPower.val : MPower w → Option Int
  | .fac f => f.val
  | .pow _ f o => do
    let a ← f.val
    let b ← o.val
    if b < 0 then none else some (a ^ b.toNat)
def MFactor.val : MFactor w → Option Int
  | .num n => if n.Whole then some n.intVal else none
  | .paren e => e.val
end

/-- There is an exact value and it is a 64-bit integer. -/
def FitsIn : Option Int → Prop
  | none => False
  | some v => Fits v

/-- There is an exact value and it is a 32-bit unsigned integer. -/
def FitsU32 : Option Int → Prop
  | none => False
  | some v => 0 ≤ v ∧ v < 2 ^ 32

mutual
/-- All subexpressions have an exact value of 64 bits, and all exponents are 32-bit unsigned integers. -/
def MExpr.AllFit : MExpr w → Prop
  | .term t => t.AllFit
  | .add e t => e.AllFit ∧ t.AllFit ∧ FitsIn (MExpr.add e t).val
  | .sub e t => e.AllFit ∧ t.AllFit ∧ FitsIn (MExpr.sub e t).val
def MTerm.AllFit : MTerm w → Prop
  | .one o => o.AllFit
  | .mul t o => t.AllFit ∧ o.AllFit ∧ FitsIn (MTerm.mul t o).val
  | .div t o => t.AllFit ∧ o.AllFit ∧ FitsIn (MTerm.div t o).val
def MPower.AllFit : MPower w → Prop
  | .fac f => f.AllFit
  | .pow h f o => f.AllFit ∧ o.AllFit ∧ FitsU32 o.val ∧ FitsIn (MPower.pow h f o).val
def MFactor.AllFit : MFactor w → Prop
  | .num n => n.Whole ∧ Fits n.intVal
  | .paren e => e.AllFit
end

mutual
/-- Every exponent that has an exact value is a 32-bit unsigned integer. -/
def MExpr.ExponentsFit : MExpr w → Prop
  | .term t => t.ExponentsFit
  | .add e t | .sub e t => e.ExponentsFit ∧ t.ExponentsFit
def MTerm.ExponentsFit : MTerm w → Prop
  | .one o => o.ExponentsFit
  | .mul t o | .div t o => t.ExponentsFit ∧ o.ExponentsFit
def MPower.ExponentsFit : MPower w → Prop
  | .fac f => f.ExponentsFit
  | .pow _ f o => f.ExponentsFit ∧ o.ExponentsFit ∧ ∀ v, o.val = some v → 0 ≤ v ∧ v < 2 ^ 32
def MFactor.ExponentsFit : MFactor w → Prop
  | .num _ => True
  | .paren e => e.ExponentsFit
end

end PP.Calc
