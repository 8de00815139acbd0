import Verif.Model.Source

/-! # Rust `i64`, as used by the evaluators of examples 1, 3 and 4 -/
namespace PP

/-- The range of `i64`. -/
def InI64 (x : Int) : Prop := -9223372036854775808 ≤ x ∧ x < 9223372036854775808

instance (x : Int) : Decidable (InI64 x) := inferInstanceAs (Decidable (_ ∧ _))

/-- The result of an `i64` operation whose exact result is `x`: on overflow it panics in debug builds (`checked = true`) and wraps
in release builds.  (`i64::pow` behaves like that too: its intermediate products overflow only if its result does.) -/
def i64Result (checked : Bool) (x : Int) : Out Int :=
  if InI64 x then .ok x else if checked then .panic .overflow else .ok (x.bmod 18446744073709551616)

/-- Value of a string of decimal digits. -/
def decimal (ds : List UInt8) : Nat := ds.foldl (fun a c => 10 * a + (c.toNat - 48)) 0

/-- `str::parse::<i64>()`: an optional sign, then one or more decimal digits, the value in range.  `none` is `Err`. -/
def parseI64 (s : List UInt8) : Option Int :=
  let neg := s.head? = some 45
  let ds := if s.head? = some 43 ∨ s.head? = some 45 then s.tail else s
  if ds ≠ [] ∧ ds.all (fun c => 48 ≤ c.toNat ∧ c.toNat ≤ 57) = true then
    let x : Int := if neg then -(decimal ds : Int) else decimal ds
    if InI64 x then some x else none
  else none

end PP
