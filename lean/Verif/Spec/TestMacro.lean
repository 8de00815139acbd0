import Verif.Model.TestMacro

/-! # Specification of the names of the generated tests -/
namespace PP.TestMacro
open PP.Gen

/-- The part of a file name before its extension: the extension is what follows the last dot, if something precedes that dot. -/
inductive IsStem : Bytes → Bytes → Prop
  | noDot {name} : 46 ∉ name → IsStem name name
  | hidden {rest} : 46 ∉ rest → IsStem (46 :: rest) (46 :: rest)
  | ext {s e} : s ≠ [] → 46 ∉ e → IsStem (s ++ 46 :: e) s

/-- A character that may stand in a stem: a letter, a digit, `_` or `-`. -/
def StemChar (c : UInt8) : Prop := (97 ≤ c ∧ c ≤ 122) ∨ (65 ≤ c ∧ c ≤ 90) ∨ (48 ≤ c ∧ c ≤ 57) ∨ c = 95 ∨ c = 45

/-- The same but for upper and lower case of letters and `-` for `_`. -/
def Alike (a b : UInt8) : Prop :=
  a = b ∨ (65 ≤ a ∧ a ≤ 90 ∧ b = a + 32) ∨ (65 ≤ b ∧ b ≤ 90 ∧ a = b + 32) ∨ ((a = 45 ∨ a = 95) ∧ (b = 45 ∨ b = 95))

/-- Two stems that differ at most in this. -/
def AlikeAll : Bytes → Bytes → Prop
  | [], [] => True
  | a :: s, b :: t => Alike a b ∧ AlikeAll s t
  | _, _ => False

end PP.TestMacro
