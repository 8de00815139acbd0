import Verif.Spec.Peg

/-! # Specification: JSON texts

The grammar of json.org (examples/json_parser/spec.txt), except for strings: here a string is any sequence of bytes other than `"` and
`\` between two `"` (so there are no escape sequences, and control characters are allowed). -/
namespace PP.JsonText

/-- White space: spaces, tabs, newlines, carriage returns. -/
def IsLayout (l : List UInt8) : Prop := ∀ c ∈ l, c = 32 ∨ c = 9 ∨ c = 10 ∨ c = 13

/-- One or more of `0` to `9`. -/
def IsDigits (l : List UInt8) : Prop := l ≠ [] ∧ ∀ c ∈ l, 48 ≤ c.toNat ∧ c.toNat ≤ 57

/-- An optional `-` and digits without leading zero. -/
def IsInteger (l : List UInt8) : Prop :=
  ∃ sign ds, l = sign ++ ds ∧ (sign = [] ∨ sign = [45]) ∧ IsDigits ds ∧ (ds.head? = some 48 → ds.length = 1)

/-- `.` and digits. -/
def IsFraction (l : List UInt8) : Prop := ∃ ds, l = 46 :: ds ∧ IsDigits ds

/-- `e` or `E`, an optional sign, digits. -/
def IsExponent (l : List UInt8) : Prop :=
  ∃ e sign ds, l = e :: (sign ++ ds) ∧ (e = 101 ∨ e = 69) ∧ (sign = [] ∨ sign = [43] ∨ sign = [45]) ∧ IsDigits ds

def IsNumber (l : List UInt8) : Prop :=
  ∃ i f e, l = i ++ (f ++ e) ∧ IsInteger i ∧ (f = [] ∨ IsFraction f) ∧ (e = [] ∨ IsExponent e)

/-- Bytes other than `"` and `\` between two `"`. -/
def IsString (l : List UInt8) : Prop := ∃ s, l = 34 :: (s ++ [34]) ∧ ∀ c ∈ s, c ≠ 34 ∧ c ≠ 92

mutual
inductive IsValue : List UInt8 → Prop where
  | emptyObject {w} : IsLayout w → IsValue (123 :: (w ++ [125]))
  | object {m} : IsMembers m → IsValue (123 :: (m ++ [125]))
  | emptyArray {w} : IsLayout w → IsValue (91 :: (w ++ [93]))
  | array {e} : IsElements e → IsValue (91 :: (e ++ [93]))
  | string {s} : IsString s → IsValue s
  | number {n} : IsNumber n → IsValue n
  | true : IsValue [116, 114, 117, 101]
  | false : IsValue [102, 97, 108, 115, 101]
  | null : IsValue [110, 117, 108, 108]
/-- A value between white space. -/
inductive IsElement : List UInt8 → Prop where
  | mk {w v w'} : IsLayout w → IsValue v → IsLayout w' → IsElement (w ++ (v ++ w'))
/-- Elements separated by commas. -/
inductive IsElements : List UInt8 → Prop where
  | one {e} : IsElement e → IsElements e
  | cons {e es} : IsElement e → IsElements es → IsElements (e ++ 44 :: es)
/-- Name, colon, element. -/
inductive IsMember : List UInt8 → Prop where
  | mk {w s w' e} : IsLayout w → IsString s → IsLayout w' → IsElement e → IsMember (w ++ (s ++ (w' ++ 58 :: e)))
/-- Members separated by commas. -/
inductive IsMembers : List UInt8 → Prop where
  | one {m} : IsMember m → IsMembers m
  | cons {m ms} : IsMember m → IsMembers ms → IsMembers (m ++ 44 :: ms)
end

/-- A JSON text. -/
def IsJson (l : List UInt8) : Prop := IsElement l

end PP.JsonText
