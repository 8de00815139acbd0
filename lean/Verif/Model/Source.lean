import Verif.Model.Out

/-! # Model of parser/src/source.rs -/
namespace PP

/-- parser/src/source.rs:1-5 `struct Source`.  The UTF-8 text is its list of bytes; that the bytes are valid UTF-8
is not needed by the modelled code except for slicing, see `Source.isCharBoundary`. -/
structure Source where
  bytes : List UInt8
  deriving DecidableEq, Repr

namespace Source

/-- parser/src/source.rs:18-21 `Source::new`: `source.len() as u32` keeps the length modulo 2^32.
(The Rust struct stores this value; here it is recomputed.)  Also `get_len`, source.rs:49-51. -/
def len (s : Source) : Nat := s.bytes.length % 4294967296

/-- parser/src/source.rs:23-30 `get_char` -/
def getChar (s : Source) (position : Nat) : Option UInt8 :=
  if position < s.len then s.bytes[position]? else none

/-- `str::is_char_boundary`: position 0, the end, or a byte that is not a UTF-8 continuation byte. -/
def isCharBoundary (bytes : List UInt8) (p : Nat) : Bool :=
  p == 0 || p == bytes.length ||
    (match bytes[p]? with
     | none => false
     | some b => !(b.toNat / 64 == 2))

/-- `&str[a..b]`: panics unless `a <= b`, `b <= len` and both are char boundaries. -/
def strSlice (bytes : List UInt8) (a b : Nat) : Out (List UInt8) :=
  if a ≤ b ∧ b ≤ bytes.length ∧ isCharBoundary bytes a ∧ isCharBoundary bytes b then
    .ok ((bytes.drop a).take (b - a))
  else .panic .slice

/-- `&bytes[a..b]` -/
def byteSlice (bytes : List UInt8) (a b : Nat) : Out (List UInt8) :=
  if a ≤ b ∧ b ≤ bytes.length then .ok ((bytes.drop a).take (b - a)) else .panic .slice

/-- parser/src/source.rs:32-40 `get_multiple_chars`.  `position + number_of_chars` is `u32` arithmetic: it panics on
overflow in debug builds (`checked = true`) and wraps in release builds. -/
def getMultipleChars (checked : Bool) (s : Source) (position n : Nat) : Out (Option (List UInt8)) :=
  if checked && 4294967296 ≤ position + n then .panic .overflow
  else
    let e := (position + n) % 4294967296
    if e < s.len then (byteSlice s.bytes position e).bind fun l => .ok (some l)
    else .ok none

/-- parser/src/source.rs:41-47 `get_string` -/
def getString (s : Source) (a b : Nat) : Out (Option (List UInt8)) :=
  if a > s.len ∨ b > s.len then .ok none
  else (strSlice s.bytes a b).bind fun l => .ok (some l)

end Source
end PP
