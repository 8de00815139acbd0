import Verif.Model.Source

/-! # Strings of the generator, as byte lists

Every string the generator handles (file contents, rule names, terminals) is a Rust `String`; the model keeps its UTF-8
bytes.  Byte-wise comparison is exactly Rust's `Ord for str`. -/
namespace PP.Gen

abbrev Bytes := List UInt8

/-- The UTF-8 bytes of a string literal. -/
def _root_.PP.utf8Of (s : String) : Bytes := s.toByteArray.data.toList

/-- The decimal digits of a number, as `format!` writes a `u32` or `usize`. -/
def decimal (n : Nat) : Bytes := go (n + 1) n []
where
  go : Nat → Nat → Bytes → Bytes
    | 0, _, acc => acc
    | fuel + 1, n, acc => if n < 10 then UInt8.ofNat (48 + n) :: acc else go fuel (n / 10) (UInt8.ofNat (48 + n % 10) :: acc)

/-- `Ord for str`: lexicographic on bytes (`a <= b`). -/
def bytesLe : Bytes → Bytes → Bool
  | [], _ => true
  | _ :: _, [] => false
  | a :: as, b :: bs => if a = b then bytesLe as bs else decide (a < b)

/-- One character of `str::to_lowercase`; only ASCII letters change (rule names and hook names are ASCII by the DSL's
`Var_Name` rule, so Unicode case mapping is not modelled). -/
def lowerByte (c : UInt8) : UInt8 := if 65 ≤ c ∧ c ≤ 90 then c + 32 else c
/-- One character of `char::to_uppercase` (ASCII). -/
def upperByte (c : UInt8) : UInt8 := if 97 ≤ c ∧ c ≤ 122 then c - 32 else c

/-- `str::to_lowercase` (ASCII) -/
def lower (s : Bytes) : Bytes := s.map lowerByte

/-- The closure `rule_name` / `rule_str` used at generator/src/constructor.rs:154-159, 996-1001 and
generator/src/binary_wo.rs:355-360, 386-391, 404-409: upper-case the first character, keep the rest.
`chars().nth(0).expect(..)` panics on the empty string. -/
def capitalise : Bytes → Out Bytes
  | [] => .panic .expectFailed
  | c :: cs => .ok (upperByte c :: cs)

/-- `Vec<String>::sort` (a stable sort) -/
def sortNames (l : List Bytes) : List Bytes := l.mergeSort bytesLe

/-- `Vec::dedup`: drop an element equal to the one kept before it. -/
def dedup : List Bytes → List Bytes
  | [] => []
  | a :: l => go a l
where
  go (a : Bytes) : List Bytes → List Bytes
    | [] => [a]
    | b :: l => if b = a then go a l else a :: go b l

/-- `HashSet<String>::insert`; a set is a list without repetitions whose order is never observed except through `HashOrd`. -/
def setInsert (s : List Bytes) (x : Bytes) : List Bytes := if s.contains x then s else s ++ [x]

/-- `HashMap<String, V>` as an association list with distinct keys. -/
abbrev Map (V : Type) := List (Bytes × V)

/-- `HashMap::get` -/
def Map.get {V : Type} (m : Map V) (k : Bytes) : Option V := (m.find? fun p => p.1 = k).map (·.2)

/-- `HashMap::insert` (replaces the value of a key that is present) -/
def Map.insert {V : Type} : Map V → Bytes → V → Map V
  | [], k, v => [(k, v)]
  | p :: m, k, v => if p.1 = k then (k, v) :: m else p :: Map.insert m k v

/-- The unspecified iteration order of `HashMap` / `HashSet`: any permutation, chosen afresh for every iteration (the label
says which iteration it is). -/
structure HashOrd where
  perm : List Nat → {α : Type} → List α → List α
  ok : ∀ lbl {α : Type} (l : List α), (perm lbl l).Perm l

/-- Insertion order, for running examples. -/
def HashOrd.id : HashOrd := ⟨fun _ _ l => l, fun _ _ _ => .refl _⟩

end PP.Gen
