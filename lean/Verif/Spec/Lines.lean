import Verif.Model.Grammars.Ex11
import Verif.Spec.Tree

/-! # Specification for example 11: pairwise different lines -/
namespace PP

/-- A lower-case letter or a space. -/
def LineByte (c : UInt8) : Prop := (97 ≤ c.toNat ∧ c.toNat ≤ 122) ∨ c = 32

instance (c : UInt8) : Decidable (LineByte c) := by unfold LineByte; infer_instance

/-- A nonempty word over [a-z ] closed by a newline. -/
def IsLine (l : List UInt8) : Prop := ∃ w : List UInt8, w ≠ [] ∧ (∀ c ∈ w, LineByte c) ∧ l = w ++ [10]

/-- Lines, none of which occurs twice. -/
def DistinctLines (ls : List (List UInt8)) : Prop := (∀ l ∈ ls, IsLine l) ∧ ls.Nodup

/-- Rust text: the UTF-8 encoding of some characters. -/
def Source.IsText (s : Source) : Prop := ∃ cs : List Char, s.bytes = cs.flatMap String.utf8EncodeChar

/-- One leaf per line, side by side from position `p` on. -/
def lineTrees (p : Nat) : List (List UInt8) → List (Tree Ex11)
  | [] => []
  | l :: ls => .node .r_unique_line_matcher (some (p, p + l.length)) [] :: lineTrees (p + l.length) ls

end PP
