import Verif.Model.Parsers
import Verif.Spec.Tree

/-! # Specification: the words `a`, `aba`, `ababa`, … and their trees -/
namespace PP

/-- `a` followed by `m` times `ba`. -/
def abWord : Nat → List UInt8
  | 0 => [97]
  | m + 1 => abWord m ++ [98, 97]

/-- The tree of `abWord m`: an `A` around a `B` around an `A` …, all starting at 0. -/
def abNest : Nat → Tree Ex2
  | 0 => .node .r_a (some (0, 1)) []
  | m + 1 => .node .r_a (some (0, 2 * m + 3)) [.node .r_b (some (0, 2 * m + 2)) [abNest m]]

end PP
