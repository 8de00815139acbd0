import Verif.Spec.Meaning
import Verif.Spec.LeftRec
import Verif.Spec.Graph

/-! # Specification: what the generator is to know about a grammar -/
namespace PP.Gen

/-- `t` is the tree of the grammar file `g`: a root with the tree of each rule below it. -/
def TreeOf (g : DGrammar) (t : Publisher Dsl) : Prop := t.Unfolds 0 (.node .r_grammar (some (0, 0)) (g.trees 0))

/-- Some declaration of `x` carries `Inline`. -/
def DGrammar.Inlined (g : DGrammar) (x : Bytes) : Prop := ∃ r ∈ g, r.name = x ∧ r.sep.isInline = true

/-- `x` leads to a cycle of leftmost references. -/
def DGrammar.LeftRecursive (g : DGrammar) (x : Bytes) : Prop := ∃ y z, g.Leads x y ∧ g.Left y z ∧ g.Leads z y

/-- A declared rule refers leftmost to a name that is not declared. -/
def DGrammar.Dangling (g : DGrammar) : Prop := ∃ x y, g.Left x y ∧ g.lookup y = none

/-- How references are to be translated: those to left-recursive rules with an involved set (of function names) made of the
left-recursive rules they lead to, those to inlined rules by a direct call. -/
structure RefsFor (g : DGrammar) (c : Refs) : Prop where
  inline : ∀ x, c.inline x = true ↔ g.Inlined x
  notLR : ∀ x, c.leftRec x = none ↔ ¬ g.LeftRecursive x
  involved : ∀ x inv, c.leftRec x = some inv → ∀ f, f ∈ inv ↔ ∃ y, g.LeftRecursive y ∧ g.Leads x y ∧ f = lower y

/-- `l'` is `l` without white space at both ends. -/
def Trimmed (sp : UInt8 → Prop) (l l' : Bytes) : Prop :=
  ∃ a b, l = a ++ (l' ++ b) ∧ (∀ c ∈ a, sp c) ∧ (∀ c ∈ b, sp c) ∧ (∀ c, l'.head? = some c → ¬ sp c) ∧ (∀ c, l'.getLast? = some c → ¬ sp c)

/-- `ls` are the lines of `s`: joined by newlines they give `s`, and none contains one. -/
def LinesOf (s : Bytes) (ls : List Bytes) : Prop := List.intercalate [10] ls = s ∧ (∀ l ∈ ls, 10 ∉ l) ∧ ls ≠ []

/-- Strictly increasing in the lexicographic order of bytes (so without repetitions). -/
def StrictlySorted (l : List Bytes) : Prop := l.Pairwise (· < ·)

/-- The name with its first letter, if it is one of `a` to `z`, replaced by the upper-case letter. -/
def capitalised : Bytes → Bytes
  | [] => []
  | c :: cs => (if 'a'.toNat ≤ c.toNat ∧ c.toNat ≤ 'z'.toNat then UInt8.ofNat (c.toNat - 'a'.toNat + 'A'.toNat) else c) :: cs

/-- The name with every letter `A` to `Z` replaced by the lower-case letter. -/
def lowered (s : Bytes) : Bytes :=
  s.map fun c => if 'A'.toNat ≤ c.toNat ∧ c.toNat ≤ 'Z'.toNat then UInt8.ofNat (c.toNat - 'A'.toNat + 'a'.toNat) else c

/-- A byte of ASCII white space (space, and tab to carriage return). -/
def IsSpace (c : UInt8) : Prop := c = 32 ∨ (9 ≤ c.toNat ∧ c.toNat ≤ 13)

/-- A comment the generator cannot handle: an empty one (or, not possible in valid UTF-8, one that starts in the middle of a
character). -/
def DComment.Panics (c : DComment) : Prop := c.body = [] ∨ ∃ b s, c.body = b :: s ∧ IsCont b

end PP.Gen
