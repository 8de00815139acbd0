import Verif.Model.Gen.Text
import Verif.Model.Grammars.Dsl
import Verif.Spec.Tree

/-! # Specification: grammar files

The concrete syntax of grammar files as data: what constructs there are (README.md "How to write a grammar file",
parser/Grammar.dsl), how they are written (`text`), and the tree of rule invocations a reader should build (`tree`).
Only the names of the DSL's rules (`Dsl`) and the type of trees are taken from elsewhere.

Every place where the DSL allows white space carries the white space that was written, so `text` covers every layout. -/
namespace PP.Gen

/-- White space of the DSL: space, newline, carriage return, tab. -/
def IsWs (w : Bytes) : Prop := ∀ c ∈ w, c = 32 ∨ c = 10 ∨ c = 13 ∨ c = 9

def IsLetter (c : UInt8) : Prop := (97 ≤ c.toNat ∧ c.toNat ≤ 122) ∨ (65 ≤ c.toNat ∧ c.toNat ≤ 90)

/-- Rule and hook names: a letter followed by letters and underscores. -/
def IsName : Bytes → Prop
  | [] => False
  | c :: cs => IsLetter c ∧ ∀ d ∈ cs, IsLetter d ∨ d = 95

def IsDigit (c : UInt8) : Prop := 48 ≤ c.toNat ∧ c.toNat ≤ 57
def IsHexDigit (c : UInt8) : Prop := (48 ≤ c.toNat ∧ c.toNat ≤ 57) ∨ (65 ≤ c.toNat ∧ c.toNat ≤ 70)

/-- Digits of a hexadecimal literal. -/
def IsHex (ds : Bytes) : Prop := ds ≠ [] ∧ ∀ d ∈ ds, IsHexDigit d

/-- A decimal literal. -/
def IsInt : Bytes → Prop
  | [] => False
  | c :: cs => (49 ≤ c.toNat ∧ c.toNat ≤ 57) ∧ ∀ d ∈ cs, IsDigit d

/-- A run of `n` one-byte nodes of rule `r` from `p` on. -/
def leaves (r : Dsl) (p : Nat) : Nat → List (Tree Dsl)
  | 0 => []
  | n + 1 => .node r (some (p, p + 1)) [] :: leaves r (p + 1) n

/-- `'c'`, `'\n'` (also `r`, `t`), `''` -/
inductive DTerm where
  | chr (c : UInt8)
  | esc (c : UInt8)
  | eps
  deriving DecidableEq

def DTerm.WF : DTerm → Prop
  | .esc c => c = 110 ∨ c = 114 ∨ c = 116
  | _ => True
def DTerm.text : DTerm → Bytes
  | .chr c => [39, c, 39]
  | .esc c => [39, 92, c, 39]
  | .eps => [39, 39]
/-- (The `ASCII` child of an escape and of `''` is left behind by the first alternative, which reads one byte too far.) -/
def DTerm.tree (p : Nat) : DTerm → Tree Dsl
  | .chr _ => .node .r_terminal (some (p, p + 3)) (leaves .r_ascii (p + 1) 1)
  | .esc _ => .node .r_terminal (some (p, p + 4)) (leaves .r_ascii (p + 1) 1)
  | .eps => .node .r_terminal (some (p, p + 2))
      (leaves .r_ascii (p + 1) 1 ++ [.node .r_epsilon (some (p, p + 2)) []])

/-- `0x` followed by digits -/
def hexText (ds : Bytes) : Bytes := 48 :: 120 :: ds
def hexTree (p : Nat) (ds : Bytes) : Tree Dsl :=
  .node .r_hex (some (p, p + 2 + ds.length)) (leaves .r_hexval (p + 2) ds.length)
def intTree (p : Nat) (ds : Bytes) : Tree Dsl :=
  .node .r_integer (some (p, p + ds.length))
    (.node .r_numnozero (some (p, p + 1)) [] :: leaves .r_num (p + 1) (ds.length - 1))

/-- A bound of a range. -/
inductive DBound where
  | term (t : DTerm)
  | int (ds : Bytes)
  | hex (ds : Bytes)
  deriving DecidableEq

def DBound.WF : DBound → Prop
  | .term t => t.WF
  | .int ds => IsInt ds
  | .hex ds => IsHex ds
def DBound.text : DBound → Bytes
  | .term t => t.text
  | .int ds => ds
  | .hex ds => hexText ds
def DBound.tree (p : Nat) : DBound → Tree Dsl
  | .term t => t.tree p
  | .int ds => intTree p ds
  | .hex ds => hexTree p ds

/-- A string terminal: `"..."` (two or more bytes), a hexadecimal or a decimal literal. -/
inductive DStr where
  | quoted (s : Bytes)
  | hex (ds : Bytes)
  | int (ds : Bytes)
  deriving DecidableEq

def DStr.WF : DStr → Prop
  | .quoted s => 2 ≤ s.length ∧ ∀ c ∈ s, c ≠ 34
  | .hex ds => IsHex ds
  | .int ds => IsInt ds
def DStr.text : DStr → Bytes
  | .quoted s => 34 :: s ++ [34]
  | .hex ds => hexText ds
  | .int ds => ds
def DStr.tree (p : Nat) : DStr → Tree Dsl
  | .quoted s => .node .r_stringterminal (some (p, p + (s.length + 2))) (leaves .r_ascii (p + 1) s.length)
  | .hex ds => .node .r_stringterminal (some (p, p + (ds.length + 2))) [hexTree p ds]
  | .int ds => .node .r_stringterminal (some (p, p + ds.length)) [intTree p ds]

/-- `&e`, `!e` -/
inductive PreOp where
  | and | not
  deriving DecidableEq
/-- `e+`, `e*`, `e?` -/
inductive PostOp where
  | plus | star | opt
  deriving DecidableEq
/-- `e , e`, `e / e` -/
inductive ChainOp where
  | seq | choice
  deriving DecidableEq

def PreOp.byte : PreOp → UInt8
  | .and => 38 | .not => 33
def PreOp.rule : PreOp → Dsl
  | .and => .r_and_predicate | .not => .r_not_predicate
def PostOp.byte : PostOp → UInt8
  | .plus => 43 | .star => 42 | .opt => 63
def PostOp.rule : PostOp → Dsl
  | .plus => .r_one_or_more | .star => .r_zero_or_more | .opt => .r_optional
def ChainOp.byte : ChainOp → UInt8
  | .seq => 44 | .choice => 47
def ChainOp.rule : ChainOp → Dsl
  | .seq => .r_sequence | .choice => .r_ordered_choice

mutual
/-- Right-hand sides: white space, then one atom or a chain of at least two. -/
inductive DRhs where
  | atom (w : Bytes) (a : DAtom)
  | chain (o : ChainOp) (w : Bytes) (a : DAtom) (as : DAtoms)
/-- The second and later members of a chain, each preceded by the separator and white space. -/
inductive DAtoms where
  | one (w : Bytes) (a : DAtom)
  | cons (w : Bytes) (a : DAtom) (as : DAtoms)
inductive DAtom where
  | plain (n : DNuc)
  | pre (o : PreOp) (n : DNuc)
  | post (o : PostOp) (n : DNuc) (w : Bytes)
/-- A core followed by white space. -/
inductive DNuc where
  | mk (c : DCore) (w : Bytes)
inductive DCore where
  | range (w0 w1 : Bytes) (lo hi : DBound) (w2 : Bytes)
  | hook (name : Bytes) (r : DRhs)
  | sub (r : DRhs)
  | term (t : DTerm)
  | str (s : DStr)
  | ref (name : Bytes)
end

mutual
def DRhs.text : DRhs → Bytes
  | .atom w a => w ++ a.text
  | .chain o w a as => w ++ (a.text ++ as.text o)
def DAtoms.text (o : ChainOp) : DAtoms → Bytes
  | .one w a => o.byte :: (w ++ a.text)
  | .cons w a as => o.byte :: (w ++ (a.text ++ as.text o))
def DAtom.text : DAtom → Bytes
  | .plain n => n.text
  | .pre o n => o.byte :: n.text
  | .post o n w => n.text ++ o.byte :: w
def DNuc.text : DNuc → Bytes
  | .mk c w => c.text ++ w
def DCore.text : DCore → Bytes
  | .range w0 w1 lo hi w2 => w0 ++ 91 :: (w1 ++ (lo.text ++ 46 :: 46 :: (hi.text ++ (w2 ++ [93]))))
  | .hook name r => name ++ 40 :: (r.text ++ [41])
  | .sub r => 40 :: (r.text ++ [41])
  | .term t => t.text
  | .str s => s.text
  | .ref name => 60 :: (name ++ [62])
end

/-- White space in front of the `[` of a range; it is written there only after a prefix operator, since everywhere else
the white space belongs to what comes before. -/
def DCore.lead : DCore → Bytes
  | .range w0 _ _ _ _ => w0
  | _ => []
def DNuc.lead : DNuc → Bytes
  | .mk c _ => c.lead

mutual
def DRhs.WF : DRhs → Prop
  | .atom w a => IsWs w ∧ a.WF
  | .chain _ w a as => IsWs w ∧ a.WF ∧ as.WF
def DAtoms.WF : DAtoms → Prop
  | .one w a => IsWs w ∧ a.WF
  | .cons w a as => IsWs w ∧ a.WF ∧ as.WF
def DAtom.WF : DAtom → Prop
  | .plain n => n.WF ∧ n.lead = []
  | .pre _ n => n.WF
  | .post _ n w => n.WF ∧ n.lead = [] ∧ IsWs w
def DNuc.WF : DNuc → Prop
  | .mk c w => c.WF ∧ IsWs w
def DCore.WF : DCore → Prop
  | .range w0 w1 lo hi w2 => IsWs w0 ∧ IsWs w1 ∧ lo.WF ∧ hi.WF ∧ IsWs w2
  | .hook name r => IsName name ∧ r.WF
  | .sub r => r.WF
  | .term t => t.WF
  | .str s => s.WF
  | .ref name => IsName name
end

mutual
def DRhs.tree (p : Nat) : DRhs → Tree Dsl
  | .atom w a => .node .r_rhs (some (p, p + (DRhs.atom w a).text.length)) [a.tree (p + w.length)]
  | .chain o w a as => .node .r_rhs (some (p, p + (DRhs.chain o w a as).text.length))
      [.node o.rule (some (p + w.length, p + (DRhs.chain o w a as).text.length))
        (a.tree (p + w.length) :: as.trees o (p + w.length + a.text.length))]
def DAtoms.trees (o : ChainOp) (p : Nat) : DAtoms → List (Tree Dsl)
  | .one w a => [a.tree (p + 1 + w.length)]
  | .cons w a as => a.tree (p + 1 + w.length) :: as.trees o (p + 1 + w.length + a.text.length)
def DAtom.tree (p : Nat) : DAtom → Tree Dsl
  | .plain n => .node .r_atom (some (p, p + n.text.length)) [n.tree p]
  | .pre o n => .node .r_atom (some (p, p + (n.text.length + 1)))
      [.node o.rule (some (p, p + (n.text.length + 1))) [n.tree (p + 1)]]
  | .post o n w => .node .r_atom (some (p, p + (n.text.length + (w.length + 1))))
      [.node o.rule (some (p, p + (n.text.length + 1))) [n.tree p]]
def DNuc.tree (p : Nat) : DNuc → Tree Dsl
  | .mk c w => .node .r_nucleus (some (p, p + (DNuc.mk c w).text.length)) [c.tree p w]
/-- `w` is the white space after the core; a range takes it for itself. -/
def DCore.tree (p : Nat) (w : Bytes) : DCore → Tree Dsl
  | .range w0 w1 lo hi w2 =>
    .node .r_orderedchoicematchrange (some (p, p + ((DCore.range w0 w1 lo hi w2).text.length + w.length)))
      [lo.tree (p + w0.length + 1 + w1.length), hi.tree (p + w0.length + 1 + w1.length + lo.text.length + 2)]
  | .hook name r => .node .r_hooked_call (some (p, p + (DCore.hook name r).text.length)) [r.tree (p + name.length + 1)]
  | .sub r => .node .r_subexpression (some (p, p + (DCore.sub r).text.length)) [r.tree (p + 1)]
  | .term t => t.tree p
  | .str s => s.tree p
  | .ref name => .node .r_var_name_ref (some (p, p + (name.length + 2))) []
end

/-- What stands between a rule's name and `=`: white space, or white space, `Inline`, white space. -/
inductive DSep where
  | plain (w : Bytes)
  | inline (w w' : Bytes)
  deriving DecidableEq

def inlineText : Bytes := [73, 110, 108, 105, 110, 101]
def DSep.text : DSep → Bytes
  | .plain w => w
  | .inline w w' => w ++ (inlineText ++ w')
def DSep.WF : DSep → Prop
  | .plain w => IsWs w
  | .inline w w' => IsWs w ∧ IsWs w'
def DSep.isInline : DSep → Bool
  | .plain _ => false
  | .inline _ _ => true

/-- `#...#` followed by white space -/
structure DComment where
  body : Bytes
  w : Bytes
  deriving DecidableEq
def DComment.text (c : DComment) : Bytes := 35 :: (c.body ++ 35 :: c.w)
def DComment.WF (c : DComment) : Prop := (∀ b ∈ c.body, b ≠ 35) ∧ IsWs c.w
def DComment.tree (p : Nat) (c : DComment) : Tree Dsl :=
  .node .r_comment (some (p, p + c.text.length)) (leaves .r_ascii (p + 1) c.body.length)

/-- `<name> Inline = rhs; #comment# ...` -/
structure DRule where
  name : Bytes
  sep : DSep
  rhs : DRhs
  /-- white space after `;` -/
  w : Bytes
  comments : List DComment

def commentsText : List DComment → Bytes
  | [] => []
  | c :: cs => c.text ++ commentsText cs
def commentsTree (p : Nat) : List DComment → List (Tree Dsl)
  | [] => []
  | c :: cs => c.tree p :: commentsTree (p + c.text.length) cs

def DRule.text (r : DRule) : Bytes :=
  60 :: (r.name ++ 62 :: (r.sep.text ++ 61 :: (r.rhs.text ++ 59 :: (r.w ++ commentsText r.comments))))

def DRule.WF (r : DRule) : Prop :=
  IsName r.name ∧ r.sep.WF ∧ r.rhs.WF ∧ IsWs r.w ∧ ∀ c ∈ r.comments, c.WF

/-- White space after `=` belongs to the rule, not to its right-hand side. -/
def DRhs.lead : DRhs → Bytes
  | .atom w _ => w
  | .chain _ w _ _ => w
/-- The right-hand side without its leading white space. -/
def DRhs.strip : DRhs → DRhs
  | .atom _ a => .atom [] a
  | .chain o _ a as => .chain o [] a as

def DRule.lhsTree (p : Nat) (r : DRule) : Tree Dsl :=
  match r.sep with
  | .plain _ => .node .r_lhs (some (p, p + (r.name.length + 2)))
      [.node .r_var_name_decl (some (p, p + (r.name.length + 2))) []]
  | .inline w w' => .node .r_lhs (some (p, p + (r.name.length + 2) + (DSep.inline w w').text.length))
      [.node .r_var_name_decl (some (p, p + (r.name.length + 2))) [],
       .node .r_semantic_instructions (some (p + (r.name.length + 2) + w.length, p + (r.name.length + 2) + w.length + 6))
        [.node .r_inline (some (p + (r.name.length + 2) + w.length, p + (r.name.length + 2) + w.length + 6)) []]]

/-- Start of the right-hand side (after the white space that follows `=`). -/
def DRule.rhsStart (p : Nat) (r : DRule) : Nat := p + (r.name.length + 2) + r.sep.text.length + 1 + r.rhs.lead.length

def DRule.tree (p : Nat) (r : DRule) : Tree Dsl :=
  .node .r_rule (some (p, p + r.text.length))
    (r.lhsTree p :: r.rhs.strip.tree (r.rhsStart p) ::
      commentsTree (r.rhsStart p + r.rhs.strip.text.length + 1 + r.w.length) r.comments)

/-- A grammar file: its rules, one after the other. -/
abbrev DGrammar := List DRule

def DGrammar.text : DGrammar → Bytes
  | [] => []
  | r :: rs => r.text ++ DGrammar.text rs
def DGrammar.trees (p : Nat) : DGrammar → List (Tree Dsl)
  | [] => []
  | r :: rs => r.tree p :: DGrammar.trees (p + r.text.length) rs
def DGrammar.WF (g : DGrammar) : Prop := ∀ r ∈ g, r.WF

end PP.Gen
