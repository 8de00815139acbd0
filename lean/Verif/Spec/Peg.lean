import Verif.Model.Interp
import Verif.Spec.Tree

/-! # Specification: parsing expression grammars (Ford 2004), without memoisation, keys or state

Only the grammar syntax `Expr` and the byte accessor `src.bytes` are taken from the model. -/
namespace PP
variable {R : Type}

/-- Bytes `p..q` of a source. -/
def Source.slice (src : Source) (p q : Nat) : List UInt8 := (src.bytes.drop p).take (q - p)

/-- The grammar uses neither left-recursive references nor hooked calls. -/
def Expr.Plain : Expr R → Prop
  | .andPredicate e | .notPredicate e | .oneOrMore e | .zeroOrMore e | .optional e | .subexpression e => e.Plain
  | .orderedChoice a b | .sequence a b => a.Plain ∧ b.Plain
  | .terminal _ | .stringTerminal _ | .matchRange _ _ | .varName _ | .inlined _ => True
  | .varNameLR _ _ => False
  | .hooked _ _ => False

/-- `Peg body src e p b q`: the parsing expression `e` at position `p` succeeds (`b = true`) ending at `q`, or fails
(`b = false`, `q = p`).  `n` is the number of bytes of the source that can be read. -/
inductive Peg (body : R → Expr R) (src : Source) : Expr R → Nat → Bool → Nat → Prop where
  | terminal_ok {c p} : p < src.len → src.bytes[p]? = some c → Peg body src (.terminal c) p true (p + 1)
  | terminal_fail {c p} : ¬ (p < src.len ∧ src.bytes[p]? = some c) → Peg body src (.terminal c) p false p
  | range_ok {lo hi p} {c : UInt8} : p < src.len → src.bytes[p]? = some c → lo ≤ c.toNat → c.toNat ≤ hi →
      Peg body src (.matchRange lo hi) p true (p + 1)
  | range_fail {lo hi p} :
      ¬ (∃ c : UInt8, p < src.len ∧ src.bytes[p]? = some c ∧ lo ≤ c.toNat ∧ c.toNat ≤ hi) →
      Peg body src (.matchRange lo hi) p false p
  | string_ok {d p} : d = [] ∨ p + d.length ≤ src.len → src.slice p (p + d.length) = d →
      Peg body src (.stringTerminal d) p true (p + d.length)
  | string_fail {d p} : ¬ ((d = [] ∨ p + d.length ≤ src.len) ∧ src.slice p (p + d.length) = d) →
      Peg body src (.stringTerminal d) p false p
  | seq_ok {a b p q r} : Peg body src a p true q → Peg body src b q true r → Peg body src (.sequence a b) p true r
  | seq_fail1 {a b p q} : Peg body src a p false q → Peg body src (.sequence a b) p false p
  | seq_fail2 {a b p q r} : Peg body src a p true q → Peg body src b q false r →
      Peg body src (.sequence a b) p false p
  | choice_left {a b p q} : Peg body src a p true q → Peg body src (.orderedChoice a b) p true q
  | choice_right {a b p q r} : Peg body src a p false q → Peg body src b p true r →
      Peg body src (.orderedChoice a b) p true r
  | choice_fail {a b p q r} : Peg body src a p false q → Peg body src b p false r →
      Peg body src (.orderedChoice a b) p false p
  | and_ok {e p q} : Peg body src e p true q → Peg body src (.andPredicate e) p true p
  | and_fail {e p q} : Peg body src e p false q → Peg body src (.andPredicate e) p false p
  | not_ok {e p q} : Peg body src e p false q → Peg body src (.notPredicate e) p true p
  | not_fail {e p q} : Peg body src e p true q → Peg body src (.notPredicate e) p false p
  | opt_some {e p q} : Peg body src e p true q → Peg body src (.optional e) p true q
  | opt_none {e p q} : Peg body src e p false q → Peg body src (.optional e) p true p
  | star_stop {e p q} : Peg body src e p false q → Peg body src (.zeroOrMore e) p true p
  | star_step {e p q r} : Peg body src e p true q → Peg body src (.zeroOrMore e) q true r →
      Peg body src (.zeroOrMore e) p true r
  | plus_ok {e p q r} : Peg body src e p true q → Peg body src (.zeroOrMore e) q true r →
      Peg body src (.oneOrMore e) p true r
  | plus_fail {e p q} : Peg body src e p false q → Peg body src (.oneOrMore e) p false p
  | sub_ok {e p q} : Peg body src e p true q → Peg body src (.subexpression e) p true q
  | sub_fail {e p q} : Peg body src e p false q → Peg body src (.subexpression e) p false p
  | ref {r p b q} : Peg body src (body r) p b q → Peg body src (.varName r) p b q
  | inl {r p b q} : Peg body src (body r) p b q → Peg body src (.inlined r) p b q

/-- The same, additionally recording the forest `ts` of rule invocations made by the expression, in order, including
failed ones.  An inlined rule leaves no node of its own. -/
inductive PegT (body : R → Expr R) (src : Source) : Expr R → Nat → Bool → Nat → List (Tree R) → Prop where
  | terminal_ok {c p} : p < src.len → src.bytes[p]? = some c → PegT body src (.terminal c) p true (p + 1) []
  | terminal_fail {c p} : ¬ (p < src.len ∧ src.bytes[p]? = some c) → PegT body src (.terminal c) p false p []
  | range_ok {lo hi p} {c : UInt8} : p < src.len → src.bytes[p]? = some c → lo ≤ c.toNat → c.toNat ≤ hi →
      PegT body src (.matchRange lo hi) p true (p + 1) []
  | range_fail {lo hi p} :
      ¬ (∃ c : UInt8, p < src.len ∧ src.bytes[p]? = some c ∧ lo ≤ c.toNat ∧ c.toNat ≤ hi) →
      PegT body src (.matchRange lo hi) p false p []
  | string_ok {d p} : d = [] ∨ p + d.length ≤ src.len → src.slice p (p + d.length) = d →
      PegT body src (.stringTerminal d) p true (p + d.length) []
  | string_fail {d p} : ¬ ((d = [] ∨ p + d.length ≤ src.len) ∧ src.slice p (p + d.length) = d) →
      PegT body src (.stringTerminal d) p false p []
  | seq_ok {a b p q r ts us} : PegT body src a p true q ts → PegT body src b q true r us →
      PegT body src (.sequence a b) p true r (ts ++ us)
  | seq_fail1 {a b p q ts} : PegT body src a p false q ts → PegT body src (.sequence a b) p false p ts
  | seq_fail2 {a b p q r ts us} : PegT body src a p true q ts → PegT body src b q false r us →
      PegT body src (.sequence a b) p false p (ts ++ us)
  | choice_left {a b p q ts} : PegT body src a p true q ts → PegT body src (.orderedChoice a b) p true q ts
  | choice_right {a b p q r ts us} : PegT body src a p false q ts → PegT body src b p true r us →
      PegT body src (.orderedChoice a b) p true r (ts ++ us)
  | choice_fail {a b p q r ts us} : PegT body src a p false q ts → PegT body src b p false r us →
      PegT body src (.orderedChoice a b) p false p (ts ++ us)
  | and_ok {e p q ts} : PegT body src e p true q ts → PegT body src (.andPredicate e) p true p ts
  | and_fail {e p q ts} : PegT body src e p false q ts → PegT body src (.andPredicate e) p false p ts
  | not_ok {e p q ts} : PegT body src e p false q ts → PegT body src (.notPredicate e) p true p ts
  | not_fail {e p q ts} : PegT body src e p true q ts → PegT body src (.notPredicate e) p false p ts
  | opt_some {e p q ts} : PegT body src e p true q ts → PegT body src (.optional e) p true q ts
  | opt_none {e p q ts} : PegT body src e p false q ts → PegT body src (.optional e) p true p ts
  | star_stop {e p q ts} : PegT body src e p false q ts → PegT body src (.zeroOrMore e) p true p ts
  | star_step {e p q r ts us} : PegT body src e p true q ts → PegT body src (.zeroOrMore e) q true r us →
      PegT body src (.zeroOrMore e) p true r (ts ++ us)
  | plus_ok {e p q r ts us} : PegT body src e p true q ts → PegT body src (.zeroOrMore e) q true r us →
      PegT body src (.oneOrMore e) p true r (ts ++ us)
  | plus_fail {e p q ts} : PegT body src e p false q ts → PegT body src (.oneOrMore e) p false p ts
  | sub_ok {e p q ts} : PegT body src e p true q ts → PegT body src (.subexpression e) p true q ts
  | sub_fail {e p q ts} : PegT body src e p false q ts → PegT body src (.subexpression e) p false p ts
  | ref {r p b q ts} : PegT body src (body r) p b q ts →
      PegT body src (.varName r) p b q [Tree.mk r p b q ts]
  | inl {r p b q ts} : PegT body src (body r) p b q ts → PegT body src (.inlined r) p b q ts

end PP
