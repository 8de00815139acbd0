import Verif.Spec.Iterate

/-! # Specification: the syntax trees of directly left-recursive grammars

`LRT rep body lr src pre e p b q ts`: evaluating `e` at `p`, as part of a rule invocation whose forest so far is `pre`, gives
`(b, q)` and appends the forest `ts`.  It is `PegT` (Spec/Peg.lean) for everything but left-recursive references; a
left-recursive rule `A = (A, b) / a` matched at `p` contributes one tree that nests to the left: the innermost node is the
match of `a`, and each match of `b` wraps the tree so far as its first child. -/
namespace PP
variable {R : Type}

mutual
inductive LRT (rep : Prop) (body : R → Expr R) (lr : R → Option (LRDecl R)) (src : Source) :
    List (Tree R) → Expr R → Nat → Bool → Nat → List (Tree R) → Prop where
  | terminal {pre c p b q} : Peg body src (.terminal c) p b q → LRT rep body lr src pre (.terminal c) p b q []
  | range {pre lo hi p b q} : Peg body src (.matchRange lo hi) p b q → LRT rep body lr src pre (.matchRange lo hi) p b q []
  | string {pre d p b q} : Peg body src (.stringTerminal d) p b q → LRT rep body lr src pre (.stringTerminal d) p b q []
  | seq_ok {pre a c p q r ts us} : LRT rep body lr src pre a p true q ts → LRT rep body lr src (pre ++ ts) c q true r us →
      LRT rep body lr src pre (.sequence a c) p true r (ts ++ us)
  | seq_fail1 {pre a c p q ts} : LRT rep body lr src pre a p false q ts → LRT rep body lr src pre (.sequence a c) p false p ts
  | seq_fail2 {pre a c p q r ts us} : LRT rep body lr src pre a p true q ts →
      LRT rep body lr src (pre ++ ts) c q false r us → LRT rep body lr src pre (.sequence a c) p false p (ts ++ us)
  | choice_left {pre a c p q ts} : LRT rep body lr src pre a p true q ts →
      LRT rep body lr src pre (.orderedChoice a c) p true q ts
  | choice_right {pre a c p q r ts us} : LRT rep body lr src pre a p false q ts →
      LRT rep body lr src (pre ++ ts) c p true r us → LRT rep body lr src pre (.orderedChoice a c) p true r (ts ++ us)
  | choice_fail {pre a c p q r ts us} : LRT rep body lr src pre a p false q ts →
      LRT rep body lr src (pre ++ ts) c p false r us → LRT rep body lr src pre (.orderedChoice a c) p false p (ts ++ us)
  | and_ok {pre e p q ts} : LRT rep body lr src pre e p true q ts → LRT rep body lr src pre (.andPredicate e) p true p ts
  | and_fail {pre e p q ts} : LRT rep body lr src pre e p false q ts → LRT rep body lr src pre (.andPredicate e) p false p ts
  | not_ok {pre e p q ts} : LRT rep body lr src pre e p false q ts → LRT rep body lr src pre (.notPredicate e) p true p ts
  | not_fail {pre e p q ts} : LRT rep body lr src pre e p true q ts → LRT rep body lr src pre (.notPredicate e) p false p ts
  | opt_some {pre e p q ts} : LRT rep body lr src pre e p true q ts → LRT rep body lr src pre (.optional e) p true q ts
  | opt_none {pre e p q ts} : LRT rep body lr src pre e p false q ts → LRT rep body lr src pre (.optional e) p true p ts
  | star_stop {pre e p q ts} : LRT rep body lr src pre e p false q ts → LRT rep body lr src pre (.zeroOrMore e) p true p ts
  | star_step {pre e p q r ts us} : LRT rep body lr src pre e p true q ts →
      LRT rep body lr src (pre ++ ts) (.zeroOrMore e) q true r us → LRT rep body lr src pre (.zeroOrMore e) p true r (ts ++ us)
  | plus_ok {pre e p q r ts us} : LRT rep body lr src pre e p true q ts →
      LRT rep body lr src (pre ++ ts) (.zeroOrMore e) q true r us → LRT rep body lr src pre (.oneOrMore e) p true r (ts ++ us)
  | plus_fail {pre e p q ts} : LRT rep body lr src pre e p false q ts → LRT rep body lr src pre (.oneOrMore e) p false p ts
  | sub_ok {pre e p q ts} : LRT rep body lr src pre e p true q ts → LRT rep body lr src pre (.subexpression e) p true q ts
  | sub_fail {pre e p q ts} : LRT rep body lr src pre e p false q ts → LRT rep body lr src pre (.subexpression e) p false p ts
  | ref {pre r p b q ts} : LRT rep body lr src [] (body r) p b q ts →
      LRT rep body lr src pre (.varName r) p b q [Tree.mk r p b q ts]
  | inl {pre r p b q ts} : LRT rep body lr src pre (body r) p b q ts → LRT rep body lr src pre (.inlined r) p b q ts
  /-- a left-recursive rule that matches: the tree grown as far as possible -/
  | lr_ok {pre A d p q t} : lr A = some d → Grown rep body lr src A d p q t →
      Peg (iterBody body lr) src d.tail.deLR q false q → LRT rep body lr src pre (.varNameLR d.involved A) p true q [t]
  /-- a left-recursive rule that does not match: a failed node without children -/
  | lr_fail {pre A d p} : lr A = some d → Peg (iterBody body lr) src d.first.deLR p false p →
      LRT rep body lr src pre (.varNameLR d.involved A) p false p [.node A none []]
  /-- a left-recursive reference whose tree the current node already has among its children is not added again -/
  | lr_dup {pre A d p b q t} : lr A = some d → t ∈ pre → LRT rep body lr src [] (.varNameLR d.involved A) p b q [t] →
      LRT rep body lr src pre (.varNameLR d.involved A) p b q []
/-- `Grown … A d p q t`: `t` is a tree of the left-recursive rule `A = (A, d.tail) / d.first` for `p..q`. -/
inductive Grown (rep : Prop) (body : R → Expr R) (lr : R → Option (LRDecl R)) (src : Source) :
    R → LRDecl R → Nat → Nat → Tree R → Prop where
  | seed {A d p q ts} : LRT rep body lr src [] d.first p true q ts → Grown rep body lr src A d p q (.node A (some (p, q)) ts)
  | grow {A d p q t q' us} : Grown rep body lr src A d p q t → LRT rep body lr src [t] d.tail q true q' us →
      Grown rep body lr src A d p q' (.node A (some (p, q')) (t :: us))
  /-- `rep`: the rule was grown at `p` before; the first node then keeps the old tree and the failed attempt to extend it -/
  | again {A d p q t q' us ts} : rep → Grown rep body lr src A d p q t → LRT rep body lr src [t] d.tail q false q us →
      LRT rep body lr src (t :: us) d.first p true q' ts →
      Grown rep body lr src A d p q' (.node A (some (p, q')) (t :: (us ++ ts)))
end

end PP
