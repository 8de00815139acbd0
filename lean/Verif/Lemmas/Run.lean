import Verif.Spec.Peg
import Verif.Spec.Cfg
import Verif.Spec.Calls

/-! # The nondeterministic run relation

`Run lr P src e p b q ts` over-approximates what `eval` may return for `e` at `p`, with the forest `ts` of node trees it
appends to the parent.  It is the PEG relation plus the extra answers left recursion and hooks can give. -/
namespace PP
variable {R U : Type}

inductive Run (lr : Prop) (body : R → Expr R) (src : Source) :
    Expr R → Nat → Bool → Nat → List (Tree R) → Prop where
  | terminal_ok {c p} : p < src.len → src.bytes[p]? = some c → Run lr body src (.terminal c) p true (p + 1) []
  | terminal_fail {c p} : ¬ (p < src.len ∧ src.bytes[p]? = some c) → Run lr body src (.terminal c) p false p []
  | range_ok {lo hi p} {c : UInt8} : p < src.len → src.bytes[p]? = some c → lo ≤ c.toNat → c.toNat ≤ hi →
      Run lr body src (.matchRange lo hi) p true (p + 1) []
  | range_fail {lo hi p} :
      ¬ (∃ c : UInt8, p < src.len ∧ src.bytes[p]? = some c ∧ lo ≤ c.toNat ∧ c.toNat ≤ hi) →
      Run lr body src (.matchRange lo hi) p false p []
  | string_ok {d p} : d = [] ∨ p + d.length ≤ src.len → src.slice p (p + d.length) = d →
      Run lr body src (.stringTerminal d) p true (p + d.length) []
  | string_fail {d p} : ¬ ((d = [] ∨ p + d.length ≤ src.len) ∧ src.slice p (p + d.length) = d) →
      Run lr body src (.stringTerminal d) p false p []
  | seq_ok {a b p q r ts us} : Run lr body src a p true q ts → Run lr body src b q true r us →
      Run lr body src (.sequence a b) p true r (ts ++ us)
  | seq_fail1 {a b p q ts} : Run lr body src a p false q ts → Run lr body src (.sequence a b) p false p ts
  | seq_fail2 {a b p q r ts us} : Run lr body src a p true q ts → Run lr body src b q false r us →
      Run lr body src (.sequence a b) p false p (ts ++ us)
  | choice_left {a b p q ts} : Run lr body src a p true q ts → Run lr body src (.orderedChoice a b) p true q ts
  | choice_right {a b p q r ts us} : Run lr body src a p false q ts → Run lr body src b p true r us →
      Run lr body src (.orderedChoice a b) p true r (ts ++ us)
  | choice_fail {a b p q r ts us} : Run lr body src a p false q ts → Run lr body src b p false r us →
      Run lr body src (.orderedChoice a b) p false p (ts ++ us)
  | and_ok {e p q ts} : Run lr body src e p true q ts → Run lr body src (.andPredicate e) p true p ts
  | and_fail {e p q ts} : Run lr body src e p false q ts → Run lr body src (.andPredicate e) p false p ts
  | not_ok {e p q ts} : Run lr body src e p false q ts → Run lr body src (.notPredicate e) p true p ts
  | not_fail {e p q ts} : Run lr body src e p true q ts → Run lr body src (.notPredicate e) p false p ts
  | opt_some {e p q ts} : Run lr body src e p true q ts → Run lr body src (.optional e) p true q ts
  | opt_none {e p q ts} : Run lr body src e p false q ts → Run lr body src (.optional e) p true p ts
  | star_stop {e p q ts} : Run lr body src e p false q ts → Run lr body src (.zeroOrMore e) p true p ts
  | star_step {e p q r ts us} : Run lr body src e p true q ts → Run lr body src (.zeroOrMore e) q true r us →
      Run lr body src (.zeroOrMore e) p true r (ts ++ us)
  | plus_ok {e p q r ts us} : Run lr body src e p true q ts → Run lr body src (.zeroOrMore e) q true r us →
      Run lr body src (.oneOrMore e) p true r (ts ++ us)
  | plus_fail {e p q ts} : Run lr body src e p false q ts → Run lr body src (.oneOrMore e) p false p ts
  | sub_ok {e p q ts} : Run lr body src e p true q ts → Run lr body src (.subexpression e) p true q ts
  | sub_fail {e p q ts} : Run lr body src e p false q ts → Run lr body src (.subexpression e) p false p ts
  | ref {r p b q ts} : Run lr body src (body r) p b q ts →
      Run lr body src (.varName r) p b q [Tree.mk r p b q ts]
  | inl {r p b q ts} : Run lr body src (body r) p b q ts → Run lr body src (.inlined r) p b q ts
  /-- a failed growth was recorded for this rule -/
  | ref_seed {r p} : lr → Run lr body src (.varName r) p false p [Tree.mk r p false p []]
  | lr_seed {inv r p} : lr → Run lr body src (.varNameLR inv r) p false p [Tree.mk r p false p []]
  /-- the recursive reference found no memo entry -/
  | lr_none {inv r p} : lr → Run lr body src (.varNameLR inv r) p false p []
  | lr_node {inv r p b q ts} : lr → Run lr body src (body r) p b q ts →
      Run lr body src (.varNameLR inv r) p b q [Tree.mk r p b q ts]
  /-- the recursive reference found a memo entry whose node was already connected to the parent -/
  | lr_dup {inv r p b q ts} : lr → Run lr body src (body r) p b q ts →
      Run lr body src (.varNameLR inv r) p b q []
  | hook_ret {n e p} : Run lr body src (.hooked n e) p false p []
  | hook_call {n e p p' b q b' q' ts us} : p ≤ p' → Run lr body src e p' b' q' us →
      Run lr body src (.hooked n e) p b q ts → Run lr body src (.hooked n e) p b q (us ++ ts)
  | hook_ok {n e p b q q' ts us} : Run lr body src e p true q' us →
      Run lr body src (.hooked n e) p b q ts → Run lr body src (.hooked n e) p true q' (us ++ ts)

end PP
