import Verif.Model.Interp

/-! # Specification: what a call returns, whatever amount of fuel it needs -/
namespace PP
variable {R U : Type} [DecidableEq R]

/-- The closure `e`, called with parent key `k` at position `p` in state `st`, returns `(b, q)` and leaves state `st'`. -/
def Returns (P : Parser R U) (src : Source) (e : Expr R) (k p : Nat) (st : St R U) (b : Bool) (q : Nat) (st' : St R U) :
    Prop := ∃ n, eval P src n e k p st = .ok (b, q, st')

/-- Zero or more successive successful calls of `e`, each starting where the previous one ended, lead from `(p, st)` to
`(q, st')`. -/
inductive Matches (P : Parser R U) (src : Source) (e : Expr R) (k : Nat) : Nat → St R U → Nat → St R U → Prop where
  | nil {p st} : Matches P src e k p st p st
  | cons {p st m st1 q st'} : Returns P src e k p st true m st1 → Matches P src e k m st1 q st' →
      Matches P src e k p st q st'

end PP
