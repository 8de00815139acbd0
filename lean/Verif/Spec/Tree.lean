/-! # Specification: abstract parse trees -/
namespace PP

/-- A rule invocation: `span = some (p, q)` if it matched `p..q`, `none` if it failed; `kids` are the invocations made
directly by its body, in order. -/
inductive Tree (R : Type) where
  | node (rule : R) (span : Option (Nat × Nat)) (kids : List (Tree R))

namespace Tree
variable {R : Type}

def rule : Tree R → R
  | node r _ _ => r
def span : Tree R → Option (Nat × Nat)
  | node _ s _ => s
def kids : Tree R → List (Tree R)
  | node _ _ k => k

/-- The invocation of rule `r` at `p` with outcome `(b, q)`. -/
def mk (r : R) (p : Nat) (b : Bool) (q : Nat) (kids : List (Tree R)) : Tree R :=
  node r (if b then some (p, q) else none) kids

/-- Drop failed invocations and empty matches, together with everything below them. -/
def prune : Tree R → List (Tree R)
  | node _ none _ => []
  | node r (some (p, q)) kids => if p = q then [] else [node r (some (p, q)) (pruneL kids)]
where
  pruneL : List (Tree R) → List (Tree R)
    | [] => []
    | t :: ts => prune t ++ pruneL ts

/-- `Has t s`: `s` is `t` or occurs below `t`. -/
inductive Has : Tree R → Tree R → Prop where
  | refl (t) : Has t t
  | step {t s c} : c ∈ t.kids → Has c s → Has t s

end Tree
/-- Number of nodes. -/
def Tree.size {R : Type} : Tree R → Nat
  | .node _ _ kids => 1 + sizeL kids
where sizeL : List (Tree R) → Nat
  | [] => 0
  | t :: ts => t.size + sizeL ts

end PP
