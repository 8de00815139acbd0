import Verif.Model.Publisher
import Verif.Spec.Tree
import Verif.Spec.Depth

/-! # Specification: a forest written out as a table of nodes, and as printed lines

Trees are numbered in pre-order: a tree that starts at key `k` has its subtrees at `k + 1, …`, one after the other. -/
namespace PP
variable {R : Type}

/-- The keys of the roots of a forest that starts at key `k`. -/
def Tree.roots (k : Nat) : List (Tree R) → List Nat
  | [] => []
  | t :: ts => k :: roots (k + t.size) ts

/-- The nodes of a forest that starts at key `k`, in the order of their keys. -/
def Tree.layout (k : Nat) : List (Tree R) → List (Node R)
  | [] => []
  | .node r span kids :: ts =>
    ⟨k, r, (span.getD (0, 0)).1, (span.getD (0, 0)).2, span.isSome, roots (k + 1) kids⟩ ::
      (layout (k + 1) kids ++ layout (k + 1 + Tree.size.sizeL kids) ts)

/-- The lines that show a forest that starts at key `k`, indented by `d`. -/
def Tree.printout (d k : Nat) : List (Tree R) → List (Publisher.Line R)
  | [] => []
  | .node r span kids :: ts =>
    .node d false k r (span.getD (0, 0)).1 (span.getD (0, 0)).2 span.isSome kids.length ::
      (printout (d + 1) (k + 1) kids ++ printout d (k + 1 + Tree.size.sizeL kids) ts)

end PP
