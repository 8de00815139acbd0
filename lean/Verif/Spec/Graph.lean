import Verif.Model.Publisher
import Verif.Spec.Tree

/-! # Specification: the node store as a graph -/
namespace PP
variable {R : Type}

/-- `Below p k j`: key `j` is a proper descendant of key `k` through the child lists. -/
inductive Publisher.Below (p : Publisher R) : Nat → Nat → Prop where
  | child {k nd c} : p.nodes[k]? = some nd → c ∈ nd.children → Below p k c
  | step {k j nd c} : Below p k j → p.nodes[j]? = some nd → c ∈ nd.children → Below p k c

/-- The (rule, start, end, result) data of a node. -/
def Node.data (nd : Node R) : R × Nat × Nat × Bool := (nd.rule, nd.start, nd.stop, nd.result)

/-- A key unfolds to a tree, spelled out node by node: same rule, same span (none for failed nodes), and the children
unfold in order. -/
inductive Publisher.Unfolds (p : Publisher R) : Nat → Tree R → Prop where
  | mk {k nd kids} : p.nodes[k]? = some nd → kids.length = nd.children.length →
      (∀ (i : Nat) c t, nd.children[i]? = some c → kids[i]? = some t → Unfolds p c t) →
      Unfolds p k (Tree.node nd.rule (if nd.result then some (nd.start, nd.stop) else none) kids)

end PP
