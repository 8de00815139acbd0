import Verif.Model.Publisher

/-! # Specification: a stored tree with all its data, keys forgotten; and a tree of keys -/
namespace PP
variable {R : Type}

/-- A finite ordered tree; every node carries (rule, start, end, result). -/
inductive DTree (R : Type) where
  | node (rule : R) (start stop : Nat) (result : Bool) (kids : List (DTree R))

/-- Number of nodes. -/
def DTree.size : DTree R → Nat
  | .node _ _ _ _ kids => 1 + sizeL kids
where sizeL : List (DTree R) → Nat
  | [] => 0
  | t :: ts => t.size + sizeL ts

/-- Key `k` of the store `p` reads as the tree `t`: the node exists, has the data of the root of `t`, and its children
read, in order, as the children of `t`. -/
inductive Publisher.Reads (p : Publisher R) : Nat → DTree R → Prop where
  | mk {k nd kids} : p.nodes[k]? = some nd → kids.length = nd.children.length →
      (∀ (i : Nat) c t, nd.children[i]? = some c → kids[i]? = some t → Reads p c t) →
      Reads p k (.node nd.rule nd.start nd.stop nd.result kids)

/-- A finite ordered tree of keys. -/
inductive KTree where
  | node (key : Nat) (kids : List KTree)

/-- Number of nodes. -/
def KTree.size : KTree → Nat
  | .node _ kids => 1 + sizeL kids
where sizeL : List KTree → Nat
  | [] => 0
  | t :: ts => t.size + sizeL ts

/-- The keys below `k`, following child lists. -/
inductive Publisher.Keys (p : Publisher R) : Nat → KTree → Prop where
  | mk {k nd kids} : p.nodes[k]? = some nd → kids.length = nd.children.length →
      (∀ (i : Nat) c t, nd.children[i]? = some c → kids[i]? = some t → Keys p c t) → Keys p k (.node k kids)

/-- Pre-order listing `(depth, key)` of the nodes that can be reached from the root through nodes satisfying `keep` only
(the root included). -/
def KTree.preorder (keep : Nat → Bool) (depth : Nat) : KTree → List (Nat × Nat)
  | .node k kids => if keep k then (depth, k) :: preorderL keep (depth + 1) kids else []
where preorderL (keep : Nat → Bool) (depth : Nat) : List KTree → List (Nat × Nat)
  | [] => []
  | t :: ts => t.preorder keep depth ++ preorderL keep depth ts

end PP
