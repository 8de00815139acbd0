import Verif.Model.Out

/-! # Model of parser/src/publisher.rs (the syntax-node store) -/
namespace PP

/-- parser/src/publisher.rs:282-292 `struct Node`; keys (`Key(u32)`, keys.rs:1-2) are natural numbers. -/
structure Node (R : Type) where
  index : Nat
  rule : R
  start : Nat
  stop : Nat
  result : Bool
  children : List Nat
  deriving DecidableEq, Repr

/-- parser/src/publisher.rs:12-14 `struct BasicPublisher` (the capacity hint is not modelled). -/
structure Publisher (R : Type) where
  nodes : List (Node R)
  deriving DecidableEq, Repr

namespace Publisher
variable {R : Type}

/-- parser/src/publisher.rs:178-180 `get_node` (index panics when out of range) -/
def getNode (p : Publisher R) (k : Nat) : Out (Node R) := Out.ofOption .indexOutOfBounds p.nodes[k]?

/-- `get_mut_node` (publisher.rs:182-184) followed by an in-place change. -/
def modify (p : Publisher R) (k : Nat) (f : Node R → Node R) : Out (Publisher R) :=
  match p.nodes[k]? with
  | none => .panic .indexOutOfBounds
  | some nd => .ok { p with nodes := p.nodes.set k (f nd) }

/-- parser/src/publisher.rs:62-81 `add_node`.  `try_into().unwrap()` panics when the key does not fit `u32`. -/
def addNode (p : Publisher R) (rule : R) (start stop : Nat) (result : Bool) : Out (Nat × Publisher R) :=
  if p.nodes.length < 4294967296 then
    .ok (p.nodes.length,
      { p with nodes := p.nodes ++ [⟨p.nodes.length, rule, start, stop, result, []⟩] })
  else .panic .keyOverflow

/-- parser/src/publisher.rs:46-56 `new`: one root node (`Rules::Grammar`, 0, 0, true).
`add_node` cannot overflow on the empty vector, so its result is written directly. -/
def new (grammar : R) : Publisher R := { nodes := [⟨0, grammar, 0, 0, true, []⟩] }

/-- parser/src/publisher.rs:58-60 `clear_tree` -/
def clearTree (_ : Publisher R) : Publisher R := { nodes := [] }

/-- parser/src/publisher.rs:42-44 `clear_node_of_children` -/
def clearNodeOfChildren (p : Publisher R) (k : Nat) : Out (Publisher R) :=
  p.modify k fun nd => { nd with children := [] }

/-- parser/src/publisher.rs:83-91 `connect` (with the debug assertion, as in a debug build) -/
def connect (p : Publisher R) (parent child : Nat) : Out (Publisher R) :=
  if parent = child then .panic .debugAssert
  else p.modify parent fun nd => { nd with children := nd.children ++ [child] }

/-- parser/src/publisher.rs:92-106 `connect_front` -/
def connectFront (p : Publisher R) (parent child : Nat) : Out (Publisher R) :=
  if parent = child then .panic .debugAssert
  else p.modify parent fun nd => { nd with children := child :: nd.children }

/-- parser/src/publisher.rs:107-115 `connect_if_not_connected` (no debug assertion here) -/
def connectIfNotConnected (p : Publisher R) (parent child : Nat) : Out (Publisher R) :=
  p.modify parent fun nd =>
    if nd.children.contains child then nd else { nd with children := nd.children ++ [child] }

/-- The loop of `disconnect` (publisher.rs:118-123): the position of the *last* occurrence. -/
def lastPos (child : Nat) : Nat → List Nat → Option Nat → Option Nat
  | _, [], acc => acc
  | i, c :: cs, acc => lastPos child (i + 1) cs (if c = child then some i else acc)

/-- parser/src/publisher.rs:116-130 `disconnect` -/
def disconnect (p : Publisher R) (parent child : Nat) : Out (Publisher R) :=
  p.modify parent fun nd =>
    match lastPos child 0 nd.children none with
    | none => nd
    | some i => { nd with children := nd.children.eraseIdx i }

/-- parser/src/publisher.rs:132-134 -/
def setNodeStart (p : Publisher R) (k start : Nat) : Out (Publisher R) :=
  p.modify k fun nd => { nd with start := start }
/-- parser/src/publisher.rs:135-137 -/
def setNodeStop (p : Publisher R) (k stop : Nat) : Out (Publisher R) :=
  p.modify k fun nd => { nd with stop := stop }
/-- parser/src/publisher.rs:138-140 -/
def setNodeResult (p : Publisher R) (k : Nat) (result : Bool) : Out (Publisher R) :=
  p.modify k fun nd => { nd with result := result }

/-- parser/src/publisher.rs:186-200 `clear_false_kernel`; the recursion over the node graph takes fuel. -/
def clearFalseKernel (self : Publisher R) : Nat → Publisher R → Nat → Nat → Out (Publisher R)
  | 0, _, _, _ => .oof
  | n + 1, newTree, parent, index => do
    let node ← self.getNode index
    if node.result && node.start != node.stop then do
      let (childIndex, newTree) ← newTree.addNode node.rule node.start node.stop node.result
      let newTree ← newTree.connect parent childIndex
      node.children.foldlM (fun t i => clearFalseKernel self n t childIndex i) newTree
    else
      .ok newTree

/-- parser/src/publisher.rs:153-174 `clear_false`: a fresh tree (root 0), then, if the old root is true, an extra
unconnected copy of it, then the surviving children below key 0. -/
def clearFalse (grammar : R) (fuel : Nat) (self : Publisher R) : Out (Publisher R) := do
  let newTree := Publisher.new grammar
  let node ← self.getNode 0
  if node.result then do
    let (_, newTree) ← newTree.addNode node.rule node.start node.stop node.result
    node.children.foldlM (fun t i => clearFalseKernel self fuel t 0 i) newTree
  else
    .ok newTree

/-- parser/src/publisher.rs:294-328 `PartialEq for Node`: rule, start, end, result and *number* of children
(the diagnostics it prints are not modelled). -/
def nodeEq [DecidableEq R] (a b : Node R) : Bool :=
  if a.rule ≠ b.rule then false
  else if a.start ≠ b.start then false
  else if a.stop ≠ b.stop then false
  else if a.result ≠ b.result then false
  else if a.children.length ≠ b.children.length then false
  else true

/-- The `for index in range(0, len)` loop of `partial_eq_kernel` (publisher.rs:27-36) over the two child lists;
`index` is the loop variable and `m` the number of iterations left. -/
def eqChildren (rec : Nat → Nat → Out Bool) (as bs : List Nat) : Nat → Nat → Out Bool
  | 0, _ => .ok true
  | m + 1, index =>
    if as.length ≠ bs.length then .ok false
    else do
      let a ← Out.ofOption .indexOutOfBounds as[index]?
      let b ← Out.ofOption .indexOutOfBounds bs[index]?
      let r ← rec a b
      if !r then .ok false else eqChildren rec as bs m (index + 1)

/-- parser/src/publisher.rs:23-41 `partial_eq_kernel` -/
def partialEqKernel [DecidableEq R] (self other : Publisher R) : Nat → Nat → Nat → Out Bool
  | 0, _, _ => .oof
  | n + 1, i, j => do
    let a ← self.getNode i
    let b ← other.getNode j
    if nodeEq a b then
      eqChildren (partialEqKernel self other n) a.children b.children a.children.length 0
    else .ok false

/-- parser/src/publisher.rs:16-20 `PartialEq for BasicPublisher` -/
def eq [DecidableEq R] (fuel : Nat) (self other : Publisher R) : Out Bool :=
  partialEqKernel self other fuel 0 0

/-- What `print` writes: a node line (publisher.rs:353-364; `red` = wrapped in the ANSI escape) or the Key(0) error line. -/
inductive Line (R : Type) where
  | node (indent : Nat) (red : Bool) (index : Nat) (rule : R) (start stop : Nat) (result : Bool) (nchildren : Nat)
  | error
  deriving DecidableEq, Repr

/-- `Node::print` (publisher.rs:353-364) -/
def nodeLine (indent : Nat) (red : Bool) (nd : Node R) : Line R :=
  .node indent red nd.index nd.rule nd.start nd.stop nd.result nd.children.length

/-- The child loop shared by the three print kernels (publisher.rs:217-229, 240-252, 266-278). -/
def printChildren (rec : Nat → Out (List (Line R))) : List Nat → Out (List (Line R))
  | [] => .ok []
  | c :: cs =>
    if c = 0 then .ok [.error]
    else do
      let a ← rec c
      let b ← printChildren rec cs
      .ok (a ++ b)

/-- parser/src/publisher.rs:211-230 `print_kernel_true` -/
def printTrue (p : Publisher R) : Nat → Nat → Nat → Out (List (Line R))
  | 0, _, _ => .oof
  | n + 1, k, indent => do
    let nd ← p.getNode k
    if !nd.result then .ok []
    else do
      let ls ← printChildren (fun c => printTrue p n c (indent + 1)) nd.children
      .ok (nodeLine indent false nd :: ls)

/-- parser/src/publisher.rs:231-253 `print_kernel_false` -/
def printFalse (p : Publisher R) : Nat → Nat → Nat → Out (List (Line R))
  | 0, _, _ => .oof
  | n + 1, k, indent => do
    let nd ← p.getNode k
    if nd.result then .ok []
    else do
      let ls ← printChildren (fun c => printFalse p n c (indent + 1)) nd.children
      .ok (nodeLine indent true nd :: ls)

/-- parser/src/publisher.rs:255-279 `print_kernel_all` -/
def printAll (p : Publisher R) : Nat → Nat → Nat → Out (List (Line R))
  | 0, _, _ => .oof
  | n + 1, k, indent => do
    let nd ← p.getNode k
    let ls ← printChildren (fun c => printAll p n c (indent + 1)) nd.children
    .ok (nodeLine indent (!nd.result) nd :: ls)

/-- parser/src/publisher.rs:142-151 `print` -/
def print (p : Publisher R) (fuel k : Nat) (boolean : Option Bool) : Out (List (Line R)) :=
  if boolean = some true then printTrue p fuel k 0
  else if boolean = some false then printFalse p fuel k 0
  else printAll p fuel k 0

end Publisher
end PP
