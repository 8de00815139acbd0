import Verif.Model.Gen.Text
import Verif.Model.Publisher
import Verif.Model.Grammars.Dsl

/-! # Model of generator/src/cycle_detector.rs

`HashMap` / `HashSet` iterations go through a `HashOrd`; the first element of the label identifies the loop, the second the
pass.  `LeftRecursive` has the single value `False`, so `is_rule_left_recursive` is a set of names. -/
namespace PP.Gen

/-- generator/src/cycle_detector.rs:22-29 `struct RuleCallTree` -/
structure RuleCallTree where
  rulesKeys : Map Nat
  rulesRhsKeys : Map Nat
  referenced : Map (List Bytes)
  notLR : List Bytes
  leftMost : Map (List Bytes)
  involved : Map (List Bytes)

def RuleCallTree.empty : RuleCallTree := ⟨[], [], [], [], [], []⟩

section tree
variable (tree : Publisher Dsl) (src : Bytes)

/-- `node.get_string(source)` (parser/src/publisher.rs:342-344) followed by `s[1..s.len() - 1]`
(generator/src/cycle_detector.rs:393-394, 399-400).  `s.len() - 1` panics (debug) for the empty string. -/
def innerString (nd : Node Dsl) : Out Bytes := do
  let s ← Source.strSlice src nd.start nd.stop
  if s.length = 0 then .panic .overflow else Source.strSlice s 1 (s.length - 1)

/-- generator/src/cycle_detector.rs:375-381 `get_rule_rhs_index` -/
def getRuleRhsIndex (nd : Node Dsl) : Out Nat :=
  if nd.rule ≠ .r_rule then .panic .debugAssert else Out.ofOption .indexOutOfBounds nd.children[1]?

/-- generator/src/cycle_detector.rs:383-395 `get_rules_name` -/
def getRulesName (nd : Node Dsl) : Out Bytes :=
  if nd.rule ≠ .r_rule then .panic .debugAssert
  else do
    let lhs ← Out.ofOption .indexOutOfBounds nd.children[0]?
    let lhs ← tree.getNode lhs
    if lhs.rule ≠ .r_lhs then .panic .debugAssert
    else do
      let decl ← Out.ofOption .indexOutOfBounds lhs.children[0]?
      let decl ← tree.getNode decl
      if decl.rule ≠ .r_var_name_decl then .panic .debugAssert else innerString src decl

/-- generator/src/cycle_detector.rs:397-401 `get_rule_ref_name` -/
def getRuleRefName (nd : Node Dsl) : Out Bytes :=
  if nd.rule ≠ .r_var_name_ref then .panic .debugAssert else innerString src nd

/-- generator/src/cycle_detector.rs:403-419 `get_rules_referenced_by_rule` -/
def getRulesReferencedByRule : Nat → Node Dsl → List Bytes → Out (List Bytes)
  | 0, _, _ => .oof
  | n + 1, node, refs =>
    node.children.foldlM (fun refs child => do
      let childNode ← tree.getNode child
      let refs ← (if childNode.rule = .r_var_name_ref then do
          let name ← getRuleRefName src childNode
          .ok (setInsert refs name)
        else .ok refs)
      getRulesReferencedByRule n childNode refs) refs

/-- generator/src/cycle_detector.rs:421-444 `walk_node_children` -/
def walkNodeChildren : Nat → Node Dsl → RuleCallTree → Out RuleCallTree
  | 0, _, _ => .oof
  | n + 1, node, t =>
    node.children.foldlM (fun t child => do
      let childNode ← tree.getNode child
      let t ← (if childNode.rule = .r_rule then do
          let name ← getRulesName tree src childNode
          let t := { t with rulesKeys := t.rulesKeys.insert name child }
          let rhs ← getRuleRhsIndex childNode
          let t := { t with rulesRhsKeys := t.rulesRhsKeys.insert name rhs }
          let refs ← getRulesReferencedByRule tree src n childNode []
          .ok { t with referenced := t.referenced.insert name refs }
        else .ok t)
      walkNodeChildren n childNode t) t

/-- generator/src/cycle_detector.rs:260-270: the inner loop of the `Sequence` case.  It looks at its own `child` (shadowing
the outer one) and has no effect except for looking nodes up. -/
def sequenceSkipLoop : List Nat → Out Unit
  | [] => .ok ()
  | c :: cs => do
    let nd ← tree.getNode c
    if nd.rule = .r_optional ∨ nd.rule = .r_zero_or_more then sequenceSkipLoop cs else .ok ()

/-- The rules handled by generator/src/cycle_detector.rs:286-304 (look into the first such child). -/
def isTransparent : Dsl → Bool
  | .r_atom | .r_rhs | .r_nucleus | .r_subexpression | .r_hooked_call | .r_one_or_more | .r_and_predicate
  | .r_not_predicate => true
  | _ => false

/-- The `for child in node_children` loop of generator/src/cycle_detector.rs:231-318; `rec` is the recursive call,
`all` the whole child list. -/
def leftMostLoop (rec : Node Dsl → List Bytes → Out (List Bytes)) (all : List Nat) :
    List Nat → List Bytes → Out (List Bytes)
  | [], acc => .ok acc
  | child :: rest, acc => do
    let childNode ← tree.getNode child
    if childNode.rule = .r_ordered_choice then
      -- 234-253: every child of the choice but the last
      if childNode.children.length = 0 then .panic .overflow
      else (childNode.children.take (childNode.children.length - 1)).foldlM (fun acc key => do
        let nd ← tree.getNode key
        rec nd acc) acc
    else if childNode.rule = .r_sequence then do
      -- 254-285
      sequenceSkipLoop tree all
      let again ← tree.getNode child
      if again.rule = .r_optional ∨ again.rule = .r_zero_or_more then .ok acc
      else rec again acc
    else if isTransparent childNode.rule then rec childNode acc
    else if childNode.rule = .r_var_name_ref then do
      let name ← getRuleRefName src childNode
      .ok (setInsert acc name)
    else leftMostLoop rec all rest acc

/-- generator/src/cycle_detector.rs:216-319 `get_left_most_called_rules_of_rule` (the rule name is only passed along) -/
def leftMostOf : Nat → Node Dsl → List Bytes → Out (List Bytes)
  | 0, _, _ => .oof
  | n + 1, node, acc => leftMostLoop tree src (leftMostOf n) node.children node.children acc

/-- generator/src/cycle_detector.rs:184-214 `get_left_most_called_rules_of_all_rules` -/
def leftMostOfAll (ord : HashOrd) (fuel : Nat) (t : RuleCallTree) : Out RuleCallTree :=
  let names := ((ord.perm [2] t.rulesKeys).map (·.1)).filter fun r => !t.notLR.contains r
  names.foldlM (fun t name => do
    let key ← Out.ofOption .indexOutOfBounds (t.rulesRhsKeys.get name)
    let node ← tree.getNode key
    if node.rule ≠ .r_rhs then .panic .debugAssert
    else do
      let lm ← leftMostOf tree src fuel node []
      .ok { t with leftMost := t.leftMost.insert name lm }) t

end tree

/-- generator/src/cycle_detector.rs:342-373 `loop_over_referenced_rules`, and (with another map) 156-183
`cleanup_left_most_called_rules`: mark a rule as not left recursive if all names in its set are marked.  (The test
`referenced_rules.is_empty()` of the first only shortcuts an empty loop.)  `lbl` names the loop, `pass` the pass. -/
def markPass (ord : HashOrd) (lbl pass : Nat) (m : Map (List Bytes)) (notLR : List Bytes) : List Bytes :=
  (ord.perm [lbl, pass] m).foldl (fun marked p =>
    if (ord.perm [lbl, pass, marked.length] p.2).all fun r => marked.contains r then setInsert marked p.1 else marked)
    notLR

/-- The `while l != len` loops of generator/src/cycle_detector.rs:321-340 and 140-154.  `l` is `none` for `usize::MAX`. -/
def markLoop (ord : HashOrd) (lbl : Nat) (m : Map (List Bytes)) : Nat → Option Nat → Nat → List Bytes → Out (List Bytes)
  | 0, _, _, _ => .oof
  | n + 1, l, pass, marked =>
    if l = some marked.length then .ok marked
    else markLoop ord lbl m n (some marked.length) (pass + 1) (markPass ord lbl pass m marked)

/-- generator/src/cycle_detector.rs:116-139 `create_involved_sets` -/
def createInvolvedSets (ord : HashOrd) (t : RuleCallTree) : RuleCallTree :=
  (ord.perm [4] t.leftMost).foldl (fun t p =>
    let s := (ord.perm [4, t.involved.length] p.2).foldl (fun s r =>
      if t.notLR.contains r then s else setInsert s r) []
    if s.isEmpty then t else { t with involved := t.involved.insert p.1 (setInsert s p.1) }) t

/-- generator/src/cycle_detector.rs:82-88 `involved_rule_count` -/
def involvedRuleCount (ord : HashOrd) (pass : Nat) (m : Map (List Bytes)) : Nat :=
  (ord.perm [6, pass] m).foldl (fun c p => c + p.2.length) 0

/-- `copied_set.union(subrule_involved_set).cloned().collect()` (generator/src/cycle_detector.rs:110) -/
def setUnion (a b : List Bytes) : List Bytes := b.foldl setInsert a

/-- generator/src/cycle_detector.rs:99-114 `merge_dependent_sets` -/
def mergeDependentSets (ord : HashOrd) (pass : Nat) (m : Map (List Bytes)) : Out (Map (List Bytes)) :=
  (ord.perm [5, pass] m).foldlM (fun acc p => do
    let s ← (ord.perm [5, pass, acc.length] p.2).foldlM (fun s r =>
      match m.get r with
      | none => .panic .explicit
      | some i => .ok (setUnion s i)) p.2
    .ok (acc.insert p.1 s)) m

/-- generator/src/cycle_detector.rs:90-98 `merge_dependent_sets_loop_until_no_change`; `last` is `none` for `usize::MAX`. -/
def mergeLoop (ord : HashOrd) : Nat → Option Nat → Nat → Map (List Bytes) → Out (Map (List Bytes))
  | 0, _, _, _ => .oof
  | n + 1, last, pass, m =>
    let current := involvedRuleCount ord pass m
    if last = some current then .ok m
    else do
      let m' ← mergeDependentSets ord pass m
      mergeLoop ord n (some current) (pass + 1) m'

/-- generator/src/cycle_detector.rs:31-81 `RuleCallTree::new` (the `println!`s are not modelled) -/
def RuleCallTree.build (tree : Publisher Dsl) (src : Bytes) (ord : HashOrd) (fuel : Nat) : Out RuleCallTree := do
  let node ← tree.getNode 0
  let t ← walkNodeChildren tree src fuel node .empty
  let marked ← markLoop ord 1 t.referenced fuel none 0 t.notLR
  let t := { t with notLR := marked }
  let t ← leftMostOfAll tree src ord fuel t
  let marked ← markLoop ord 3 t.leftMost fuel none 0 t.notLR
  let t := createInvolvedSets ord { t with notLR := marked }
  let m ← mergeLoop ord fuel none 0 t.involved
  .ok { t with involved := m }

/-- generator/src/cycle_detector.rs:6-14: `LeftRecursionDetector::new` and `get_left_recursion_rules` -/
def leftRecursionRules (tree : Publisher Dsl) (src : Bytes) (ord : HashOrd) (fuel : Nat) : Out (Map (List Bytes)) := do
  let t ← RuleCallTree.build tree src ord fuel
  .ok t.involved

end PP.Gen
