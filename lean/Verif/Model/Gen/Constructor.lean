import Verif.Model.Gen.BinaryTree
import Verif.Model.Gen.SymbolTable
import Verif.Model.Gen.CycleDetector

/-! # Model of generator/src/constructor.rs -/
namespace PP.Gen

/-- What the expression functions read and never change. -/
structure Env where
  tree : Publisher Dsl
  src : Bytes
  sym : SymbolTable
  /-- `left_recursive_rules.get_left_recursion_rules()` -/
  lr : Map (List Bytes)
  /-- iteration order of the hash sets of `lr` -/
  ord : HashOrd

/-- The two accumulators every function gets as `&mut`: the output tree and the list of hook names to import. -/
abbrev Acc := BTree × List Bytes

/-- Digits for `u32::from_str_radix(_, 16)` -/
def hexDigit (c : UInt8) : Option Nat :=
  if 48 ≤ c ∧ c ≤ 57 then some (c.toNat - 48)
  else if 65 ≤ c ∧ c ≤ 70 then some (c.toNat - 55)
  else if 97 ≤ c ∧ c ≤ 102 then some (c.toNat - 87)
  else none

/-- `u32::from_str_radix(s, 16)`: `none` is `Err` (empty, a non-digit, or a value above `u32::MAX`).  A leading `+` would
be accepted by Rust; the DSL's `Hex` rule never lets one through, and the model rejects it. -/
def fromHex (s : Bytes) : Option Nat :=
  if s.isEmpty then none
  else s.foldl (fun acc c => acc.bind fun v => (hexDigit c).bind fun d =>
    if v * 16 + d < 4294967296 then some (v * 16 + d) else none) (some 0)

/-- `char::from_u32` -/
def charFromU32 (n : Nat) : Option Nat := if n < 0xD800 ∨ (0xDFFF < n ∧ n < 0x110000) then some n else none

variable (e : Env)

/-- generator/src/constructor.rs:1015-1039 `terminal` -/
def terminal (a : Acc) (index : Nat) : Out (Nat × Acc) := do
  let node ← e.tree.getNode index
  if node.stop < node.start then .panic .overflow
  else if node.stop - node.start = 2 then
    let (k1, t) := a.1.push (.terminal [34]) none none
    let (k2, t) := t.push (.terminal [34]) none none
    let (k, t) := t.push .sequence (some k1) (some k2)
    .ok (k, t, a.2)
  else do
    let contents ← (if node.stop = 0 then .panic .overflow else Source.strSlice e.src (node.start + 1) (node.stop - 1))
    let contents := if contents = [92] then [92, 92] else if contents = [39] then [92, 39] else contents
    let (k, t) := a.1.push (.terminal contents) none none
    .ok (k, t, a.2)

/-- generator/src/constructor.rs:960-1013 `var_name` -/
def varName (a : Acc) (index : Nat) : Out (Nat × Acc) := do
  let node ← e.tree.getNode index
  let name ← (if node.stop = 0 then .panic .overflow else Source.strSlice e.src (node.start + 1) (node.stop - 1))
  match e.lr.get name with
  | some involved => do
    let vs ← mapOut capitalise (e.ord.perm [7, index] involved)
    let (k, t) := a.1.push (.leftRecursiveRule name (sortNames vs)) none none
    .ok (k, t, a.2)
  | none =>
    if e.sym.isInline name then
      let (k, t) := a.1.push (.inlinedRule name) none none
      .ok (k, t, a.2)
    else
      let (k, t) := a.1.push (.varName name) none none
      .ok (k, t, a.2)

/-- The loop of generator/src/constructor.rs:871-923; `start` is `some` once `start_set`. -/
def matchRangeLoop : List Nat → Option Nat → Nat → BTree → Out (Nat × BTree)
  | [], _, ret, t => .ok (ret, t)
  | i :: is, start, ret, t => do
    let child ← e.tree.getNode i
    let value ← (if child.rule = .r_terminal then do
        let contents ← (if child.stop = 0 then .panic .overflow
          else Source.strSlice e.src (child.start + 1) (child.stop - 1))
        match contents with
        | [] => .panic .indexOutOfBounds
        | c :: _ => .ok c.toNat
      else if child.rule = .r_integer then .panic .explicit
      else if child.rule = .r_hex then do
        let contents ← Source.strSlice e.src (child.start + 2) child.stop
        match fromHex contents with
        | none => .panic .explicit
        | some v => .ok v
      else .panic .explicit)
    match start with
    | none => matchRangeLoop is (some value) ret t
    | some s =>
      let (k, t) := t.push (.matchRange s value) none none
      matchRangeLoop is start k t

/-- generator/src/constructor.rs:859-926 `ordered_choice_match_range` -/
def orderedChoiceMatchRange (a : Acc) (index : Nat) : Out (Nat × Acc) := do
  let node ← e.tree.getNode index
  let (k, t) ← matchRangeLoop e node.children none 0 a.1
  .ok (k, t, a.2)

/-- The loop of generator/src/constructor.rs:819-846 -/
def stringTerminalData : List Nat → Out (List Nat)
  | [] => .ok []
  | i :: is => do
    let child ← e.tree.getNode i
    let c ← (if child.rule = .r_ascii then do
        let s ← Source.byteSlice e.src child.start child.stop
        match s with
        | [] => .panic .indexOutOfBounds
        | c :: _ => .ok c.toNat
      else if child.rule = .r_integer then .panic .explicit
      else if child.rule = .r_hex then do
        let contents ← Source.strSlice e.src (child.start + 2) child.stop
        match fromHex contents with
        | none => .panic .expectFailed
        | some v => Out.ofOption .expectFailed (charFromU32 v)
      else .panic .explicit)
    let cs ← stringTerminalData is
    .ok (c :: cs)

/-- generator/src/constructor.rs:810-857 `string_terminal`; `len_utf8() != 1` means a code point of at least 128. -/
def stringTerminal (a : Acc) (index : Nat) : Out (Nat × Acc) := do
  let node ← e.tree.getNode index
  let data ← stringTerminalData e node.children
  let r := if data.all (· < 128) then Reference.stringTerminalAsciiOpt data else .stringTerminal data
  let (k, t) := a.1.push r none none
  .ok (k, t, a.2)

/-- `for i in node.get_children() { match rule { <rule> => ret_key = f(..), _ => panic } }`: the loop shape shared by
`rhs`, `atom`, `nucleus`, `subexpression` and the operator functions; `ret` starts as `Key(0)`. -/
def childLoop (f : Dsl → Option (Acc → Nat → Out (Nat × Acc))) : List Nat → Nat → Acc → Out (Nat × Acc)
  | [], ret, a => .ok (ret, a)
  | i :: is, _, a => do
    let child ← e.tree.getNode i
    match f child.rule with
    | none => .panic .explicit
    | some g => do
      let (k, a) ← g a i
      childLoop f is k a

/-- `ret_key = out_tree.push(Reference::X, Some(key), None)` after the recursive call -/
def pushUnary (r : Reference) (f : Acc → Nat → Out (Nat × Acc)) (a : Acc) (i : Nat) : Out (Nat × Acc) := do
  let (k, a) ← f a i
  let (k, t) := a.1.push r (some k) none
  .ok (k, t, a.2)

/-- The loops of generator/src/constructor.rs:364-401 `ordered_choice` and 403-440 `sequence`; `last` is `none` while
`count == 0` (the initial `last_key` is `Key(0)`). -/
def chainLoop (r : Reference) (atom : Acc → Nat → Out (Nat × Acc)) : List Nat → Option Nat → Acc → Out (Nat × Acc)
  | [], last, a => .ok (last.getD 0, a)
  | i :: is, last, a => do
    let child ← e.tree.getNode i
    if child.rule ≠ .r_atom then .panic .explicit
    else do
      let (k, a) ← atom a i
      match last with
      | none => chainLoop r atom is (some k) a
      | some l =>
        let (k, t) := a.1.push r (some l) (some k)
        chainLoop r atom is (some k) (t, a.2)

/-- The mutually recursive expression functions of generator/src/constructor.rs. -/
inductive Fn where
  | rhs | orderedChoice | sequence | atom | optional | oneOrMore | zeroOrMore | andPredicate | notPredicate | nucleus
  | subexpression | hookedCall
  deriving DecidableEq, Repr

/-- generator/src/constructor.rs:312-362 `rhs`, 364-401 `ordered_choice`, 403-440 `sequence`, 442-528 `atom`,
530-563 `optional`, 564-597 `one_or_more`, 598-631 `zero_or_more`, 633-666 `and_predicate`, 668-700 `not_predicate`,
702-766 `nucleus`, 768-808 `hooked_call`, 928-958 `subexpression`, as one fuelled function. -/
def expr : Nat → Fn → Acc → Nat → Out (Nat × Acc)
  | 0, _, _, _ => .oof
  | n + 1, .rhs, a, index => do
    let node ← e.tree.getNode index
    childLoop e (fun
      | .r_ordered_choice => some (expr n .orderedChoice)
      | .r_sequence => some (expr n .sequence)
      | .r_atom => some (expr n .atom)
      | _ => none) node.children 0 a
  | n + 1, .orderedChoice, a, index => do
    let node ← e.tree.getNode index
    chainLoop e .orderedChoice (expr n .atom) node.children none a
  | n + 1, .sequence, a, index => do
    let node ← e.tree.getNode index
    chainLoop e .sequence (expr n .atom) node.children none a
  | n + 1, .atom, a, index => do
    let node ← e.tree.getNode index
    childLoop e (fun
      | .r_and_predicate => some (expr n .andPredicate)
      | .r_not_predicate => some (expr n .notPredicate)
      | .r_one_or_more => some (expr n .oneOrMore)
      | .r_zero_or_more => some (expr n .zeroOrMore)
      | .r_optional => some (expr n .optional)
      | .r_nucleus => some (expr n .nucleus)
      | _ => none) node.children 0 a
  | n + 1, .optional, a, index => do
    let node ← e.tree.getNode index
    childLoop e (fun | .r_nucleus => some (pushUnary .optional (expr n .nucleus)) | _ => none) node.children 0 a
  | n + 1, .oneOrMore, a, index => do
    let node ← e.tree.getNode index
    childLoop e (fun | .r_nucleus => some (pushUnary .oneOrMore (expr n .nucleus)) | _ => none) node.children 0 a
  | n + 1, .zeroOrMore, a, index => do
    let node ← e.tree.getNode index
    childLoop e (fun | .r_nucleus => some (pushUnary .zeroOrMore (expr n .nucleus)) | _ => none) node.children 0 a
  | n + 1, .andPredicate, a, index => do
    let node ← e.tree.getNode index
    childLoop e (fun | .r_nucleus => some (pushUnary .andPredicate (expr n .nucleus)) | _ => none) node.children 0 a
  | n + 1, .notPredicate, a, index => do
    let node ← e.tree.getNode index
    childLoop e (fun | .r_nucleus => some (pushUnary .notPredicate (expr n .nucleus)) | _ => none) node.children 0 a
  | n + 1, .nucleus, a, index => do
    let node ← e.tree.getNode index
    childLoop e (fun
      | .r_subexpression => some (expr n .subexpression)
      | .r_terminal => some (terminal e)
      | .r_var_name_ref => some (varName e)
      | .r_orderedchoicematchrange => some (orderedChoiceMatchRange e)
      | .r_stringterminal => some (stringTerminal e)
      | .r_hooked_call => some (expr n .hookedCall)
      | _ => none) node.children 0 a
  | n + 1, .subexpression, a, index => do
    let node ← e.tree.getNode index
    childLoop e (fun | .r_rhs => some (pushUnary .subexpression (expr n .rhs)) | _ => none) node.children 0 a
  | n + 1, .hookedCall, a, index => do
    let node ← e.tree.getNode index
    let child ← Out.ofOption .indexOutOfBounds node.children[0]?
    let childNode ← e.tree.getNode child
    if childNode.start = 0 then .panic .overflow
    else do
      let name ← Source.strSlice e.src node.start (childNode.start - 1)
      let (k, a) ← expr n .subexpression (a.1, a.2 ++ [name]) index
      let (k, t) := a.1.push (.hookedCall name) (some k) none
      .ok (k, t, a.2)

/-- `str::split("\n")` -/
def splitLines : Bytes → List Bytes
  | [] => [[]]
  | c :: cs =>
    if c = 10 then [] :: splitLines cs
    else match splitLines cs with
      | [] => [[c]]
      | l :: ls => (c :: l) :: ls

/-- ASCII part of `char::is_whitespace` (the Unicode spaces that `trim` also removes are not modelled) -/
def isSpace (c : UInt8) : Bool := c = 32 ∨ (9 ≤ c ∧ c ≤ 13)

/-- `str::trim` -/
def trim (s : Bytes) : Bytes := ((s.dropWhile isSpace).reverse.dropWhile isSpace).reverse

/-- generator/src/constructor.rs:281-310 `comment`: the comment lines (each is written as `\t// <line>\n`) -/
def comment (index : Nat) : Out (List Bytes) := do
  let node ← e.tree.getNode index
  let (start, stop) ← node.children.foldlM (fun (acc : Option Nat × Option Nat) key => do
    let nd ← e.tree.getNode key
    if nd.rule = .r_ascii then .ok (acc.1.or (some nd.start), some nd.stop) else .ok acc) (none, none)
  let start ← Out.ofOption .expectFailed start
  let stop ← Out.ofOption .expectFailed stop
  let s ← Source.strSlice e.src start stop
  .ok ((splitLines s).map trim)

/-- generator/src/constructor.rs:263-279 `lhs`: `pop` and, if something is left, `remove(0)` (for an ASCII name) -/
def lhs (index : Nat) : Out Bytes := do
  let node ← e.tree.getNode index
  let key ← Out.ofOption .indexOutOfBounds node.children[0]?
  let decl ← e.tree.getNode key
  let s ← Source.strSlice e.src decl.start decl.stop
  .ok (s.dropLast.drop 1)

/-- The parts of one generated function: its name, comment lines and body lines; `RuleCode.text` is the text. -/
structure RuleCode where
  name : Bytes
  comment : Option (List Bytes)
  lines : List Line
  deriving DecidableEq, Repr

/-- generator/src/constructor.rs:245-259: the emitted function (the comment lines with the `\t// ` of lines 303-308, the body
lines as joined in 232-237) -/
def RuleCode.text (r : RuleCode) : Bytes :=
  let comment := match r.comment with
    | none => []
    | some ls => (ls.map fun l => utf8Of "\t// " ++ l ++ utf8Of "\n").flatten
  utf8Of "#[allow(dead_code)]\npub fn " ++ r.name ++
    utf8Of "<T: Context>(user_state: &RefCell<UserState>, parent: Key, context: &RefCell<T>, source: &Source, position: u32) -> (bool, u32) {" ++
    utf8Of "\n" ++ comment ++ utf8Of "\n" ++ (r.lines.map fun l => utf8Of "\t" ++ l.text ++ utf8Of "\n").flatten ++ utf8Of "\n}\n"

/-- State of the child loop of `rule`. -/
structure RuleAcc where
  name : Option Bytes
  lines : List Line
  comment : Option (List Bytes)
  hooks : List Bytes

/-- generator/src/constructor.rs:200-261 `rule` -/
def rule (fuel : Nat) (hooks : List Bytes) (index : Nat) : Out (RuleCode × List Bytes) := do
  let node ← e.tree.getNode index
  let r ← node.children.foldlM (fun (r : RuleAcc) i => do
    let nd ← e.tree.getNode i
    if nd.rule = .r_lhs then do
      let name ← lhs e i
      .ok { r with name := some (lower name) }
    else if nd.rule = .r_rhs then do
      let (k, t, hooks) ← expr e fuel .rhs (BTree.new, r.hooks) i
      let (last, t) := t.push .exec (some k) none
      let ls ← t.toLines fuel last
      .ok { r with lines := ls, hooks := hooks }
    else if nd.rule = .r_comment then do
      let c ← comment e i
      .ok { r with comment := some c }
    else .ok r) ⟨none, [], none, hooks⟩
  let name ← Out.ofOption .expectFailed r.name
  .ok (⟨name, r.comment, r.lines⟩, r.hooks)

/-- generator/src/constructor.rs:120-151 `generate` with 176-198 `match_rule` -/
def generate (fuel : Nat) : Out (List RuleCode × List Bytes) := do
  let node ← e.tree.getNode 0
  if node.rule ≠ .r_grammar then .panic .explicit
  else node.children.foldlM (fun (acc : List RuleCode × List Bytes) child => do
    let nd ← e.tree.getNode child
    if nd.rule = .r_rule then do
      let (r, hooks) ← rule e fuel acc.2 child
      .ok (acc.1 ++ [r], hooks)
    else .panic .explicit) ([], [])

/-- generator/src/constructor.rs:153-174 `generate_rules_enum`: the variants in order, and their number. -/
def generateRulesEnum (sym : SymbolTable) : Out (List Bytes × Nat) := do
  sym.names.foldlM (fun (acc : List Bytes × Nat) s => do
    if !sym.isInline s then do
      let v ← capitalise s
      .ok (acc.1 ++ [v], acc.2 + 1)
    else .ok acc) ([], 0)

/-- generator/src/constructor.rs:7-16 `struct GeneratedCode` (the constant headers of lines 36-63 are not modelled) -/
structure GeneratedCode where
  rules : List RuleCode
  variants : List Bytes
  numRules : Nat
  hookImports : List Bytes
  deriving DecidableEq, Repr

/-- generator/src/constructor.rs:19-86 `GeneratedCode::new` -/
def GeneratedCode.new (fuel : Nat) : Out GeneratedCode := do
  let (rules, hooks) ← generate e fuel
  let (variants, n) ← generateRulesEnum e.sym
  .ok ⟨rules, variants, n, hooks⟩

end PP.Gen
