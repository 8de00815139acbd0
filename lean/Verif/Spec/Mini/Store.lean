import Verif.Spec.Mini.Encode
import Verif.Spec.CacheHist

/-! # Specification: the stores of the core — `Source`, `BasicPublisher`, `BasicCache` — used on their own

What a user sees who makes a store and calls its public methods one after another.  Rules are the names of the variants of `Rules`. -/
namespace PP.Mini
open PP.Gen

/-! ## Source -/

/-- `Source::new(text)` and one method call on it. -/
def runSource (Q : Prog) (n : Nat) (text : Bytes) (m : Name) (args : List Val) : Res Val :=
  (run Q n (.fn (some n!"Source") n!"new") [.str text] []).bind fun s h => run Q n (.fn (some n!"Source") m) (s :: args) h

/-- The source's length: the text's, in a `u32`. -/
def seenLength (text : Bytes) : Nat := text.length % 4294967296

/-- An end of a slice of a text must not be within a character: the byte there, if any, is not a continuation byte (`10xxxxxx`). -/
def Boundary (text : Bytes) (i : Nat) : Prop := i = 0 ∨ ∀ c, text[i]? = some c → c.toNat < 128 ∨ 192 ≤ c.toNat

/-- The methods of `Source` on every text; arguments are `u32`s.  In a debug build (`position + number_of_chars` is checked). -/
structure SourceWorks (Q : Prog) : Prop where
  get_len : ∀ text n, ∃ h, runSource Q (n + 1) text n!"get_len" [] = .ok (.int (seenLength text)) h
  get_char : ∀ text n p, ∃ h, runSource Q (n + 1) text n!"get_char" [.int p] =
    .ok (match (text.take (seenLength text))[p]? with | some c => .some (.int c.toNat) | none => .none) h
  get_multiple_chars : ∀ text n p k, p + k < 4294967296 → ∃ h, runSource Q (n + 1) text n!"get_multiple_chars" [.int p, .int k] =
    .ok (if p + k < seenLength text then .some (.bytes ((text.drop p).take k)) else .none) h
  get_multiple_chars_overflows : ∀ text n p k, 4294967296 ≤ p + k → runSource Q (n + 1) text n!"get_multiple_chars" [.int p, .int k] = .panic
  get_string_none : ∀ text n p q, seenLength text < p ∨ seenLength text < q → ∃ h, runSource Q (n + 1) text n!"get_string" [.int p, .int q] = .ok .none h
  get_string : ∀ text n p q, p ≤ q → q ≤ seenLength text → Boundary text p → Boundary text q →
    ∃ h, runSource Q (n + 1) text n!"get_string" [.int p, .int q] = .ok (.some (.str ((text.drop p).take (q - p)))) h
  get_string_panics : ∀ text n p q, p ≤ seenLength text → q ≤ seenLength text → ¬ (p ≤ q ∧ Boundary text p ∧ Boundary text q) →
    runSource Q (n + 1) text n!"get_string" [.int p, .int q] = .panic

/-! ## BasicPublisher -/

/-- A call of a public method of `BasicPublisher`. -/
inductive TreeCall where
  | addNode (rule : Name) (start stop : Nat) (result : Bool)
  | connect (parent child : Nat)
  | connectIfNotConnected (parent child : Nat)
  | clearChildren (node : Nat)
  | setStart (node x : Nat)
  | setStop (node x : Nat)
  | setResult (node : Nat) (b : Bool)
  | getNode (node : Nat)
  | len

/-- The method and its arguments. -/
def TreeCall.call : TreeCall → Name × List Val
  | .addNode r x y b => (n!"add_node", [.variant n!"Rules" r, .int x, .int y, .bool b])
  | .connect i j => (n!"connect", [encKey i, encKey j])
  | .connectIfNotConnected i j => (n!"connect_if_not_connected", [encKey i, encKey j])
  | .clearChildren i => (n!"clear_node_of_children", [encKey i])
  | .setStart i x => (n!"set_node_start_position", [encKey i, .int x])
  | .setStop i x => (n!"set_node_end_position", [encKey i, .int x])
  | .setResult i b => (n!"set_node_result", [encKey i, .bool b])
  | .getNode i => (n!"get_node", [encKey i])
  | .len => (n!"len", [])

/-- The calls, one after another, on the store at address `a` of the heap (methods that only read get the value). -/
def runTreeCalls (Q : Prog) (n a : Nat) : List TreeCall → Heap → Res (List Val)
  | [], h => .ok [] h
  | c :: cs, h => (callMethod Q (run Q n) c.call.1 (.ref a []) c.call.2 h).bind fun v h => (runTreeCalls Q n a cs h).bind fun vs h => .ok (v :: vs) h

/-- `BasicPublisher::new(size, rules)`, the calls, and a look at the store. -/
def runTree (Q : Prog) (n size rules : Nat) (cs : List TreeCall) : Res Val :=
  (run Q n (.fn (some n!"BasicPublisher") n!"new") [.int size, .int rules] []).bind fun t h =>
  (runTreeCalls Q n h.length cs (h ++ [t])).bind fun vs h' =>
    match h'[h.length]? with
    | some t => .ok (.tuple [.vec vs, t]) h'
    | none => .stuck

/-- A node changed; `none` if there is no such node. -/
def change (i : Nat) (f : Node Name → Node Name) (ns : List (Node Name)) : Option (List (Node Name)) :=
  if i < ns.length then some (ns.modify i f) else none

/-- What a call returns and makes of the list of nodes; `none`: it panics. -/
def TreeCall.effect (ns : List (Node Name)) : TreeCall → Option (Val × List (Node Name))
  | .addNode r x y b => if ns.length < 4294967296 then some (encKey ns.length, ns ++ [⟨ns.length, r, x, y, b, []⟩]) else none
  | .connect i j => if i = j then none else (change i (fun nd => { nd with children := nd.children ++ [j] }) ns).map fun t => (.unit, t)
  | .connectIfNotConnected i j =>
    (change i (fun nd => if j ∈ nd.children then nd else { nd with children := nd.children ++ [j] }) ns).map fun t => (.unit, t)
  | .clearChildren i => (change i (fun nd => { nd with children := [] }) ns).map fun t => (.unit, t)
  | .setStart i x => (change i (fun nd => { nd with start := x }) ns).map fun t => (.unit, t)
  | .setStop i x => (change i (fun nd => { nd with stop := x }) ns).map fun t => (.unit, t)
  | .setResult i b => (change i (fun nd => { nd with result := b }) ns).map fun t => (.unit, t)
  | .getNode i => (ns[i]?).map fun nd => (encNode id nd, ns)
  | .len => some (.int ns.length, ns)

def effects : List TreeCall → List (Node Name) → Option (List Val × List (Node Name))
  | [], ns => some ([], ns)
  | c :: cs, ns => do
    let (v, ns) ← c.effect ns
    let (vs, ns) ← effects cs ns
    some (v :: vs, ns)

/-- The root of every tree. -/
def rootNode : Node Name := ⟨0, n!"Grammar", 0, 0, true, []⟩

/-- Whatever is called in whatever order, the store does what the list of nodes does. -/
structure TreeWorks (Q : Prog) : Prop where
  ok : ∀ size rules cs n vs ns, size * rules < 18446744073709551616 → effects cs [rootNode] = some (vs, ns) →
    ∃ h, runTree Q (n + 3) size rules cs = .ok (.tuple [.vec vs, encPub id ⟨ns⟩]) h
  panics : ∀ size rules cs n, size * rules < 18446744073709551616 → effects cs [rootNode] = none → runTree Q (n + 3) size rules cs = .panic

/-! ## BasicCache -/

/-- A call of a public method of `BasicCache`: one that writes, or a question. -/
inductive CacheCall where
  | write (op : CacheOp Name)
  | check (rule : Name) (start : Nat)
  | hasHead (rule : Name) (start : Nat)
  | involved (head : Name × Nat) (rule : Name)
  | inEval (head : Name × Nat) (rule : Name)
  | active

/-- A pair of a rule and a position. -/
def encPair (x : Name × Nat) : Val := .tuple [.variant n!"Rules" x.1, .int x.2]
def encOption {α : Type} (f : α → Val) : Option α → Val
  | none => .none
  | some x => .some (f x)

/-- The method and its arguments; sets are given as `BTreeSet`s. -/
def CacheCall.call : CacheCall → Name × List Val
  | .write (.insert r b p q k) => (n!"insert", [.variant n!"Rules" r, .bool b, .int p, .int q, encKey k])
  | .write (.setHead p r s) => (n!"set_head", [.int p, .variant n!"Rules" r, .set (s.map fun x => .variant n!"Rules" x)])
  | .write (.reinitialize r p) => (n!"reinitialize_eval_set", [.variant n!"Rules" r, .int p])
  | .write (.remove h r) => (n!"remove_from_eval_set", [encPair h, .variant n!"Rules" r])
  | .write (.setActive x) => (n!"set_current_active_lr_position", [encOption encPair x])
  | .check r p => (n!"check", [.variant n!"Rules" r, .int p])
  | .hasHead r p => (n!"check_head", [.variant n!"Rules" r, .int p])
  | .involved h r => (n!"rule_in_involved_set", [encPair h, .variant n!"Rules" r])
  | .inEval h r => (n!"rule_in_eval_set", [encPair h, .variant n!"Rules" r])
  | .active => (n!"get_current_active_lr_position", [])

/-- The calls, one after another, on the store at address `a` of the heap. -/
def runCacheCalls (Q : Prog) (n a : Nat) : List CacheCall → Heap → Res (List Val)
  | [], h => .ok [] h
  | c :: cs, h => (callMethod Q (run Q n) c.call.1 (.ref a []) c.call.2 h).bind fun v h => (runCacheCalls Q n a cs h).bind fun vs h => .ok (v :: vs) h

/-- `BasicCache::new()` and the calls: their answers. -/
def runCache (Q : Prog) (n : Nat) (cs : List CacheCall) : Res (List Val) :=
  (run Q n (.fn (some n!"BasicCache") n!"new") [] []).bind fun t h => runCacheCalls Q n h.length cs (h ++ [t])

/-- The head of a rule and a position: its involved set and its eval set. -/
def headVal (rule : Name) (start : Nat) (involved eval : List Name) : Val :=
  .struct n!"Head" [(n!"start_position", .int start), (n!"active_left_recursion_rule", .variant n!"Rules" rule),
    (n!"involved_set", .set (involved.map fun x => .variant n!"Rules" x)), (n!"eval_set", .set (eval.map fun x => .variant n!"Rules" x))]

/-- What a call answers after the history `ops` (latest first); `none`: it panics. -/
def Answers (ops : List (CacheOp Name)) : CacheCall → Option Val → Prop
  | .write (.reinitialize r p), a => a = if lastInvolved r p ops = none then none else some .unit
  | .write (.remove h _), a => a = if lastInvolved h.1 h.2 ops = none then none else some .unit
  | .write _, a => a = some .unit
  | .check r p, a => a = some (encOption (fun x => .tuple [.bool x.1, .int x.2.1, encKey x.2.2]) (lastInserted r p ops))
  | .hasHead r p, a => match lastInvolved r p ops with
    | none => a = some .none
    | some s => ∃ e, a = some (.some (headVal r p s e)) ∧ ∀ x, x ∈ e ↔ x ∈ s ∧ removedSince r p x ops = false
  | .involved h r, a => a = (lastInvolved h.1 h.2 ops).map fun s => .bool (decide (r ∈ s))
  | .inEval h r, a => a = (lastInvolved h.1 h.2 ops).map fun s => .bool (decide (r ∈ s) && !removedSince h.1 h.2 r ops)
  | .active, a => a = some (encOption encPair (lastActive ops))

/-- The history after a call. -/
def CacheCall.after (ops : List (CacheOp Name)) : CacheCall → List (CacheOp Name)
  | .write op => op :: ops
  | _ => ops

/-- The answers of a sequence of calls; `none`: one of them panics. -/
inductive AllAnswer : List (CacheOp Name) → List CacheCall → Option (List Val) → Prop
  | nil {ops} : AllAnswer ops [] (some [])
  | panic {ops c cs} : Answers ops c none → AllAnswer ops (c :: cs) none
  | ok {ops c cs v vs} : Answers ops c (some v) → AllAnswer (c.after ops) cs (some vs) → AllAnswer ops (c :: cs) (some (v :: vs))
  | later {ops c cs v} : Answers ops c (some v) → AllAnswer (c.after ops) cs none → AllAnswer ops (c :: cs) none

/-- Whatever is called in whatever order, every answer depends on the history as a last-write-wins table's does. -/
structure CacheWorks (Q : Prog) : Prop where
  ok : ∀ cs n vs h, runCache Q (n + 1) cs = .ok vs h → AllAnswer [] cs (some vs)
  panics : ∀ cs n, runCache Q (n + 1) cs = .panic → AllAnswer [] cs none
  ends : ∀ cs n, runCache Q (n + 1) cs = .panic ∨ ∃ vs h, runCache Q (n + 1) cs = .ok vs h

end PP.Mini
