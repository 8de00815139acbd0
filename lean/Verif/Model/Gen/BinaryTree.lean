import Verif.Model.Gen.Text

/-! # Model of generator/src/binary_wo.rs: the binary expression tree and the lines emitted from it -/
namespace PP.Gen

/-- generator/src/binary_wo.rs:6-28 `enum Reference`; `char`s are code points, strings are bytes. -/
inductive Reference where
  | terminal (content : Bytes)
  | varName (name : Bytes)
  | oneOrMore
  | zeroOrMore
  | optional
  | andPredicate
  | notPredicate
  | subexpression
  | orderedChoice
  | sequence
  | exec
  | null
  | matchRange (start stop : Nat)
  | stringTerminal (chars : List Nat)
  | stringTerminalAsciiOpt (chars : List Nat)
  | inlinedRule (name : Bytes)
  | leftRecursiveRule (name : Bytes) (involved : List Bytes)
  | hookedCall (name : Bytes)
  deriving DecidableEq, Repr

/-- generator/src/binary_wo.rs:444-448 `struct BinaryNode` -/
structure BinaryNode where
  reference : Reference
  lhs : Option Nat
  rhs : Option Nat
  deriving DecidableEq, Repr

/-- generator/src/binary_wo.rs:30-32 `struct BinaryTreeWO`: its node vector -/
abbrev BTree := List BinaryNode

/-- generator/src/binary_wo.rs:43-53 `push`: the new key and the extended vector (`len() as u32` does not wrap for fewer
than 2^32 nodes; the source itself has fewer bytes, not modelled). -/
def BTree.push (t : BTree) (r : Reference) (lhs rhs : Option Nat) : Nat × BTree := (t.length, t ++ [⟨r, lhs, rhs⟩])

/-- generator/src/binary_wo.rs:35-41 `new` -/
def BTree.new : BTree := [⟨.null, none, none⟩]

/-- The unary combinators that are emitted as `let closure_i = <name>(&closure_j);` -/
inductive Unary where
  | and | not | plus | star | sub | opt
  deriving DecidableEq, Repr

/-- The binary combinators that are emitted as `let closure_i = <name>(&closure_j, &closure_k);` -/
inductive Binary where
  | choice | seq
  deriving DecidableEq, Repr

/-- One emitted line of Rust; `Line.text` is the text. -/
inductive Line where
  | stringTerminal (i : Nat) (chars : List Nat)
  | stringTerminalOptAscii (i : Nat) (chars : List Nat)
  | matchRange (i start stop : Nat)
  | unary (op : Unary) (i j : Nat)
  | binary (op : Binary) (i j k : Nat)
  | hooked (i : Nat) (name : Bytes) (j : Nat)
  | terminal (i : Nat) (content : Bytes)
  | varName (i : Nat) (variant fn : Bytes)
  | involvedSet (variants : List Bytes)
  | varNameLR (i : Nat) (variant fn : Bytes)
  | inlined (i : Nat) (fn : Bytes)
  | exec (i : Nat)
  deriving DecidableEq, Repr

/-- ASCII bytes as a `String` (for the names of hooked calls in `Expr.hooked`). -/
def asStr (b : Bytes) : String := String.ofList (b.map fun c => Char.ofNat c.toNat)

/-- The Rust names of the unary combinators (binary_wo.rs:189-293) -/
def Unary.text : Unary → Bytes
  | .and => utf8Of "_and_predicate" | .not => utf8Of "_not_predicate" | .plus => utf8Of "_one_or_more"
  | .star => utf8Of "_zero_or_more" | .sub => utf8Of "_subexpression" | .opt => utf8Of "_optional"
/-- The Rust names of the binary combinators (binary_wo.rs:306-329) -/
def Binary.text : Binary → Bytes
  | .choice => utf8Of "_ordered_choice" | .seq => utf8Of "_sequence"

/-- The UTF-8 bytes of a character given by its code point. -/
def charText (c : Nat) : Bytes := String.utf8EncodeChar (Char.ofNat c)

/-- The text of a line: the `format!` strings of generator/src/binary_wo.rs:120, 133-136, 149-158, 171-174, 189-192, 206-209,
223-226, 239-242, 256-259, 272-275, 288-291, 306-309, 324-327, 339-342, 362-367, 378-402, 411-416, 429-433.
(`{:?}` of a `Vec<char>` in line 133 is only sketched, without the escapes of `Debug for char`: that code calls a function
that does not exist.) -/
def Line.text : Line → Bytes
  | .stringTerminal i chars =>
    utf8Of "let closure_" ++ decimal i ++ utf8Of " = _string_terminal(&[" ++
      List.intercalate (utf8Of ", ") (chars.map fun c => utf8Of "'" ++ charText c ++ utf8Of "'") ++ utf8Of "]);"
  | .stringTerminalOptAscii i chars =>
    utf8Of "let closure_" ++ decimal i ++ utf8Of " = _string_terminal_opt_ascii(b\"" ++ (chars.map charText).flatten ++ utf8Of "\");"
  | .matchRange i s e =>
    utf8Of "let closure_" ++ decimal i ++ utf8Of " = _ordered_choice_match_range(" ++ decimal s ++ utf8Of ", " ++ decimal e ++ utf8Of ");"
  | .unary op i j =>
    utf8Of "let closure_" ++ decimal i ++ utf8Of " = " ++ op.text ++ utf8Of "(&closure_" ++ decimal j ++ utf8Of ");"
  | .binary op i j k =>
    utf8Of "let closure_" ++ decimal i ++ utf8Of " = " ++ op.text ++ utf8Of "(&closure_" ++ decimal j ++ utf8Of ", &closure_" ++
      decimal k ++ utf8Of ");"
  | .hooked i name j =>
    utf8Of "let closure_" ++ decimal i ++ utf8Of " = " ++ name ++
      utf8Of "(user_state, parent, context, source, position, &closure_" ++ decimal j ++ utf8Of ");"
  | .terminal i content =>
    utf8Of "let closure_" ++ decimal i ++ utf8Of " = _terminal(b'" ++ content ++ utf8Of "');"
  | .varName i v f =>
    utf8Of "let closure_" ++ decimal i ++ utf8Of " = _var_name(user_state, Rules::" ++ v ++ utf8Of ", context, " ++ f ++ utf8Of ");"
  | .involvedSet vs =>
    utf8Of "let involved_set: Vec<Rules> = [" ++ List.intercalate (utf8Of ", ") (vs.map fun v => utf8Of "Rules::" ++ v) ++
      utf8Of "].to_vec();"
  | .varNameLR i v f =>
    utf8Of "let closure_" ++ decimal i ++ utf8Of " = _var_name_indirect_left_recursion(user_state, &involved_set, Rules::" ++ v ++
      utf8Of ", context, " ++ f ++ utf8Of ");"
  | .inlined i f =>
    utf8Of "let closure_" ++ decimal i ++ utf8Of " = move |parent: Key, source: &Source, position: u32| " ++ f ++
      utf8Of "(user_state, parent, context, source, position);"
  | .exec i => utf8Of "closure_" ++ decimal i ++ utf8Of "(parent, source, position)"

/-- `node.lhs.expect(..)` -/
def expectKey (k : Option Nat) : Out Nat := Out.ofOption .expectFailed k

/-- Collects the results of a fallible function, in order. -/
def mapOut {α β : Type} (f : α → Out β) : List α → Out (List β)
  | [] => .ok []
  | a :: l => do
    let b ← f a
    let bs ← mapOut f l
    .ok (b :: bs)

/-- generator/src/binary_wo.rs:85-112 `match_ref` together with the functions it dispatches to (129-441).  Each of them
appends lines to `stack` and returns its own index; the model returns the lines. -/
def matchRef (t : BTree) : Nat → Nat → Out (List Line)
  | 0, _ => .oof
  | n + 1, i =>
    match t[i]? with
    | none => .panic .indexOutOfBounds
    | some node =>
      let unary (op : Unary) : Out (List Line) := do
        let j ← expectKey node.lhs
        let ls ← matchRef t n j
        .ok (ls ++ [.unary op i j])
      let binary (op : Binary) : Out (List Line) := do
        let j ← expectKey node.lhs
        let ls ← matchRef t n j
        let k ← expectKey node.rhs
        let ms ← matchRef t n k
        .ok (ls ++ ms ++ [.binary op i j k])
      match node.reference with
      | .andPredicate => unary .and
      | .notPredicate => unary .not
      | .optional => unary .opt
      | .oneOrMore => unary .plus
      | .zeroOrMore => unary .star
      | .subexpression => unary .sub
      | .orderedChoice => binary .choice
      | .sequence => binary .seq
      | .terminal c => .ok [.terminal i c]
      | .varName c => do
        let v ← capitalise c
        .ok [.varName i v (lower c)]
      | .matchRange s e => .ok [.matchRange i s e]
      | .stringTerminal cs => .ok [.stringTerminal i cs]
      | .stringTerminalAsciiOpt cs => .ok [.stringTerminalOptAscii i cs]
      | .inlinedRule c => .ok [.inlined i (lower c)]
      | .leftRecursiveRule c inv => do
        let vs ← mapOut capitalise inv
        let v ← capitalise c
        .ok [.involvedSet vs, .varNameLR i v (lower c)]
      | .hookedCall name => do
        let j ← expectKey node.lhs
        let ls ← matchRef t n j
        .ok (ls ++ [.hooked i name j])
      | .exec => .panic .explicit
      | .null => .panic .explicit

/-- generator/src/binary_wo.rs:79-83, 114-127 `to_string` -/
def BTree.toLines (t : BTree) (fuel index : Nat) : Out (List Line) :=
  match t[index]? with
  | none => .panic .indexOutOfBounds
  | some node =>
    match node.reference with
    | .exec => do
      let child ← expectKey node.lhs
      let ls ← matchRef t fuel child
      .ok (ls ++ [.exec child])
    | _ => .panic .explicit

end PP.Gen
