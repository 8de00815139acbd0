import Verif.Spec.Meaning

/-! # Specification: reading `parser.rs` and `rules.rs` as Rust

The two files the generator writes, read as Rust source text: bytes to tokens, tokens to items and statements, names
resolved the way Rust resolves them.  Only the part of Rust that occurs in such files is read; everything else is `none`.
(Punctuation is read character by character, so that white space inside `::` or `->` is not noticed.) -/
namespace PP.Gen.Text

/-! ## Tokens -/

inductive Tok where
  | id (s : Bytes)      -- identifier or keyword
  | num (s : Bytes)     -- decimal literal: its digits
  | byte (s : Bytes)    -- `b'…'`: the text between the quotes
  | bytes (s : Bytes)   -- `b"…"`
  | str (s : Bytes)     -- `"…"`
  | life (s : Bytes)    -- `'a`
  | p (c : UInt8)       -- punctuation
  deriving DecidableEq, Repr

/-- What the lexer is in the middle of; texts are kept reversed. -/
inductive Mode where
  | code | ident (acc : Bytes) | num (acc : Bytes) | slash | comment₀ | comment
  | byte₀ | byteEsc | byteEnd (s : Bytes) | bytes (acc : Bytes) (esc : Bool) | str (acc : Bytes) (esc : Bool) | lit
  | tick | life (acc : Bytes) | numDot (acc : Bytes)
  deriving DecidableEq, Repr

def isIdStart (c : UInt8) : Bool := (97 ≤ c && c ≤ 122) || (65 ≤ c && c ≤ 90) || c = 95
def isDig (c : UInt8) : Bool := 48 ≤ c && c ≤ 57
def isIdCont (c : UInt8) : Bool := isIdStart c || isDig c

/-- A character outside of tokens: white space, or the start of a token (character literals are not read, nor is
anything that is not ASCII). -/
def start (c : UInt8) : Option (List Tok × Mode) :=
  if c = 32 || c = 9 || c = 10 || c = 13 then some ([], .code)
  else if isIdStart c then some ([], .ident [c])
  else if isDig c then some ([], .num [c])
  else if c = 47 then some ([], .slash)
  else if c = 34 then some ([], .str [] false)
  else if c = 39 then some ([], .tick)
  else if 33 ≤ c && c < 127 then some ([.p c], .code)
  else none

/-- Emit a token first. -/
def emit (t : Tok) : Option (List Tok × Mode) → Option (List Tok × Mode)
  | none => none
  | some (ts, m) => some (t :: ts, m)

/-- One character.  An identifier directly before a quote or `#` is a literal prefix: only `b` is read.  Literals have no
suffixes.  A dot after a number is not part of it if a name or another dot follows; fractions are not read.  Comments go from `//` to the end of the line; doc comments and block comments are not read. -/
def step : Mode → UInt8 → Option (List Tok × Mode)
  | .code, c => start c
  | .ident acc, c =>
    if isIdCont c then some ([], .ident (c :: acc))
    else if c = 39 then (if acc = [98] then some ([], .byte₀) else none)
    else if c = 34 then (if acc = [98] then some ([], .bytes [] false) else none)
    else if c = 35 then none
    else emit (.id acc.reverse) (start c)
  | .num acc, c =>
    if isDig c then some ([], .num (c :: acc))
    else if c = 46 then some ([], .numDot acc)
    else if isIdCont c then none
    else emit (.num acc.reverse) (start c)
  | .slash, c => if c = 47 then some ([], .comment₀) else if c = 42 then none else emit (.p 47) (start c)
  | .comment₀, c => if c = 47 || c = 33 then none else if c = 10 then some ([], .code) else some ([], .comment)
  | .comment, c => if c = 10 then some ([], .code) else some ([], .comment)
  | .byte₀, c => if c = 92 then some ([], .byteEsc) else some ([], .byteEnd [c])
  | .byteEsc, c => some ([], .byteEnd [92, c])
  | .byteEnd s, c => if c = 39 then some ([.byte s], .lit) else none
  | .bytes acc esc, c =>
    if esc then some ([], .bytes (c :: acc) false)
    else if c = 92 then some ([], .bytes (c :: acc) true)
    else if c = 34 then some ([.bytes acc.reverse], .lit)
    else some ([], .bytes (c :: acc) false)
  | .str acc esc, c =>
    if esc then some ([], .str (c :: acc) false)
    else if c = 92 then some ([], .str (c :: acc) true)
    else if c = 34 then some ([.str acc.reverse], .lit)
    else some ([], .str (c :: acc) false)
  | .lit, c => if isIdCont c then none else start c
  | .tick, c => if isIdStart c then some ([], .life [c]) else none
  | .life acc, c =>
    if isIdCont c then some ([], .life (c :: acc))
    else if c = 39 then none
    else emit (.life acc.reverse) (start c)
  | .numDot acc, c => if isIdStart c || c = 46 then emit (.num acc.reverse) (emit (.p 46) (start c)) else none

/-- Many characters. -/
def run : Mode → Bytes → Option (List Tok × Mode)
  | m, [] => some ([], m)
  | m, c :: cs =>
    match step m c with
    | none => none
    | some (ts, m') =>
      match run m' cs with
      | none => none
      | some (us, m'') => some (ts ++ us, m'')

/-- The end of the file. -/
def finish : Mode → Option (List Tok)
  | .code | .comment₀ | .comment | .lit => some []
  | .ident acc => some [.id acc.reverse]
  | .num acc => some [.num acc.reverse]
  | .slash => some [.p 47]
  | .life acc => some [.life acc.reverse]
  | _ => none

def lex (bs : Bytes) : Option (List Tok) :=
  match run .code bs with
  | none => none
  | some (ts, m) =>
    match finish m with
    | none => none
    | some us => some (ts ++ us)

/-- The tokens of a piece of Rust. -/
def toks (s : String) : List Tok := (lex (utf8Of s)).getD []

/-- An identifier. -/
def ident (s : String) : Tok := .id (utf8Of s)

/-! ## Shapes -/

/-- What follows the given tokens. -/
def strip : List Tok → List Tok → Option (List Tok)
  | [], ts => some ts
  | _ :: _, [] => none
  | a :: as, b :: bs => if a = b then strip as bs else none

/-- The parts between separators. -/
def splitTok (s : Tok) : List Tok → List (List Tok)
  | [] => [[]]
  | t :: ts =>
    if t = s then [] :: splitTok s ts
    else match splitTok s ts with
      | [] => [[t]]
      | x :: xs => (t :: x) :: xs

/-- The parts of a list separated by commas; a trailing comma is allowed. -/
def elems (ts : List Tok) : List (List Tok) :=
  let l := splitTok (.p 44) ts
  if l.getLast? = some [] then l.dropLast else l

/-- The tokens before the first `s`, and those after it. -/
def upTo (s : Tok) : List Tok → Option (List Tok × List Tok)
  | [] => none
  | t :: ts =>
    if t = s then some ([], ts)
    else match upTo s ts with
      | none => none
      | some (a, b) => some (t :: a, b)

/-- The tokens before the `}` that closes a block of which the `{` has been read (inside `d` further blocks), and those after
it. -/
def upToClose : Nat → List Tok → Option (List Tok × List Tok)
  | _, [] => none
  | d, t :: ts =>
    if t = .p 125 ∧ d = 0 then some ([], ts)
    else match upToClose (if t = .p 125 then d - 1 else if t = .p 123 then d + 1 else d) ts with
      | none => none
      | some (a, b) => some (t :: a, b)

/-- What is between a list's first token and its last token, which is to be `close`. -/
def inside (close : Tok) (ts : List Tok) : Option (List Tok) := if ts.getLast? = some close then some ts.dropLast else none

/-! ## Statements -/

inductive Arg where
  | ref (x : Bytes)       -- `&x`
  | var (x : Bytes)       -- `x`
  | variant (v : Bytes)   -- `Rules::V`
  | num (n : Nat)
  | byte (s : Bytes)
  | bytes (s : Bytes)
  deriving DecidableEq, Repr

inductive Rhs where
  | call (f : Bytes) (args : List Arg)      -- `f(…)`
  | closure (f : Bytes) (args : List Arg)   -- `move |parent: Key, source: &Source, position: u32| f(…)`
  | variants (vs : List Bytes)              -- `[Rules::A, …].to_vec()`
  deriving DecidableEq, Repr

/-- `let x = …;` -/
structure Let where
  x : Bytes
  rhs : Rhs
  deriving DecidableEq, Repr

/-- A function: `let` statements, then the call `x(parent, source, position)`. -/
structure Fun where
  name : Bytes
  lets : List Let
  tail : Bytes
  deriving DecidableEq, Repr

def readArg : List Tok → Option Arg
  | [.p 38, .id x] => some (.ref x)
  | [.id x] => some (.var x)
  | [.id r, .p 58, .p 58, .id v] => if r = utf8Of "Rules" then some (.variant v) else none
  | [.num n] => some (.num (decValue n))
  | [.byte s] => some (.byte s)
  | [.bytes s] => some (.bytes s)
  | _ => none

/-- `f(…)` -/
def readCall : List Tok → Option (Bytes × List Arg)
  | .id f :: .p 40 :: ts => do
    let ts ← inside (.p 41) ts
    let args ← (elems ts).mapM readArg
    some (f, args)
  | _ => none

def readVariant : List Tok → Option Bytes
  | [.id r, .p 58, .p 58, .id v] => if r = utf8Of "Rules" then some v else none
  | _ => none

/-- The body of a closure may be written as a block. -/
def unblock : List Tok → Option (List Tok)
  | .p 123 :: ts => inside (.p 125) ts
  | ts => some ts

def readRhs (ts : List Tok) : Option Rhs :=
  match strip (toks "[") ts with
  | some ts => do
    let (ts, rest) ← upTo (.p 93) ts
    let vs ← (elems ts).mapM readVariant
    if rest = toks ".to_vec()" then some (.variants vs) else none
  | none =>
    match strip (toks "move |parent: Key, source: &Source, position: u32|") ts with
    | some ts => do
      let ts ← unblock ts
      let (f, args) ← readCall ts
      some (.closure f args)
    | none => do
      let (f, args) ← readCall ts
      some (.call f args)

def readLet : List Tok → Option Let
  | .id l :: .id x :: ts =>
    if l = utf8Of "let" then
      match strip (toks "=") ts with
      | some ts => (readRhs ts).map (⟨x, ·⟩)
      | none => do
        let ts ← strip (toks ": Vec<Rules> =") ts
        match readRhs ts with
        | some (.variants vs) => some ⟨x, .variants vs⟩
        | _ => none
    else none
  | _ => none

def readTail : List Tok → Option Bytes
  | .id x :: ts => if ts = toks "(parent, source, position)" then some x else none
  | _ => none

/-- A block: statements, each ended by `;`, and a final expression. -/
def readBody (ts : List Tok) : Option (List Let × Bytes) :=
  let parts := splitTok (.p 59) ts
  do
    let lets ← parts.dropLast.mapM readLet
    let tail ← readTail (parts.getLastD [])
    some (lets, tail)

/-- The parameters of every function. -/
def params : List (List Tok) :=
  elems (toks "user_state: &RefCell<UserState>, parent: Key, context: &RefCell<T>, source: &Source, position: u32")

def readFun (ts : List Tok) : Option (Fun × List Tok) := do
  let ts ← strip (toks "#[allow(dead_code)] pub fn") ts
  match ts with
  | .id name :: ts => do
    let ts ← strip (toks "<T: Context>(") ts
    let (ps, ts) ← upTo (.p 41) ts
    let ts ← strip (toks "-> (bool, u32) {") ts
    let (body, ts) ← upToClose 0 ts
    let (lets, tail) ← readBody body
    if elems ps = params then some (⟨name, lets, tail⟩, ts) else none
  | _ => none

/-! ## Files -/

inductive Item where
  | glob                        -- `use crate::*;`
  | refCell                     -- `use std::cell::RefCell;`
  | hooks (names : List Bytes)  -- `use crate::hooked_calls::{…};`
  | fn (f : Fun)
  deriving DecidableEq, Repr

def readIdent : List Tok → Option Bytes
  | [.id x] => some x
  | _ => none

def readUse (ts : List Tok) : Option (Item × List Tok) := do
  let ts ← strip (toks "use") ts
  let (path, ts) ← upTo (.p 59) ts
  if path = toks "crate::*" then some (.glob, ts)
  else if path = toks "std::cell::RefCell" then some (.refCell, ts)
  else do
    let x ← strip (toks "crate::hooked_calls::") path
    match x with
    | [.id x] => some (.hooks [x], ts)
    | .p 123 :: l => do
      let l ← inside (.p 125) l
      let xs ← (elems l).mapM readIdent
      some (.hooks xs, ts)
    | _ => none

/-- Items to the end of the file. -/
def readItems : Nat → List Tok → Option (List Item)
  | _, [] => some []
  | 0, _ => none
  | n + 1, ts =>
    match readUse ts with
    | some (i, ts) => (readItems n ts).map (i :: ·)
    | none => do
      let (f, ts) ← readFun ts
      (readItems n ts).map (.fn f :: ·)

/-- `#![allow(…)]` at the start of the file -/
def skipAllows : List Tok → List Tok
  | .p 35 :: .p 33 :: .p 91 :: .id a :: .p 40 :: .id b :: .p 41 :: .p 93 :: ts =>
    if a = utf8Of "allow" then skipAllows ts
    else .p 35 :: .p 33 :: .p 91 :: .id a :: .p 40 :: .id b :: .p 41 :: .p 93 :: ts
  | ts => ts

/-- `parser.rs` -/
def readParser (bs : Bytes) : Option (List Item) := do
  let ts ← lex bs
  readItems ts.length (skipAllows ts)

/-- The keywords of Rust (strict and reserved, edition 2024). -/
def keywords : List Bytes :=
  ["as", "break", "const", "continue", "crate", "else", "enum", "extern", "false", "fn", "for", "if", "impl", "in", "let",
    "loop", "match", "mod", "move", "mut", "pub", "ref", "return", "self", "Self", "static", "struct", "super", "trait", "true",
    "type", "unsafe", "use", "where", "while", "async", "await", "dyn", "abstract", "become", "box", "do", "final", "macro",
    "override", "priv", "typeof", "unsized", "virtual", "yield", "try", "gen", "_"].map utf8Of

/-- The fixed part of `rules.rs` before the number of rules. -/
def rulesHead : List Tok :=
  toks "#![allow(non_camel_case_types)] use num_derive::FromPrimitive; impl From<u32> for Rules { fn from(i: u32) -> Rules { let element = num::FromPrimitive::from_u32(i); match element { Some(rule) => rule, None => panic!(\"Not a valid Rule\"), } } } #[allow(dead_code)] pub static RULES_SIZE: u32 ="
def rulesHead2 : List Tok :=
  toks "; #[allow(clippy::upper_case_acronyms)] #[derive(PartialEq, Eq, Hash, FromPrimitive, Clone, Copy, Debug, Ord, PartialOrd)] pub enum Rules {"

/-- `rules.rs`: the variants of the enum.  They are identifiers, no two are the same (nor have the same lower-case form, by which
rules are known here), and `RULES_SIZE` is their number. -/
def readRules (bs : Bytes) : Option (List Bytes) := do
  let ts ← lex bs
  let ts ← strip rulesHead ts
  match ts with
  | .num n :: ts => do
    let ts ← strip rulesHead2 ts
    let (l, ts) ← upTo (.p 125) ts
    let vs ← (elems l).mapM readIdent
    if ts = [] ∧ decValue n = vs.length ∧ (vs.map lower).Nodup ∧ ∀ v ∈ vs, v ∉ keywords then some vs else none
  | _ => none

/-! ## Meaning -/

/-- What a local variable is. -/
inductive Val where
  | param
  | expr (e : Expr Bytes)
  | set (s : List Bytes)

/-- The names the items of the file define. -/
structure Names where
  variants : List Bytes
  hooks : List Bytes
  fns : List Bytes

/-- Local variables, the latest first. -/
abbrev Locals := List (Bytes × Val)

/-- The parameters in scope of every function. -/
def Locals.init : Locals :=
  [(utf8Of "user_state", .param), (utf8Of "parent", .param), (utf8Of "context", .param), (utf8Of "source", .param),
    (utf8Of "position", .param)]

def Locals.expr (l : Locals) (x : Bytes) : Option (Expr Bytes) :=
  match l.lookup x with
  | some (.expr e) => some e
  | _ => none

/-- The arguments are the parameters with these names (not shadowed). -/
def Locals.areParams (l : Locals) (args : List Arg) (names : List String) : Bool :=
  args = names.map (fun n => .var (utf8Of n)) &&
    names.all fun n => match l.lookup (utf8Of n) with
      | some .param => true
      | _ => false

/-- `x` is a function of this file: no local variable or import hides it. -/
def Names.isFn (g : Names) (l : Locals) (x : Bytes) : Bool := (l.lookup x).isNone && !g.hooks.contains x && g.fns.contains x

/-- `Rules::V` and `f`, the variant and the function of the same rule. -/
def Names.rule (g : Names) (l : Locals) : Arg → Arg → Option Bytes
  | .variant v, .var f => if g.variants.contains v && g.isFn l f && lower v = f then some f else none
  | _, _ => none

def unaries : List (Bytes × Unary) :=
  [(utf8Of "_and_predicate", .and), (utf8Of "_not_predicate", .not), (utf8Of "_one_or_more", .plus),
    (utf8Of "_zero_or_more", .star), (utf8Of "_subexpression", .sub), (utf8Of "_optional", .opt)]
def binaries : List (Bytes × Binary) := [(utf8Of "_ordered_choice", .choice), (utf8Of "_sequence", .seq)]

/-- A call of one of the combinators of `core.rs`. -/
def coreCall (g : Names) (l : Locals) (f : Bytes) (args : List Arg) : Option (Expr Bytes) :=
  match unaries.lookup f, binaries.lookup f, args with
  | some u, _, [.ref x] => (l.expr x).map u.mk
  | _, some b, [.ref x, .ref y] => do
    let e ← l.expr x
    let e' ← l.expr y
    some (b.mk e e')
  | none, none, [.byte s] => if f = utf8Of "_terminal" then (byteLit s).map .terminal else none
  | none, none, [.bytes s] =>
    if f = utf8Of "_string_terminal_opt_ascii" then (byteStr (s.map (·.toNat))).map .stringTerminal else none
  | none, none, [.num a, .num b] =>
    if f = utf8Of "_ordered_choice_match_range" ∧ a < 2 ^ 32 ∧ b < 2 ^ 32 then some (.matchRange a b) else none
  | none, none, [a, v, c, r] =>
    if f = utf8Of "_var_name" ∧ l.areParams [a, c] ["user_state", "context"] then (g.rule l v r).map .varName else none
  | none, none, [a, .ref s, v, c, r] =>
    if f = utf8Of "_var_name_indirect_left_recursion" ∧ l.areParams [a, c] ["user_state", "context"] then
      match l.lookup s with
      | some (.set inv) => (g.rule l v r).map (.varNameLR inv)
      | _ => none
    else none
  | _, _, _ => none

/-- A call: of an imported hooked call, or of a combinator.  (`f` is not a local variable and not a function of the file,
which would hide the combinator.) -/
def callMeaning (g : Names) (l : Locals) (f : Bytes) (args : List Arg) : Option (Expr Bytes) :=
  if (l.lookup f).isSome || g.fns.contains f then none
  else if g.hooks.contains f then
    match args with
    | [a, b, c, d, e, .ref x] =>
      if l.areParams [a, b, c, d, e] ["user_state", "parent", "context", "source", "position"] then
        (l.expr x).map (.hooked (asStr f))
      else none
    | _ => none
  else coreCall g l f args

/-- One `let` statement. -/
def Let.step (g : Names) (l : Locals) (s : Let) : Option Locals :=
  if s.x ∈ keywords then none
  else match s.rhs with
    | .call f args => (callMeaning g l f args).map fun e => (s.x, .expr e) :: l
    | .closure f args =>
      if g.isFn l f ∧ l.areParams args ["user_state", "parent", "context", "source", "position"] then
        some ((s.x, .expr (.inlined f)) :: l)
      else none
    | .variants vs => if vs.all g.variants.contains then some ((s.x, .set (vs.map lower)) :: l) else none

/-- The closure a function builds and calls. -/
def bodyMeaning (g : Names) (l : Locals) : List Let → Bytes → Option (Expr Bytes)
  | [], tail => if l.areParams ([utf8Of "parent", utf8Of "source", utf8Of "position"].map .var) ["parent", "source", "position"] then l.expr tail else none
  | s :: ss, tail =>
    match s.step g l with
    | none => none
    | some l => bodyMeaning g l ss tail

def hooksOf (items : List Item) : List Bytes := (items.map fun | .hooks l => l | _ => []).flatten
def funsOf (items : List Item) : List Fun := items.filterMap fun | .fn f => some f | _ => none

/-- The functions of a file with the closures they build: the imports are there, no name is a keyword, and no name is
defined or imported twice. -/
def meaning (variants : List Bytes) (items : List Item) : Option (List (Bytes × Expr Bytes)) :=
  let hooks := hooksOf items
  let funs := funsOf items
  let fns := funs.map Fun.name
  if items.count .glob = 1 ∧ items.count .refCell = 1 ∧ (hooks ++ fns).Nodup ∧ ∀ x ∈ hooks ++ fns, x ∉ keywords then
    funs.mapM fun f => (bodyMeaning ⟨variants, hooks, fns⟩ .init f.lets f.tail).map fun e => (f.name, e)
  else none

/-- The rules that `rules.rs` and `parser.rs` define: the function and the closure of each, in order. -/
def program (rules parser : Bytes) : Option (List (Bytes × Expr Bytes)) := do
  let vs ← readRules rules
  let items ← readParser parser
  meaning vs items

end PP.Gen.Text
