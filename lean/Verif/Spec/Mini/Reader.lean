import Verif.Spec.Mini.Syntax

/-! # Specification: reading source files of the core -/
namespace PP.Mini
open PP.Gen
open PP.Gen.Text (Tok lex)

/-- Tokens, with numbers for identifiers and punctuation. -/
inductive T where
  | id (x : Name) | num (n : Nat) | byte (s : Bytes) | bytes (s : Bytes) | str (s : Name) | msg | life | p (c : Nat)
  deriving DecidableEq, Repr

def T.of : Tok → T
  | .id s => .id (nameOf s)
  | .num s => .num (Gen.decValue s)
  | .byte s => .byte s
  | .bytes s => .bytes s
  | .str s => if s.contains 92 || s.contains 0 then .msg else .str (nameOf s)
  | .life _ => .life
  | .p c => .p c.toNat

local notation:max "Rd" t:max => Option (t × List T)

/-- The rest after a token. -/
def expect (t : T) : List T → Option (List T)
  | [] => none
  | u :: ts => if u = t then some ts else none

/-- Skip to the next token in `stops` outside of `<>`, `()` and `[]` (for types; `->` is not a bracket).  That token is kept. -/
def skipTo (stops : List Nat) : Nat → List T → Option (List T)
  | _, [] => none
  | d, t :: ts =>
    match t with
    | .p c =>
      if d = 0 ∧ c ∈ stops then some (t :: ts)
      else if c = n!"-" then
        match ts with
        | .p 62 :: ts => skipTo stops d ts
        | ts => skipTo stops d ts
      else if c = n!"<" ∨ c = n!"(" ∨ c = n!"[" then skipTo stops (d + 1) ts
      else if c = n!">" ∨ c = n!")" ∨ c = n!"]" then skipTo stops (d - 1) ts
      else skipTo stops d ts
    | _ => skipTo stops d ts

/-- Skip the rest of a bracketed group whose opening bracket has been read. -/
def skipGroup (o c : Nat) : Nat → List T → Option (List T)
  | _, [] => none
  | d, t :: ts =>
    if t = .p c then (if d = 0 then some ts else skipGroup o c (d - 1) ts)
    else if t = .p o then skipGroup o c (d + 1) ts
    else skipGroup o c d ts

/-- What an impl block says about `Self`: its type, and its associated types. -/
structure Self where
  ty : Option Name
  assoc : List (Name × Name)

/-- `Self` and `Self::X` resolved. -/
def Self.resolve (s : Self) : List Name → List Name
  | a :: b :: r =>
    if a = n!"Self" then
      match s.assoc.lookup b with
      | some t => t :: r
      | none => (s.ty.getD a) :: b :: r
    else a :: b :: r
  | [a] => if a = n!"Self" then [s.ty.getD a] else [a]
  | [] => []

/-- The rest of a path, after an identifier; `::<…>` is left out. -/
def readPath : Nat → List Name → List T → Rd (List Name)
  | 0, _, _ => none
  | n + 1, acc, .p 58 :: .p 58 :: .id x :: ts => readPath n (x :: acc) ts
  | n + 1, acc, .p 58 :: .p 58 :: .p 60 :: ts => do
    let ts ← skipGroup 60 62 0 ts
    readPath n acc ts
  | _ + 1, acc, ts => some (acc.reverse, ts)

/-- A comma-separated list of variables up to `)`. -/
def readNames : Nat → List Name → List T → Rd (List Name)
  | 0, _, _ => none
  | _ + 1, acc, .p 41 :: ts => some (acc.reverse, ts)
  | n + 1, acc, .id x :: .p 44 :: ts => readNames n (x :: acc) ts
  | n + 1, acc, .id x :: ts => readNames n (x :: acc) ts
  | _ + 1, _, _ => none

/-- The rest of `T::A | T::B | …`. -/
def readVariantPats : Nat → List (Name × Name) → List T → Rd Pat
  | 0, _, _ => none
  | n + 1, acc, .p 124 :: .id t :: .p 58 :: .p 58 :: .id x :: ts => readVariantPats n ((t, x) :: acc) ts
  | _ + 1, acc, ts => some (.variants acc.reverse, ts)

def readPat : List T → Rd Pat
  | .p 40 :: ts => do
    let (xs, ts) ← readNames 20 [] ts
    some (.tuple xs, ts)
  | .id a :: ts =>
    if a = n!"None" then some (.none, ts)
    else if a = n!"_" then some (.wild, ts)
    else if a = n!"Some" then
      match ts with
      | .p 40 :: .p 40 :: ts => do
        let (xs, ts) ← readNames 20 [] ts
        let ts ← expect (.p 41) ts
        some (.someTuple xs, ts)
      | .p 40 :: .id x :: .p 41 :: ts => some (.some x, ts)
      | _ => none
    else
      match ts with
      | .p 58 :: .p 58 :: .id x :: ts => readVariantPats (ts.length + 1) [(a, x)] ts
      | ts => some (.var a, ts)
  | _ => none

/-- Closure parameters up to `|`; types are left out. -/
def readCloParams : Nat → List Name → List T → Rd (List Name)
  | 0, _, _ => none
  | _ + 1, acc, .p 124 :: ts => some (acc.reverse, ts)
  | n + 1, acc, .p 44 :: ts => readCloParams n acc ts
  | n + 1, acc, .id x :: ts => do
    let ts ← skipTo [44, 124] 0 ts
    readCloParams n (x :: acc) ts
  | _ + 1, _, _ => none

/-- Expressions that end a statement without `;`. -/
def blockLike : Ex → Bool
  | .ite .. | .mtch .. | .block .. | .loop .. | .forIn .. => true
  | _ => false

def Exs.ofList : List Ex → Exs
  | [] => .nil
  | e :: es => .cons e (.ofList es)

/-- A binary operator at the start, with its binding strength (higher binds tighter). -/
def readOp : List T → Option (Op × Nat × List T)
  | .p 61 :: .p 61 :: ts => some (.eq, 3, ts)
  | .p 33 :: .p 61 :: ts => some (.ne, 3, ts)
  | .p 60 :: .p 61 :: ts => some (.le, 3, ts)
  | .p 62 :: .p 61 :: ts => some (.ge, 3, ts)
  | .p 60 :: ts => some (.lt, 3, ts)
  | .p 62 :: ts => some (.gt, 3, ts)
  | .p 38 :: .p 38 :: ts => some (.and, 2, ts)
  | .p 124 :: .p 124 :: ts => some (.or, 1, ts)
  | .p 43 :: .p 61 :: _ => none
  | .p 43 :: ts => some (.add, 4, ts)
  | .p 45 :: ts => some (.sub, 4, ts)
  | .p 42 :: ts => some (.mul, 5, ts)
  | .p 47 :: ts => some (.div, 5, ts)
  | _ => none

mutual
/-- An expression.  `st`: struct literals are allowed (not in conditions). -/
def readEx (s : Self) (st : Bool) : Nat → List T → Rd Ex
  | 0, _ => none
  | n + 1, ts => do
    let (a, ts) ← readBin s st 1 n ts
    match ts with
    | .p 43 :: .p 61 :: ts => do
      let (b, ts) ← readEx s st n ts
      some (.addAssign a b, ts)
    | .p 61 :: ts =>
      match ts with
      | .p 62 :: _ => some (a, .p 61 :: ts)   -- `=>`
      | ts => do
        let (b, ts) ← readEx s st n ts
        some (.assign a b, ts)
    | ts => some (a, ts)
/-- Operators that bind at least as tightly as `k`. -/
def readBin (s : Self) (st : Bool) (k : Nat) : Nat → List T → Rd Ex
  | 0, _ => none
  | n + 1, ts => do
    let (a, ts) ← readUnary s st n ts
    readBinTail s st k a n ts
def readBinTail (s : Self) (st : Bool) (k : Nat) (a : Ex) : Nat → List T → Rd Ex
  | 0, _ => none
  | n + 1, ts =>
    match readOp ts with
    | some (o, j, ts') =>
      if k ≤ j then do
        let (b, ts) ← readBin s st (j + 1) n ts'
        readBinTail s st k (.bin o a b) n ts
      else some (a, ts)
    | none => some (a, ts)
def readUnary (s : Self) (st : Bool) : Nat → List T → Rd Ex
  | 0, _ => none
  | n + 1, .p 33 :: ts => do
    let (e, ts) ← readUnary s st n ts
    some (.not e, ts)
  | n + 1, .p 45 :: ts => do
    let (e, ts) ← readUnary s st n ts
    some (.neg e, ts)
  | n + 1, .p 42 :: ts => do
    let (e, ts) ← readUnary s st n ts
    some (.deref e, ts)
  | n + 1, .p 38 :: ts =>
    match ts with
    | .id m :: ts' =>
      if m = n!"mut" then do
        let (e, ts) ← readUnary s st n ts'
        some (.refMut e, ts)
      else do
        let (e, ts) ← readUnary s st n ts
        some (.ref e, ts)
    | ts => do
      let (e, ts) ← readUnary s st n ts
      some (.ref e, ts)
  | n + 1, ts => do
    let (e, ts) ← readPrim s st n ts
    let (e, ts) ← readPost s e n ts
    readCast e n ts
/-- `as` -/
def readCast (e : Ex) : Nat → List T → Rd Ex
  | n + 1, .id a :: .id ty :: ts => if a = n!"as" then readCast (.cast e ty) n ts else some (e, .id a :: .id ty :: ts)
  | _, ts => some (e, ts)
/-- Calls, methods, fields, indices. -/
def readPost (s : Self) (e : Ex) : Nat → List T → Rd Ex
  | 0, _ => none
  | n + 1, .p 46 :: .id m :: .p 40 :: ts => do
    let (es, ts) ← readArgs s 41 n ts
    readPost s (.meth e m es) n ts
  | n + 1, .p 46 :: .id f :: ts => readPost s (.field e f) n ts
  | n + 1, .p 46 :: .num i :: ts => readPost s (.field e i) n ts
  | n + 1, .p 40 :: ts =>
    if blockLike e then some (e, .p 40 :: ts)
    else do
      let (es, ts) ← readArgs s 41 n ts
      readPost s (.call e es) n ts
  | n + 1, .p 91 :: ts =>
    if blockLike e then some (e, .p 91 :: ts)
    else do
      let (i, ts) ← readEx s true n ts
      match ts with
      | .p 46 :: .p 46 :: ts => do
        let (j, ts) ← readEx s true n ts
        let ts ← expect (.p 93) ts
        readPost s (.slice e i j) n ts
      | ts => do
        let ts ← expect (.p 93) ts
        readPost s (.index e i) n ts
  | _ + 1, ts => some (e, ts)
/-- Expressions separated by commas, up to the closing bracket `c`. -/
def readArgs (s : Self) (c : Nat) : Nat → List T → Rd Exs
  | 0, _ => none
  | n + 1, ts =>
    match expect (.p c) ts with
    | some ts => some (.nil, ts)
    | none => do
      let (e, ts) ← readEx s true n ts
      match ts with
      | .p 44 :: ts => do
        let (es, ts) ← readArgs s c n ts
        some (.cons e es, ts)
      | ts => do
        let ts ← expect (.p c) ts
        some (.cons e .nil, ts)
def readPrim (s : Self) (st : Bool) : Nat → List T → Rd Ex
  | 0, _ => none
  | _ + 1, .num k :: ts => some (.int k, ts)
  | _ + 1, .byte b :: ts => some (.byte b, ts)
  | _ + 1, .bytes b :: ts => some (.bytes b, ts)
  | _ + 1, .str b :: ts => some (.str b, ts)
  | _ + 1, .msg :: ts => some (.msg, ts)
  | n + 1, .p 40 :: ts =>
    match ts with
    | .p 41 :: ts => some (.tuple .nil, ts)
    | ts => do
      let (e, ts) ← readEx s true n ts
      match ts with
      | .p 41 :: ts => some (e, ts)
      | .p 44 :: ts => do
        let (es, ts) ← readArgs s 41 n ts
        some (.tuple (.cons e es), ts)
      | _ => none
  | n + 1, .p 91 :: ts => do
    let (es, ts) ← readArgs s 93 n ts
    some (.array es, ts)
  | n + 1, .p 123 :: ts => do
    let (b, ts) ← readBlk s n ts
    some (.block b, ts)
  | n + 1, .id a :: ts =>
    if a = n!"true" then some (.bool true, ts)
    else if a = n!"false" then some (.bool false, ts)
    else if a = n!"break" then some (.brk, ts)
    else if a = n!"return" then
      match ts with
      | .p 59 :: ts => some (.ret (.tuple .nil), .p 59 :: ts)
      | ts => do
        let (e, ts) ← readEx s st n ts
        some (.ret e, ts)
    else if a = n!"if" then readIf s n ts
    else if a = n!"loop" then do
      let ts ← expect (.p 123) ts
      let (b, ts) ← readBlk s n ts
      some (.loop (.block b), ts)
    else if a = n!"for" then do
      let (p, ts) ← readPat ts
      let ts ← expect (.id n!"in") ts
      let (e, ts) ← readEx s false n ts
      let ts ← expect (.p 123) ts
      let (b, ts) ← readBlk s n ts
      some (.forIn p e (.block b), ts)
    else if a = n!"match" then do
      let (e, ts) ← readEx s false n ts
      let ts ← expect (.p 123) ts
      let (as, ts) ← readArms s n ts
      some (.mtch e as, ts)
    else if a = n!"move" then do
      let ts ← expect (.p 124) ts
      let (ps, ts) ← readCloParams n [] ts
      let (b, ts) ← readEx s st n ts
      some (.clo ps b, ts)
    else do
      let (q, ts) ← readPath n [a] ts
      let q := s.resolve q
      match q, ts with
      | [x], .p 33 :: .p 40 :: ts => do
        let (es, ts) ← readArgs s 41 n ts
        some (.mac x es, ts)
      | [x], .p 33 :: .p 91 :: ts =>
        if x = n!"vec" then do
          let (es, ts) ← readArgs s 93 n ts
          some (.array es, ts)
        else none
      | [x], .p 123 :: ts =>
        if st then do
          let (fs, ts) ← readFlds s n ts
          some (.struct x fs, ts)
        else some (.path q, .p 123 :: ts)
      | _, ts => some (.path q, ts)
  | _ + 1, _ => none
/-- After `if`. -/
def readIf (s : Self) : Nat → List T → Rd Ex
  | 0, _ => none
  | n + 1, ts => do
    let (c, ts) ← readEx s false n ts
    let ts ← expect (.p 123) ts
    let (a, ts) ← readBlk s n ts
    match expect (.id n!"else") ts with
    | some ts =>
      match ts with
      | .p 123 :: ts => do
        let (b, ts) ← readBlk s n ts
        some (.ite c (.block a) (.block b), ts)
      | .id i :: ts =>
        if i = n!"if" then do
          let (b, ts) ← readIf s n ts
          some (.ite c (.block a) b, ts)
        else none
      | _ => none
    | none => some (.ite c (.block a) (.tuple .nil), ts)
/-- Fields of a struct literal, up to `}`. -/
def readFlds (s : Self) : Nat → List T → Rd Flds
  | 0, _ => none
  | _ + 1, .p 125 :: ts => some (.nil, ts)
  | n + 1, .id f :: .p 58 :: ts => do
    let (e, ts) ← readEx s true n ts
    let (fs, ts) ← readFldsTail s n ts
    some (.cons f e fs, ts)
  | n + 1, .id f :: ts => do
    let (fs, ts) ← readFldsTail s n ts
    some (.cons f (.path [f]) fs, ts)
  | _ + 1, _ => none
def readFldsTail (s : Self) : Nat → List T → Rd Flds
  | 0, _ => none
  | n + 1, .p 44 :: ts => readFlds s n ts
  | n + 1, ts => readFlds s n ts
/-- Match arms, up to `}`. -/
def readArms (s : Self) : Nat → List T → Rd Arms
  | 0, _ => none
  | _ + 1, .p 125 :: ts => some (.nil, ts)
  | n + 1, ts => do
    let (p, ts) ← readPat ts
    let ts ← expect (.p 61) ts
    let ts ← expect (.p 62) ts
    let (e, ts) ← readEx s true n ts
    match ts with
    | .p 44 :: ts => do
      let (as, ts) ← readArms s n ts
      some (.cons p e as, ts)
    | ts => do
      let (as, ts) ← readArms s n ts
      some (.cons p e as, ts)
/-- Statements and a final expression, up to `}`. -/
def readBlk (s : Self) : Nat → List T → Rd Blk
  | 0, _ => none
  | _ + 1, .p 125 :: ts => some (.nil, ts)
  | n + 1, .p 35 :: .p 91 :: ts => do
    let ts ← skipGroup 91 93 0 ts
    readBlk s n ts
  | n + 1, ts =>
    match expect (.id n!"let") ts with
    | some ts => do
      let (mt, ts) := match expect (.id n!"mut") ts with
        | some ts => (true, ts)
        | none => (false, ts)
      let (p, ts) ← readPat ts
      let ts ← skipTo [61, 59] 0 ts
      match ts with
      | .p 61 :: ts => do
        let (e, ts) ← readEx s true n ts
        let ts ← expect (.p 59) ts
        let (b, ts) ← readBlk s n ts
        some (.letS p mt e b, ts)
      | .p 59 :: ts =>
        match p with
        | .var x => do
          let (b, ts) ← readBlk s n ts
          some (.letU x b, ts)
        | _ => none
      | _ => none
    | none => do
      let (e, ts) ← readStmt s n ts
      match ts with
      | .p 125 :: ts => some (.tail e, ts)
      | .p 59 :: ts => do
        let (b, ts) ← readBlk s n ts
        some (.exprS e b, ts)
      | ts =>
        if blockLike e then do
          let (b, ts) ← readBlk s n ts
          some (.exprS e b, ts)
        else none
/-- An expression at the start of a statement: `if`, `match`, blocks and loops end there (unless a method is called). -/
def readStmt (s : Self) : Nat → List T → Rd Ex
  | 0, _ => none
  | n + 1, ts =>
    match readPrim s true n ts with
    | some (e, ts') =>
      if blockLike e then
        match ts' with
        | .p 46 :: _ => readEx s true n ts
        | _ => some (e, ts')
      else readEx s true n ts
    | none => readEx s true n ts
end

/-! ## Items -/

/-- Parameters up to `)`; types are left out. -/
def readParams : Nat → List Name → List T → Rd (List Name)
  | 0, _, _ => none
  | _ + 1, acc, .p 41 :: ts => some (acc.reverse, ts)
  | n + 1, acc, .p 44 :: ts => readParams n acc ts
  | n + 1, acc, .id x :: .p 58 :: ts => do
    let ts ← skipTo [44, 41] 0 ts
    readParams n (x :: acc) ts
  | _ + 1, _, _ => none

/-- The receiver, if there is one. -/
def readRecv (ts : List T) : Recv × List T :=
  match ts with
  | .p 38 :: .id m :: .id x :: ts' => if m = n!"mut" ∧ x = n!"self" then (.refMut, ts') else (.none, ts)
  | .p 38 :: .id x :: ts' => if x = n!"self" then (.ref, ts') else (.none, ts)
  | .id x :: ts' => if x = n!"self" then (.val, ts') else (.none, ts)
  | ts => (.none, ts)

/-- A function, after `fn`.  In traits there may be no body. -/
def readFn (s : Self) : List T → Rd (Option Fn)
  | .id name :: ts => do
    let ts ← skipTo [40] 0 ts
    let ts ← expect (.p 40) ts
    let (rc, ts) := readRecv ts
    let (ps, ts) ← readParams 200 [] ts
    let ts ← skipTo [123, 59] 0 ts
    match ts with
    | .p 59 :: ts => some (none, ts)
    | .p 123 :: ts => do
      let rest ← skipGroup 123 125 0 ts
      let body := match readBlk s (16 * ts.length + 16) ts with
        | some (b, r) => if r = rest then some (.block b) else none
        | none => none
      some (some ⟨s.ty, name, rc, ps, body⟩, rest)
    | _ => none
  | _ => none

/-- The identifiers of an enum, up to `}`. -/
def readVariants : Nat → List Name → List T → Rd (List Name)
  | 0, _, _ => none
  | _ + 1, acc, .p 125 :: ts => some (acc.reverse, ts)
  | n + 1, acc, .id x :: ts => readVariants n (x :: acc) ts
  | n + 1, acc, .p 44 :: ts => readVariants n acc ts
  | _ + 1, _, _ => none

/-- After `impl`: the type, and what follows the `{`. -/
def implHead (ts : List T) : Rd Name := do
  let ts ← match ts with
    | .p 60 :: ts => skipGroup 60 62 0 ts
    | ts => some ts
  match ts with
  | .id a :: ts => do
    let ts ← match ts with
      | .p 60 :: ts => skipGroup 60 62 0 ts
      | ts => some ts
    match ts with
    | .id f :: .id t :: ts =>
      if f = n!"for" then do
        let ts ← skipTo [123] 0 ts
        let ts ← expect (.p 123) ts
        some (t, ts)
      else none
    | ts => do
      let ts ← expect (.p 123) ts
      some (a, ts)
  | _ => none

/-- Items up to the end of the file, or (in an impl block) up to `}`.  Attributes, `use`, `mod`, traits and structs with named fields
are skipped. -/
def readItems (s : Self) (inner : Bool) : Nat → List T → Rd (List Item)
  | 0, _ => none
  | _ + 1, [] => if inner then none else some ([], [])
  | n + 1, t :: ts =>
    if t = .p 35 then
      match ts with
      | .p 33 :: .p 91 :: ts => do
        let ts ← skipGroup 91 93 0 ts
        readItems s inner n ts
      | .p 91 :: ts => do
        let ts ← skipGroup 91 93 0 ts
        readItems s inner n ts
      | _ => none
    else if t = .p 125 then (if inner then some ([], ts) else none)
    else if t = .id n!"pub" then readItems s inner n ts
    else if t = .id n!"use" then do
      let ts ← skipGroup 0 59 0 ts
      readItems s inner n ts
    else if t = .id n!"mod" then
      match ts with
      | .id _ :: .p 59 :: ts => readItems s inner n ts
      | .id _ :: .p 123 :: ts => do
        let ts ← skipGroup 123 125 0 ts
        readItems s inner n ts
      | _ => none
    else if t = .id n!"trait" then do
      let ts ← skipTo [123] 0 ts
      let ts ← expect (.p 123) ts
      let ts ← skipGroup 123 125 0 ts
      readItems s inner n ts
    else if t = .id n!"static" then
      match ts with
      | .id x :: .p 58 :: .id _ :: .p 61 :: .num k :: .p 59 :: ts => do
        let (is, ts) ← readItems s inner n ts
        some (.const x k :: is, ts)
      | _ => none
    else if t = .id n!"enum" then
      match ts with
      | .id e :: .p 123 :: ts => do
        let (vs, ts) ← readVariants (ts.length + 1) [] ts
        let (is, ts) ← readItems s inner n ts
        some (.enum e vs :: is, ts)
      | _ => none
    else if t = .id n!"struct" then
      match ts with
      | .id x :: .p 59 :: ts => do
        let (is, ts) ← readItems s inner n ts
        some (.unitStruct x :: is, ts)
      | .id x :: .p 40 :: ts => do
        let ts ← skipGroup 40 41 0 ts
        let ts ← expect (.p 59) ts
        let (is, ts) ← readItems s inner n ts
        some (.tupleStruct x :: is, ts)
      | ts => do
        let ts ← skipTo [123] 0 ts
        let ts ← expect (.p 123) ts
        let ts ← skipGroup 123 125 0 ts
        readItems s inner n ts
    else if t = .id n!"type" then
      match ts with
      | .id a :: .p 61 :: .id b :: .p 59 :: ts => readItems { s with assoc := (a, b) :: s.assoc } inner n ts
      | _ => none
    else if t = .id n!"fn" then do
      let (f, ts) ← readFn s ts
      let (is, ts) ← readItems s inner n ts
      match f with
      | none => some (is, ts)
      | some f => some (.fn f :: is, ts)
    else if t = .id n!"impl" then do
      let (ty, ts) ← implHead ts
      let (is, ts) ← readItems ⟨some ty, []⟩ true n ts
      let (js, ts) ← readItems s inner n ts
      some (is ++ js, ts)
    else none

/-- A source file. -/
def readFile (bs : Bytes) : Option (List Item) := do
  let ts ← lex bs
  let ts := ts.map T.of
  match readItems ⟨none, []⟩ false (ts.length + 1) ts with
  | some (is, []) => some is
  | _ => none

end PP.Mini
