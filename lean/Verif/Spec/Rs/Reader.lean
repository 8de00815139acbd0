import Verif.Spec.Rs.Lex

/-! # Specification: reading the source files of the generator

`&e` and `*e` are read as `e`, and so is `&mut e` as an argument.  Functions that use `&mut` in other places (in an expression or a `let`)
are not in the fragment; neither are closures that assign.  Types are left out, except that `let x: u32 = e` is read as `let x = e as u32`. -/
namespace PP.Rs
open PP.Gen
open PP.Mini (Name nameOf)

local notation:max "Rd" t:max => Option (t × List T)

/-- The rest after a token. -/
def expect (t : T) : List T → Option (List T)
  | [] => none
  | u :: ts => if u = t then some ts else none

/-- Skip to the next token in `stops` outside of `<>`, `()` and `[]` (for types; `->` is not a bracket).  That token is kept. -/
def skipTo (stops : List Nat) : Nat → List T → Option (List T)
  | _, [] => none
  | d, t :: ts =>
    match t with
    | .p c =>
      if d = 0 ∧ c ∈ stops then some (t :: ts)
      else if c = n!"-" then
        match ts with
        | .p 62 :: ts => skipTo stops d ts
        | ts => skipTo stops d ts
      else if c = n!"<" ∨ c = n!"(" ∨ c = n!"[" then skipTo stops (d + 1) ts
      else if c = n!">" ∨ c = n!")" ∨ c = n!"]" then skipTo stops (d - 1) ts
      else skipTo stops d ts
    | _ => skipTo stops d ts

/-- Skip the rest of a bracketed group whose opening bracket has been read. -/
def skipGroup (o c : Nat) : Nat → List T → Option (List T)
  | _, [] => none
  | d, t :: ts =>
    if t = .p c then (if d = 0 then some ts else skipGroup o c (d - 1) ts)
    else if t = .p o then skipGroup o c (d + 1) ts
    else skipGroup o c d ts

/-- `Self` resolved. -/
def resolve (s : Option Name) : List Name → List Name
  | a :: r => if a = n!"Self" then s.getD a :: r else a :: r
  | [] => []

/-- The rest of a path, after an identifier; `::<…>` is left out. -/
def readPath : Nat → List Name → List T → Rd (List Name)
  | 0, _, _ => none
  | n + 1, acc, .p 58 :: .p 58 :: .id x :: ts => readPath n (x :: acc) ts
  | n + 1, acc, .p 58 :: .p 58 :: .p 60 :: ts => do
    let ts ← skipGroup 60 62 0 ts
    readPath n acc ts
  | _ + 1, acc, ts => some (acc.reverse, ts)

/-- A comma-separated list of variables up to `)`. -/
def readNames : Nat → List Name → List T → Rd (List Name)
  | 0, _, _ => none
  | _ + 1, acc, .p 41 :: ts => some (acc.reverse, ts)
  | n + 1, acc, .id x :: .p 44 :: ts => readNames n (x :: acc) ts
  | n + 1, acc, .id x :: ts => readNames n (x :: acc) ts
  | _ + 1, _, _ => none

/-- The rest of `T::A | T::B | …`. -/
def readVariantPats : Nat → List (Name × Name) → List T → Rd Pat
  | 0, _, _ => none
  | n + 1, acc, .p 124 :: .id t :: .p 58 :: .p 58 :: .id x :: ts => readVariantPats n ((t, x) :: acc) ts
  | _ + 1, acc, ts => some (.variants acc.reverse, ts)

def readPat : List T → Rd Pat
  | .p 40 :: ts => do
    let (xs, ts) ← readNames 20 [] ts
    some (.tuple xs, ts)
  | .id a :: ts =>
    if a = n!"None" then some (.none, ts)
    else if a = n!"_" then some (.wild, ts)
    else if a = n!"Some" ∨ a = n!"Ok" then
      match ts with
      | .p 40 :: .id x :: .p 41 :: ts => some (.some x, ts)
      | _ => none
    else if a = n!"Err" then
      match ts with
      | .p 40 :: .id _ :: .p 41 :: ts => some (.none, ts)
      | _ => none
    else
      match ts with
      | .p 58 :: .p 58 :: .id x :: .p 40 :: .p 46 :: .p 46 :: .p 41 :: ts => some (.dataAny a x, ts)
      | .p 58 :: .p 58 :: .id x :: .p 40 :: ts => do
        let (xs, ts) ← readNames 20 [] ts
        some (.data a x xs, ts)
      | .p 58 :: .p 58 :: .id x :: ts => readVariantPats (ts.length + 1) [(a, x)] ts
      | ts => some (.var a, ts)
  | _ => none

/-- Closure parameters up to `|`; types are left out. -/
def readCloParams : Nat → List Name → List T → Rd (List Name)
  | 0, _, _ => none
  | _ + 1, acc, .p 124 :: ts => some (acc.reverse, ts)
  | n + 1, acc, .p 44 :: ts => readCloParams n acc ts
  | n + 1, acc, .id x :: ts => do
    let ts ← skipTo [44, 124] 0 ts
    readCloParams n (x :: acc) ts
  | _ + 1, _, _ => none

/-- Expressions that end a statement without `;`. -/
def blockLike : Ex → Bool
  | .ite .. | .mtch .. | .block .. | .loop .. | .forIn .. => true
  | _ => false

/-- A binary operator at the start, with its binding strength (higher binds tighter). -/
def readOp : List T → Option (Op × Nat × List T)
  | .p 61 :: .p 61 :: ts => some (.eq, 3, ts)
  | .p 33 :: .p 61 :: ts => some (.ne, 3, ts)
  | .p 60 :: .p 61 :: ts => some (.le, 3, ts)
  | .p 62 :: .p 61 :: ts => some (.ge, 3, ts)
  | .p 60 :: ts => some (.lt, 3, ts)
  | .p 62 :: ts => some (.gt, 3, ts)
  | .p 38 :: .p 38 :: ts => some (.and, 2, ts)
  | .p 124 :: .p 124 :: ts => some (.or, 1, ts)
  | .p 43 :: .p 61 :: _ => none
  | .p 43 :: ts => some (.add, 4, ts)
  | .p 45 :: ts => some (.sub, 4, ts)
  | _ => none

/-! ## Format strings -/

/-- Up to a `}`. -/
def fmtHole : Bytes → Option (Bytes × Bytes)
  | [] => none
  | c :: cs => if c = 125 then some ([], cs) else (fmtHole cs).map fun (a, r) => (c :: a, r)

/-- What is between the braces. -/
def holePiece (h : Bytes) : Option Piece :=
  if h = [] then some .disp
  else if h = [58, 63] then some .dbg
  else if h.all isIdCont then some (.dispVar (nameOf h))
  else if h.reverse.take 2 = [63, 58] && (h.reverse.drop 2).all isIdCont then some (.dbgVar (nameOf (h.reverse.drop 2).reverse))
  else none

/-- The pieces of a format string; `acc` is the literal text read so far, reversed. -/
def fmtPieces : Nat → Bytes → Bytes → Option (List Piece)
  | 0, _, _ => none
  | _ + 1, acc, [] => some [.lit acc.reverse]
  | n + 1, acc, 123 :: 123 :: cs => fmtPieces n (123 :: acc) cs
  | n + 1, acc, 125 :: 125 :: cs => fmtPieces n (125 :: acc) cs
  | n + 1, acc, c :: cs =>
    if c = 123 then
      match fmtHole cs with
      | none => none
      | some (h, cs) =>
        match holePiece h, fmtPieces n [] cs with
        | some p, some ps => some (.lit acc.reverse :: p :: ps)
        | _, _ => none
    else if c = 125 then none
    else fmtPieces n (c :: acc) cs

/-- Whether a type (or an expression) starts with `&mut` (or `&'a mut`). -/
def isRefMut : List T → Bool
  | .p 38 :: .life :: .id m :: _ => m = n!"mut"
  | .p 38 :: .id m :: _ => m = n!"mut"
  | _ => false

/-- Without a `&mut` in front. -/
def skipRefMut : List T → List T
  | .p 38 :: .id m :: ts => if m = n!"mut" then ts else .p 38 :: .id m :: ts
  | ts => ts

mutual
/-- An expression.  `st`: struct literals are allowed (not in conditions). -/
def readEx (s : Option Name) (st : Bool) : Nat → List T → Rd Ex
  | 0, _ => none
  | n + 1, ts => do
    let (a, ts) ← readBin s st 1 n ts
    match ts with
    | .p 43 :: .p 61 :: ts => do
      let (b, ts) ← readEx s st n ts
      some (.addAssign a b, ts)
    | .p 61 :: ts =>
      match ts with
      | .p 62 :: _ => some (a, .p 61 :: ts)   -- `=>`
      | ts => do
        let (b, ts) ← readEx s st n ts
        some (.assign a b, ts)
    | ts => some (a, ts)
/-- Operators that bind at least as tightly as `k`. -/
def readBin (s : Option Name) (st : Bool) (k : Nat) : Nat → List T → Rd Ex
  | 0, _ => none
  | n + 1, ts => do
    let (a, ts) ← readUnary s st n ts
    readBinTail s st k a n ts
def readBinTail (s : Option Name) (st : Bool) (k : Nat) (a : Ex) : Nat → List T → Rd Ex
  | 0, _ => none
  | n + 1, ts =>
    match readOp ts with
    | some (o, j, ts') =>
      if k ≤ j then do
        let (b, ts) ← readBin s st (j + 1) n ts'
        readBinTail s st k (.bin o a b) n ts
      else some (a, ts)
    | none => some (a, ts)
def readUnary (s : Option Name) (st : Bool) : Nat → List T → Rd Ex
  | 0, _ => none
  | n + 1, .p 33 :: ts => do
    let (e, ts) ← readUnary s st n ts
    some (.not e, ts)
  | n + 1, .p 42 :: ts => readUnary s st n ts
  | n + 1, .p 38 :: ts =>
    match ts with
    | .id m :: _ => if m = n!"mut" then none else readUnary s st n ts
    | ts => readUnary s st n ts
  | n + 1, ts => do
    let (e, ts) ← readPrim s st n ts
    let (e, ts) ← readPost s e n ts
    readCast e n ts
/-- `as` -/
def readCast (e : Ex) : Nat → List T → Rd Ex
  | n + 1, .id a :: .id ty :: ts => if a = n!"as" then readCast (.cast e ty) n ts else some (e, .id a :: .id ty :: ts)
  | _, ts => some (e, ts)
/-- Calls, methods, fields, indices. -/
def readPost (s : Option Name) (e : Ex) : Nat → List T → Rd Ex
  | 0, _ => none
  | n + 1, .p 46 :: .id m :: .p 40 :: .p 124 :: ts =>
    if m = n!"map" then do
      let (ps, ts) ← readCloParams n [] ts
      let (b, ts) ← readEx s true n ts
      let ts ← expect (.p 41) ts
      match ps with
      | [x] => readPost s (.each e x b) n ts
      | _ => none
    else if m = n!"unwrap_or_else" then
      match ts with
      | .p 124 :: ts => do
        let (b, ts) ← readEx s true n ts
        let ts ← expect (.p 41) ts
        readPost s (.mtch e (.cons (.some n!"v") (.path [n!"v"]) (.cons .none b .nil))) n ts
      | _ => none
    else none
  | n + 1, .p 46 :: .id m :: .p 40 :: ts => do
    let (es, ts) ← readArgs s 41 n ts
    readPost s (.meth e m es) n ts
  | n + 1, .p 46 :: .id f :: ts => readPost s (.field e f) n ts
  | n + 1, .p 46 :: .num i :: ts => readPost s (.field e i) n ts
  | n + 1, .p 40 :: ts =>
    match e with
    | .path q => do
      let (es, ts) ← readArgs s 41 n ts
      readPost s (.call q es) n ts
    | e => some (e, .p 40 :: ts)
  | n + 1, .p 91 :: .p 46 :: .p 46 :: ts =>
    if blockLike e then some (e, .p 91 :: .p 46 :: .p 46 :: ts)
    else do
      let (j, ts) ← readEx s true n ts
      let ts ← expect (.p 93) ts
      readPost s (.slice e (.int 0) j) n ts
  | n + 1, .p 91 :: ts =>
    if blockLike e then some (e, .p 91 :: ts)
    else do
      let (i, ts) ← readEx s true n ts
      match ts with
      | .p 46 :: .p 46 :: ts => do
        let (j, ts) ← readEx s true n ts
        let ts ← expect (.p 93) ts
        readPost s (.slice e i j) n ts
      | ts => do
        let ts ← expect (.p 93) ts
        readPost s (.index e i) n ts
  | _ + 1, ts => some (e, ts)
/-- Expressions separated by commas, up to the closing bracket `c`. -/
def readArgs (s : Option Name) (c : Nat) : Nat → List T → Rd Exs
  | 0, _ => none
  | n + 1, ts =>
    match expect (.p c) ts with
    | some ts => some (.nil, ts)
    | none => do
      let ts := skipRefMut ts
      let (e, ts) ← readEx s true n ts
      match ts with
      | .p 44 :: ts => do
        let (es, ts) ← readArgs s c n ts
        some (.cons e es, ts)
      | ts => do
        let ts ← expect (.p c) ts
        some (.cons e .nil, ts)
/-- The arguments of a macro, up to `)`: a leading string, and the others. -/
def readMac (s : Option Name) : Nat → List T → Rd (Option Bytes × Exs)
  | 0, _ => none
  | n + 1, .str m :: .p 44 :: ts => do
    let (es, ts) ← readArgs s 41 n ts
    some ((some m, es), ts)
  | n + 1, .str m :: ts => do
    let (es, ts) ← readArgs s 41 n ts
    some ((some m, es), ts)
  | n + 1, ts => do
    let (es, ts) ← readArgs s 41 n ts
    some ((none, es), ts)
def readPrim (s : Option Name) (st : Bool) : Nat → List T → Rd Ex
  | 0, _ => none
  | _ + 1, .num k :: ts => some (.int k, ts)
  | _ + 1, .char c :: ts => some (.char c, ts)
  | _ + 1, .str b :: ts => some (.str b, ts)
  | n + 1, .p 40 :: ts =>
    match ts with
    | .p 41 :: ts => some (.tuple .nil, ts)
    | ts => do
      let (e, ts) ← readEx s true n ts
      match ts with
      | .p 41 :: ts => some (e, ts)
      | .p 44 :: ts => do
        let (es, ts) ← readArgs s 41 n ts
        some (.tuple (.cons e es), ts)
      | _ => none
  | n + 1, .p 123 :: ts => do
    let (b, ts) ← readBlk s n ts
    some (.block b, ts)
  | n + 1, .p 124 :: ts => do
    let (ps, ts) ← readCloParams n [] ts
    let (b, ts) ← readEx s st n ts
    some (.clo ps b, ts)
  | n + 1, .id a :: ts =>
    if a = n!"true" then some (.bool true, ts)
    else if a = n!"false" then some (.bool false, ts)
    else if a = n!"break" then some (.brk, ts)
    else if a = n!"continue" then some (.cont, ts)
    else if a = n!"return" then
      match ts with
      | .p 59 :: ts => some (.ret (.tuple .nil), .p 59 :: ts)
      | ts => do
        let (e, ts) ← readEx s st n ts
        some (.ret e, ts)
    else if a = n!"if" then readIf s n ts
    else if a = n!"loop" then do
      let ts ← expect (.p 123) ts
      let (b, ts) ← readBlk s n ts
      some (.loop (.block b), ts)
    else if a = n!"while" then do
      let (c, ts) ← readEx s false n ts
      let ts ← expect (.p 123) ts
      let (b, ts) ← readBlk s n ts
      some (.loop (.ite c (.block b) .brk), ts)
    else if a = n!"for" then do
      let (p, ts) ← readPat ts
      let ts ← expect (.id n!"in") ts
      let (e, ts) ← readEx s false n ts
      let ts ← expect (.p 123) ts
      let (b, ts) ← readBlk s n ts
      some (.forIn p e (.block b), ts)
    else if a = n!"match" then do
      let (e, ts) ← readEx s false n ts
      let ts ← expect (.p 123) ts
      let (as, ts) ← readArms s n ts
      some (.mtch e as, ts)
    else do
      let (q, ts) ← readPath n [a] ts
      let q := resolve s q
      match q, ts with
      | [x], .p 33 :: .p 40 :: ts => do
        let ((m, es), ts) ← readMac s n ts
        if x = n!"format" then do
          let m ← m
          let ps ← fmtPieces (m.length + 1) [] m
          some (.fmt ps es, ts)
        else some (.mac x es, ts)   -- the message is left out
      | [x], .p 33 :: .p 123 :: .str m :: .p 125 :: ts => some (.mac x (.cons (.str m) .nil), ts)
      | [x], .p 123 :: ts =>
        if st then do
          let (fs, ts) ← readFlds s n ts
          some (.struct x fs, ts)
        else some (.path q, .p 123 :: ts)
      | _, ts => some (.path q, ts)
  | _ + 1, _ => none
/-- After `if`. -/
def readIf (s : Option Name) : Nat → List T → Rd Ex
  | 0, _ => none
  | n + 1, ts =>
    match expect (.id n!"let") ts with
    | some ts => do
      let (p, ts) ← readPat ts
      let ts ← expect (.p 61) ts
      let (c, ts) ← readEx s false n ts
      let ts ← expect (.p 123) ts
      let (a, ts) ← readBlk s n ts
      match expect (.id n!"else") ts with
      | some _ => none
      | none => some (.mtch c (.cons p (.block a) (.cons .wild (.tuple .nil) .nil)), ts)
    | none => do
      let (c, ts) ← readEx s false n ts
      let ts ← expect (.p 123) ts
      let (a, ts) ← readBlk s n ts
      match expect (.id n!"else") ts with
      | some ts =>
        match ts with
        | .p 123 :: ts => do
          let (b, ts) ← readBlk s n ts
          some (.ite c (.block a) (.block b), ts)
        | .id i :: ts =>
          if i = n!"if" then do
            let (b, ts) ← readIf s n ts
            some (.ite c (.block a) b, ts)
          else none
        | _ => none
      | none => some (.ite c (.block a) (.tuple .nil), ts)
/-- Fields of a struct literal, up to `}`. -/
def readFlds (s : Option Name) : Nat → List T → Rd Flds
  | 0, _ => none
  | _ + 1, .p 125 :: ts => some (.nil, ts)
  | n + 1, .id f :: .p 58 :: ts => do
    let (e, ts) ← readEx s true n ts
    let (fs, ts) ← readFldsTail s n ts
    some (.cons f e fs, ts)
  | n + 1, .id f :: ts => do
    let (fs, ts) ← readFldsTail s n ts
    some (.cons f (.path [f]) fs, ts)
  | _ + 1, _ => none
def readFldsTail (s : Option Name) : Nat → List T → Rd Flds
  | 0, _ => none
  | n + 1, .p 44 :: ts => readFlds s n ts
  | n + 1, ts => readFlds s n ts
/-- Match arms, up to `}`. -/
def readArms (s : Option Name) : Nat → List T → Rd Arms
  | 0, _ => none
  | _ + 1, .p 125 :: ts => some (.nil, ts)
  | n + 1, ts => do
    let (p, ts) ← readPat ts
    let ts ← expect (.p 61) ts
    let ts ← expect (.p 62) ts
    let (e, ts) ← readEx s true n ts
    match ts with
    | .p 44 :: ts => do
      let (as, ts) ← readArms s n ts
      some (.cons p e as, ts)
    | ts => do
      let (as, ts) ← readArms s n ts
      some (.cons p e as, ts)
/-- Statements and a final expression, up to `}`. -/
def readBlk (s : Option Name) : Nat → List T → Rd Blk
  | 0, _ => none
  | _ + 1, .p 125 :: ts => some (.nil, ts)
  | n + 1, .p 59 :: ts => readBlk s n ts
  | n + 1, ts =>
    match expect (.id n!"let") ts with
    | some ts => do
      let ts := match expect (.id n!"mut") ts with
        | some ts => ts
        | none => ts
      let (p, ts) ← readPat ts
      if (match ts with | .p 58 :: ts => isRefMut ts | _ => false) then none
      let u32 := match ts with
        | .p 58 :: .id t :: .p 61 :: _ => decide (t = n!"u32")
        | _ => false
      let ts ← skipTo [61, 59] 0 ts
      match ts with
      | .p 61 :: ts => do
        let (e, ts) ← readEx s true n ts
        let ts ← expect (.p 59) ts
        let (b, ts) ← readBlk s n ts
        some (.letS p (if u32 then .cast e n!"u32" else e) b, ts)
      | .p 59 :: ts =>
        match p with
        | .var x => do
          let (b, ts) ← readBlk s n ts
          some (.letU x b, ts)
        | _ => none
      | _ => none
    | none => do
      let (e, ts) ← readStmt s n ts
      match ts with
      | .p 125 :: ts => some (.tail e, ts)
      | .p 59 :: ts => do
        let (b, ts) ← readBlk s n ts
        some (.exprS e b, ts)
      | ts =>
        if blockLike e then do
          let (b, ts) ← readBlk s n ts
          some (.exprS e b, ts)
        else none
/-- An expression at the start of a statement: `if`, `match`, blocks and loops end there. -/
def readStmt (s : Option Name) : Nat → List T → Rd Ex
  | 0, _ => none
  | n + 1, ts =>
    match readPrim s true n ts with
    | some (e, ts') => if blockLike e then some (e, ts') else readEx s true n ts
    | none => readEx s true n ts
end

/-! ## Items -/

/-- Parameters up to `)`. -/
def readParams : Nat → List (Name × Bool) → List T → Rd (List (Name × Bool))
  | 0, _, _ => none
  | _ + 1, acc, .p 41 :: ts => some (acc.reverse, ts)
  | n + 1, acc, .p 44 :: ts => readParams n acc ts
  | n + 1, acc, .id x :: .p 58 :: ts => do
    let ts' ← skipTo [44, 41] 0 ts
    readParams n ((x, isRefMut ts) :: acc) ts'
  | _ + 1, _, _ => none

/-- The receiver, if there is one. -/
def readRecv (ts : List T) : Recv × List T :=
  match ts with
  | .p 38 :: .id m :: .id x :: ts' => if m = n!"mut" ∧ x = n!"self" then (.refMut, ts') else (.none, ts)
  | .p 38 :: .id x :: ts' => if x = n!"self" then (.ref, ts') else (.none, ts)
  | .id x :: ts' => if x = n!"self" then (.val, ts') else (.none, ts)
  | ts => (.none, ts)

/-- A function, after `fn`.  One that returns a `&mut` is read as returning `()`. -/
def readFn (s : Option Name) : List T → Rd Fn
  | .id name :: ts => do
    let ts ← skipTo [40] 0 ts
    let ts ← expect (.p 40) ts
    let (rc, ts) := readRecv ts
    let (ps, ts) ← readParams 200 [] ts
    let refMut := match ts with
      | .p 45 :: .p 62 :: ts => isRefMut ts
      | _ => false
    let ts ← skipTo [123] 0 ts
    match ts with
    | .p 123 :: ts => do
      let rest ← skipGroup 123 125 0 ts
      let body := match readBlk s (16 * ts.length + 16) ts with
        | some (b, r) => if r = rest then some (.block b) else none
        | none => none
      let body := match body with
        | some b => if refMut then (if (ts.take (ts.length - rest.length)).contains (.id n!"return") then none else some (.block (.exprS b .nil))) else some b
        | none => none
      some (⟨s, name, rc, ps, body⟩, rest)
    | _ => none
  | _ => none

/-- The identifiers of an enum, up to `}`. -/
def readVariants : Nat → List Name → List T → Rd (List Name)
  | 0, _, _ => none
  | _ + 1, acc, .p 125 :: ts => some (acc.reverse, ts)
  | n + 1, acc, .id x :: .p 40 :: ts => do
    let ts ← skipGroup 40 41 0 ts
    readVariants n (x :: acc) ts
  | n + 1, acc, .id x :: ts => readVariants n (x :: acc) ts
  | n + 1, acc, .p 44 :: ts => readVariants n acc ts
  | _ + 1, _, _ => none

/-- After `impl`: the type, and what follows the `{`. -/
def implHead (ts : List T) : Rd Name := do
  let ts ← match ts with
    | .p 60 :: ts => skipGroup 60 62 0 ts
    | ts => some ts
  match ts with
  | .id a :: ts => do
    let ts ← match ts with
      | .p 60 :: ts => skipGroup 60 62 0 ts
      | ts => some ts
    match ts with
    | .id f :: .id t :: ts =>
      if f = n!"for" then do
        let ts ← skipTo [123] 0 ts
        let ts ← expect (.p 123) ts
        some (t, ts)
      else none
    | ts => do
      let ts ← expect (.p 123) ts
      some (a, ts)
  | _ => none

/-- Items up to the end of the file, or (in an impl block) up to `}`.  Attributes, `use`, `mod` and structs without fields or
with named fields are skipped. -/
def readItems (s : Option Name) (inner : Bool) : Nat → List T → Rd (List Item)
  | 0, _ => none
  | _ + 1, [] => if inner then none else some ([], [])
  | n + 1, t :: ts =>
    if t = .p 35 then
      match ts with
      | .p 33 :: .p 91 :: ts => do
        let ts ← skipGroup 91 93 0 ts
        readItems s inner n ts
      | .p 91 :: ts => do
        let ts ← skipGroup 91 93 0 ts
        readItems s inner n ts
      | _ => none
    else if t = .p 125 then (if inner then some ([], ts) else none)
    else if t = .id n!"pub" then readItems s inner n ts
    else if t = .id n!"use" then do
      let ts ← skipGroup 0 59 0 ts
      readItems s inner n ts
    else if t = .id n!"mod" then
      match ts with
      | .id _ :: .p 59 :: ts => readItems s inner n ts
      | .id _ :: .p 123 :: ts => do
        let ts ← skipGroup 123 125 0 ts
        readItems s inner n ts
      | _ => none
    else if t = .id n!"enum" then
      match ts with
      | .id e :: .p 123 :: ts => do
        let (vs, ts) ← readVariants (ts.length + 1) [] ts
        let (is, ts) ← readItems s inner n ts
        some (.enum e vs :: is, ts)
      | _ => none
    else if t = .id n!"struct" then
      match ts with
      | .id _ :: .p 59 :: ts => readItems s inner n ts
      | .id x :: .p 40 :: ts => do
        let ts ← expect (.id n!"pub") ts
        let ts ← expect (.id n!"u32") ts
        let ts ← expect (.p 41) ts
        let ts ← expect (.p 59) ts
        let (is, ts) ← readItems s inner n ts
        some (.tupleStruct x :: is, ts)
      | ts => do
        let ts ← skipTo [123] 0 ts
        let ts ← expect (.p 123) ts
        let ts ← skipGroup 123 125 0 ts
        readItems s inner n ts
    else if t = .id n!"fn" then do
      let (f, ts) ← readFn s ts
      let (is, ts) ← readItems s inner n ts
      some (.fn f :: is, ts)
    else if t = .id n!"impl" then do
      let (ty, ts) ← implHead ts
      let (is, ts) ← readItems (some ty) true n ts
      let (js, ts) ← readItems s inner n ts
      some (is ++ js, ts)
    else none

/-- A source file. -/
def readFile (bs : Bytes) : Option (List Item) := do
  let ts ← lex bs
  match readItems none false (ts.length + 1) ts with
  | some (is, []) => some is
  | _ => none

end PP.Rs
