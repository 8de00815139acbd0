import Verif.Spec.Rs.Reader
import Verif.Model.Gen.Text

/-! # Specification: executing the fragment of Rust in which the generator is written

Values are trees; a function's local variables and parameters are its environment.  What rustc checks is taken for granted: a
borrowed place is not changed while it is shared, and a `&mut` parameter is the only way to its place.  So references need no
addresses: a shared reference is the value, and a `&mut` parameter is a copy that is written back to the caller's place when the call
returns.

`ev` evaluates an expression, given what calls do (`Calls`) and a bound on the rounds of a `loop`; `callN n` allows calls to be
nested `n` deep.  `oof` says that a bound was too small; `stuck` that the program leaves the fragment.  Overflow of `+` and `-`
panics (a debug build). -/
namespace PP.Rs
open PP.Gen
open PP.Mini (Name nameOf)

inductive Val where
  | bool (b : Bool)
  | num (u32 : Bool) (n : Nat)                  -- `u32`, or another type of integers
  | char (c : Nat)
  | str (s : Bytes)
  | bytes (s : Bytes)
  | tuple (vs : List Val)
  | vec (vs : List Val)
  | set (vs : List Val)
  | map (kvs : List (Val × Val))
  | data (ty v : Name) (vs : List Val)          -- a variant of an enum
  | struct (n : Name) (fs : List (Name × Val))
  | none                                        -- `None`, `Err(…)`
  | some (v : Val)                              -- `Some(v)`, `Ok(v)`
  | clo (ps : List Name) (b : Ex) (env : List (Name × Val))

abbrev Env := List (Name × Val)

inductive Res where
  | oof | stuck | panic
  | brk (env : Env) | cont (env : Env) | ret (v : Val) (env : Env)
  | ok (v : Val) (env : Env)

/-- Outcome of a call: the value, and the parameters afterwards. -/
inductive CRes where
  | oof | stuck | panic
  | ok (v : Val) (ps : List Val)

def Res.bind (r : Res) (k : Val → Env → Res) : Res :=
  match r with
  | .ok v env => k v env
  | r => r

/-- Leave the scope of `n` variables. -/
def Res.drop (n : Nat) : Res → Res
  | .brk env => .brk (env.drop n)
  | .cont env => .cont (env.drop n)
  | .ret v env => .ret v (env.drop n)
  | .ok v env => .ok v (env.drop n)
  | r => r

def unit : Val := .tuple []

/-! ## Variables and places -/

def Env.get (x : Name) : Env → Option Val
  | [] => .none
  | (y, v) :: env => if x = y then .some v else Env.get x env

def Env.set (x : Name) (v : Val) : Env → Option Env
  | [] => .none
  | (y, w) :: env => if x = y then .some ((y, v) :: env) else (Env.set x v env).map ((y, w) :: ·)

/-- The value of a place: a variable, or a field of a place. -/
def peek : Ex → Env → Option Val
  | .path [x], env => env.get x
  | .field e f, env =>
    match peek e env with
    | .some (.struct _ fs) => Env.get f fs
    | _ => .none
  | _, _ => .none

def assign : Ex → Val → Env → Option Env
  | .path [x], v, env => env.set x v
  | .field e f, v, env =>
    match peek e env with
    | .some (.struct n fs) =>
      match Env.set f v fs with
      | .some fs => assign e (.struct n fs) env
      | .none => .none
    | _ => .none
  | _, _, _ => .none

/-- After a call: the arguments at the `&mut` parameters get the values that the parameters have. -/
def writeBack : List Bool → Exs → List Val → Env → Option Env
  | true :: bs, .cons e es, v :: vs, env =>
    match assign e v env with
    | .some env => writeBack bs es vs env
    | .none => .none
  | false :: bs, .cons _ es, _ :: vs, env => writeBack bs es vs env
  | [], _, _, env => .some env
  | _, _, _, _ => .none

/-- The variables a pattern binds, if the value matches. -/
def pmatch : Pat → Val → Option Env
  | .wild, _ => .some []
  | .var x, v => .some [(x, v)]
  | .none, .none => .some []
  | .some x, .some v => .some [(x, v)]
  | .tuple xs, .tuple vs => if xs.length = vs.length then .some (xs.zip vs) else .none
  | .variants ps, .data t v [] => if (t, v) ∈ ps then .some [] else .none
  | .data t v xs, .data t' v' vs => if t = t' ∧ v = v' ∧ xs.length = vs.length then .some (xs.zip vs) else .none
  | .dataAny t v, .data t' v' _ => if t = t' ∧ v = v' then .some [] else .none
  | _, _ => .none

/-! ## Operators and formatting -/

def valEq : Val → Val → Option Bool
  | .num _ a, .num _ b => .some (a == b)
  | .bool a, .bool b => .some (a == b)
  | .char a, .char b => .some (a == b)
  | .str a, .str b => .some (a == b)
  | .data t v [], .data t' v' [] => .some (t == t' && v == v')
  | _, _ => .none

/-- Decimal digits. -/
def digits (n : Nat) : Bytes := if n < 10 then [UInt8.ofNat (48 + n)] else digits (n / 10) ++ [UInt8.ofNat (48 + n % 10)]

/-- The letters of an identifier. -/
def letters (n : Nat) : Bytes := if _h : n = 0 then [] else letters (n / 256) ++ [UInt8.ofNat (n % 256)]
termination_by n
decreasing_by omega

/-- `{}` -/
def disp : Val → Option Bytes
  | .num _ n => .some (digits n)
  | .str s => .some s
  | .char c => .some (String.utf8EncodeChar (Char.ofNat c))
  | _ => .none

/-- `{:?}` -/
def dbg : Val → Option Bytes
  | .num _ n => .some (digits n)
  | .data _ v [] => .some (letters v)
  | _ => .none

def render : List Piece → List Val → Env → Option Bytes
  | [], [], _ => .some []
  | .lit s :: ps, vs, env =>
    match render ps vs env with
    | .some r => .some (s ++ r)
    | .none => .none
  | .disp :: ps, v :: vs, env =>
    match disp v, render ps vs env with
    | .some s, .some r => .some (s ++ r)
    | _, _ => .none
  | .dbg :: ps, v :: vs, env =>
    match dbg v, render ps vs env with
    | .some s, .some r => .some (s ++ r)
    | _, _ => .none
  | .dispVar x :: ps, vs, env =>
    match (env.get x).bind disp, render ps vs env with
    | .some s, .some r => .some (s ++ r)
    | _, _ => .none
  | .dbgVar x :: ps, vs, env =>
    match (env.get x).bind dbg, render ps vs env with
    | .some s, .some r => .some (s ++ r)
    | _, _ => .none
  | _, _, _ => .none

/-- An operation of the standard library: the result, and the new value of the receiver if it changes it. -/
inductive LRes where
  | stuck | panic
  | ok (v : Val) (recv : Option Val)

def numLimit (u32 : Bool) : Nat := if u32 then 4294967296 else 18446744073709551616

def binop : Op → Val → Val → LRes
  | .eq, a, b =>
    match valEq a b with
    | .some c => .ok (.bool c) .none
    | .none => .stuck
  | .ne, a, b =>
    match valEq a b with
    | .some c => .ok (.bool !c) .none
    | .none => .stuck
  | .lt, .num _ a, .num _ b => .ok (.bool (decide (a < b))) .none
  | .le, .num _ a, .num _ b => .ok (.bool (decide (a ≤ b))) .none
  | .gt, .num _ a, .num _ b => .ok (.bool (decide (b < a))) .none
  | .ge, .num _ a, .num _ b => .ok (.bool (decide (b ≤ a))) .none
  | .add, .num u a, .num w b => if a + b < numLimit (u || w) then .ok (.num (u || w) (a + b)) .none else .panic
  | .sub, .num u a, .num w b => if b ≤ a then .ok (.num (u || w) (a - b)) .none else .panic
  | .add, .str a, .str b => .ok (.str (a ++ b)) .none
  | _, _, _ => .stuck

def cast : Val → Name → Option Val
  | .num _ n, t =>
    if t = n!"usize" then .some (.num false n)
    else if t = n!"u32" then .some (.num true (n % 4294967296))
    else if t = n!"char" then .some (.char (n % 256))
    else .none
  | _, _ => .none

/-! ## The standard library -/

def ascii (s : Bytes) : Bool := s.all (· < 128)

/-- Whether a string may be cut at an index: not before a continuation byte. -/
def boundary (s : Bytes) (i : Nat) : Bool :=
  match s[i]? with
  | .none => i == s.length
  | .some c => c < 128 || 192 ≤ c

/-- `str::split("\n")` -/
def splitNl (acc : Bytes) : Bytes → List Bytes
  | [] => [acc.reverse]
  | c :: cs => if c = 10 then acc.reverse :: splitNl [] cs else splitNl (c :: acc) cs

def space (c : UInt8) : Bool := c = 32 || (9 ≤ c && c ≤ 13)

/-- `indoc!`: the common indentation of the lines after the first is taken away, and an empty first line. -/
def unindent (s : Bytes) : Bytes :=
  let ls := splitNl [] s
  let blank (c : UInt8) : Bool := c = 32 || c = 9
  let ind := (ls.drop 1).filterMap fun l => if l.all blank then .none else .some (l.takeWhile blank).length
  let k := ind.min?.getD 0
  match ls with
  | [] => []
  | l :: ls =>
    let ls := ls.map fun l => if l.length > k then l.drop k else []
    List.intercalate [10] (if l = [] ∧ ls ≠ [] then ls else l :: ls)

def radix16 (s : Bytes) : Option Nat :=
  match s with
  | [] => .none
  | s => s.foldl (fun acc c => acc.bind fun v => (hexDig c).bind fun d =>
      if v * 16 + d.toNat < 4294967296 then .some (v * 16 + d.toNat) else .none) (.some 0)

def strs : List Val → Option (List Bytes)
  | [] => .some []
  | .str s :: vs => (strs vs).map (s :: ·)
  | _ :: _ => .none

/-- Neighbours that are equal become one. -/
def dedup (vs : List Bytes) : List Bytes :=
  match vs with
  | [] => []
  | [a] => [a]
  | a :: b :: l => if a = b then dedup (b :: l) else a :: dedup (b :: l)
termination_by vs.length

/-- Methods of `String` and `&str`; where characters matter, only ASCII is in the fragment. -/
def strLib (m : Name) (s : Bytes) : List Val → LRes
  | [] =>
    if m = n!"to_string" ∨ m = n!"clone" ∨ m = n!"to_owned" then .ok (.str s) .none
    else if m = n!"len" then .ok (.num false s.length) .none
    else if m = n!"is_empty" then .ok (.bool s.isEmpty) .none
    else if m = n!"as_bytes" then .ok (.bytes s) .none
    else if !ascii s then .stuck
    else if m = n!"pop" then .ok (match s.getLast? with | .some c => .some (.char c.toNat) | .none => .none) (.some (.str s.dropLast))
    else if m = n!"chars" then .ok (.vec (s.map fun c => .char c.toNat)) .none
    else if m = n!"to_lowercase" then .ok (.str (s.map fun c => if 65 ≤ c && c ≤ 90 then c + 32 else c)) .none
    else if m = n!"trim" then .ok (.str ((s.dropWhile space).reverse.dropWhile space).reverse) .none
    else .stuck
  | [.str t] =>
    if m = n!"push_str" then .ok unit (.some (.str (s ++ t)))
    else if m = n!"split" ∧ t = [10] then .ok (.vec ((splitNl [] s).map .str)) .none
    else .stuck
  | [.char c] => if m = n!"push" then .ok unit (.some (.str (s ++ String.utf8EncodeChar (Char.ofNat c)))) else .stuck
  | [.num _ i] =>
    if m = n!"remove" ∧ i = 0 ∧ ascii s then
      match s with
      | [] => .panic
      | c :: s => .ok (.char c.toNat) (.some (.str s))
    else if m = n!"split_at_checked" then
      .ok (if boundary s i then .some (.tuple [.str (s.take i), .str (s.drop i)]) else .none) .none
    else .stuck
  | _ => .stuck

def charLib (m : Name) (c : Nat) : List Val → LRes
  | [] =>
    if m = n!"to_uppercase" then if c < 128 then .ok (.str [if 97 ≤ c ∧ c ≤ 122 then UInt8.ofNat (c - 32) else UInt8.ofNat c]) .none else .stuck
    else if m = n!"len_utf8" then .ok (.num false (String.utf8EncodeChar (Char.ofNat c)).length) .none
    else .stuck
  | _ => .stuck

def vecLib (m : Name) (vs : List Val) : List Val → LRes
  | [] =>
    if m = n!"len" then .ok (.num false vs.length) .none
    else if m = n!"is_empty" then .ok (.bool vs.isEmpty) .none
    else if m = n!"iter" ∨ m = n!"into_iter" ∨ m = n!"collect" ∨ m = n!"cloned" ∨ m = n!"clone" then .ok (.vec vs) .none
    else if m = n!"sort" then
      match strs vs with
      | .some l => .ok unit (.some (.vec ((l.mergeSort bytesLe).map .str)))
      | .none => .stuck
    else if m = n!"dedup" then
      match strs vs with
      | .some l => .ok unit (.some (.vec ((dedup l).map .str)))
      | .none => .stuck
    else .stuck
  | [v] =>
    if m = n!"push" then .ok unit (.some (.vec (vs ++ [v])))
    else if m = n!"nth" then
      match v with
      | .num _ i => .ok (match vs[i]? with | .some v => .some v | .none => .none) .none
      | _ => .stuck
    else .stuck
  | _ => .stuck

/-- Whether a value is among others. -/
def has (v : Val) (vs : List Val) : Bool := vs.any fun w => valEq v w == .some true

def setLib (ord : List Val → List Val) (m : Name) (vs : List Val) : List Val → LRes
  | [] =>
    if m = n!"len" then .ok (.num false vs.length) .none
    else if m = n!"is_empty" then .ok (.bool vs.isEmpty) .none
    else if m = n!"into_iter" ∨ m = n!"iter" then .ok (.vec (ord vs)) .none
    else if m = n!"clone" ∨ m = n!"cloned" ∨ m = n!"collect" then .ok (.set vs) .none
    else .stuck
  | [v] =>
    if m = n!"insert" then .ok (.bool !(has v vs)) (.some (.set (if has v vs then vs else vs ++ [v])))
    else if m = n!"union" then
      match v with
      | .set ws => .ok (.set (vs ++ ws.filter fun w => !(has w vs))) .none
      | _ => .stuck
    else .stuck
  | _ => .stuck

def mapGet (k : Val) : List (Val × Val) → Option Val
  | [] => .none
  | (k', v) :: m => if valEq k k' = .some true then .some v else mapGet k m

def mapSet (k v : Val) : List (Val × Val) → List (Val × Val)
  | [] => [(k, v)]
  | (k', v') :: m => if valEq k k' = .some true then (k', v) :: m else (k', v') :: mapSet k v m

def optVal : Option Val → Val
  | .some v => .some v
  | .none => .none

def mapLib (ord : List Val → List Val) (m : Name) (kvs : List (Val × Val)) : List Val → LRes
  | [] =>
    if m = n!"len" then .ok (.num false kvs.length) .none
    else if m = n!"clone" then .ok (.map kvs) .none
    else if m = n!"keys" then .ok (.vec (ord (kvs.map (·.1)))) .none
    else if m = n!"values" then .ok (.vec (ord (kvs.map (·.2)))) .none
    else .stuck
  | [k] => if m = n!"get" then .ok (optVal (mapGet k kvs)) .none else .stuck
  | [k, v] => if m = n!"insert" then .ok (optVal (mapGet k kvs)) (.some (.map (mapSet k v kvs))) else .stuck
  | _ => .stuck

/-- Methods of `Option` and `Result`. -/
def optLib (m : Name) (o : Option Val) (vs : List Val) : LRes :=
  if m = n!"expect" ∨ m = n!"unwrap" then
    match o with
    | .some v => .ok v .none
    | .none => .panic
  else if m = n!"is_some" then .ok (.bool o.isSome) .none
  else if m = n!"is_none" then .ok (.bool o.isNone) .none
  else if m = n!"unwrap_or" then
    match vs with
    | [w] => .ok (o.getD w) .none
    | _ => .stuck
  else .stuck

/-- A method of the standard library. -/
def lib (ord : List Val → List Val) (m : Name) (r : Val) (vs : List Val) : LRes :=
  match r with
  | .str s => strLib m s vs
  | .char c => charLib m c vs
  | .vec l => vecLib m l vs
  | .set l => setLib ord m l vs
  | .map l => mapLib ord m l vs
  | .none => optLib m .none vs
  | .some v => optLib m (.some v) vs
  | .num u n => if m = n!"clone" ∧ vs = [] then .ok (.num u n) .none else .stuck
  | _ => .stuck

/-- A function of the standard library; `none` if there is no such function. -/
def libFn (q : List Name) (vs : List Val) : Option LRes :=
  if q = [n!"Vec", n!"new"] then .some (.ok (.vec []) .none)
  else if q = [n!"HashMap", n!"new"] then .some (.ok (.map []) .none)
  else if q = [n!"HashSet", n!"new"] then .some (.ok (.set []) .none)
  else if q = [n!"Some"] ∨ q = [n!"Ok"] then
    match vs with
    | [v] => .some (.ok (.some v) .none)
    | _ => .some .stuck
  else if q = [n!"panic_any"] then .some .panic
  else if q = [n!"u32", n!"from_str_radix"] then
    match vs with
    | [.str s, .num _ 16] => .some (.ok (match radix16 s with | .some n => .some (.num true n) | .none => .none) .none)
    | _ => .some .stuck
  else if q = [n!"char", n!"from_u32"] then
    match vs with
    | [.num _ n] => .some (.ok (if n < 55296 ∨ (57343 < n ∧ n < 1114112) then .some (.char n) else .none) .none)
    | _ => .some .stuck
  else .none

/-- A macro that is not `format!`. -/
def macroCall (m : Name) (vs : List Val) : LRes :=
  if m = n!"println" ∨ m = n!"print" then .ok unit .none
  else if m = n!"panic" ∨ m = n!"todo" then .panic
  else if m = n!"indoc" then
    match vs with
    | [.str s] => .ok (.str (unindent s)) .none
    | _ => .stuck
  else if m = n!"debug_assert" then
    match vs with
    | .bool b :: _ => if b then .ok unit .none else .panic
    | _ => .stuck
  else if m = n!"debug_assert_eq" then
    match vs with
    | a :: b :: _ =>
      match valEq a b with
      | .some c => if c then .ok unit .none else .panic
      | .none => .stuck
    | _ => .stuck
  else .stuck

def indexVal : Val → Val → LRes
  | .vec vs, .num _ i =>
    match vs[i]? with
    | .some v => .ok v .none
    | .none => .panic
  | .bytes s, .num _ i =>
    match s[i]? with
    | .some c => .ok (.num false c.toNat) .none
    | .none => .panic
  | .map kvs, k =>
    match mapGet k kvs with
    | .some v => .ok v .none
    | .none => .panic
  | _, _ => .stuck

def sliceVal : Val → Val → Val → LRes
  | .vec vs, .num _ i, .num _ j => if i ≤ j ∧ j ≤ vs.length then .ok (.vec ((vs.take j).drop i)) .none else .panic
  | .bytes s, .num _ i, .num _ j => if i ≤ j ∧ j ≤ s.length then .ok (.bytes ((s.take j).drop i)) .none else .panic
  | .str s, .num _ i, .num _ j =>
    if i ≤ j ∧ j ≤ s.length ∧ boundary s i ∧ boundary s j then .ok (.str ((s.take j).drop i)) .none else .panic
  | _, _, _ => .stuck

/-- What a `for` runs over. -/
def items (ord : List Val → List Val) : Val → Option (List Val)
  | .vec vs => .some vs
  | .bytes s => .some (s.map fun c => .num false c.toNat)
  | .set vs => .some (ord vs)
  | .map kvs => .some (ord (kvs.map fun (k, v) => .tuple [k, v]))
  | _ => .none

def fieldVal (v : Val) (f : Name) : Option Val :=
  match v with
  | .struct _ fs => Env.get f fs
  | .tuple vs => vs[f]?
  | _ => .none

/-! ## Programs -/

/-- A program, and the order in which hash containers are iterated. -/
structure World where
  prog : List Item
  ord : List Val → List Val

/-- The functions of a type and name. -/
def fns (prog : List Item) (ty : Option Name) (name : Name) : List Fn :=
  prog.filterMap fun
    | .fn f => if f.ty = ty ∧ f.name = name then .some f else .none
    | _ => .none

/-- The function of a type and name, if there is exactly one. -/
def World.fn? (W : World) (ty : Option Name) (name : Name) : Option Fn :=
  match fns W.prog ty name with
  | [f] => .some f
  | _ => .none

def World.isTuple (W : World) (x : Name) : Bool := W.prog.any (· = .tupleStruct x)

/-- What calls do. -/
structure Calls where
  fn : Fn → List Val → CRes
  clo : List Name → Ex → Env → List Val → CRes

/-- A path that is not called: a variable, `None`, `usize::MAX` or a variant. -/
def pathVal (env : Env) : List Name → Option Val
  | [x] => if x = n!"None" then .some .none else env.get x
  | [t, v] => if t = n!"usize" ∧ v = n!"MAX" then .some (.num false 18446744073709551615) else .some (.data t v [])
  | _ => .none

def Res.ofOpt (env : Env) : Option Val → Res
  | .some v => .ok v env
  | .none => .stuck

/-- After an assignment. -/
def Res.ofEnv (v : Val) : Option Env → Res
  | .some env => .ok v env
  | .none => .stuck

/-- After a library operation whose receiver is `e`. -/
def Res.ofLib (e : Ex) (env : Env) : LRes → Res
  | .stuck => .stuck
  | .panic => .panic
  | .ok v .none => .ok v env
  | .ok v (.some r) => .ofEnv v (assign e r env)

/-- After a call: the `&mut` arguments are written back. -/
def Res.ofCall (bs : List Bool) (es : Exs) (env : Env) : CRes → Res
  | .oof => .oof
  | .stuck => .stuck
  | .panic => .panic
  | .ok v ps => .ofEnv v (writeBack bs es ps env)

/-- With the variables of a pattern, if it matches; otherwise `r`. -/
def Res.ifMatch (o : Option Env) (f : Env → Res) (r : Res) : Res :=
  match o with
  | .some bs => f bs
  | .none => r

def Res.ifTrue (v : Val) (a b : Res) : Res :=
  match v with
  | .bool true => a
  | .bool false => b
  | _ => .stuck

def Res.withItems (o : Option (List Val)) (f : List Val → Res) : Res :=
  match o with
  | .some vs => f vs
  | .none => .stuck

/-- `a += w` -/
def addTo (a : Ex) (w : Val) (env : Env) : Res :=
  match peek a env with
  | .some v =>
    match binop .add v w with
    | .ok r _ => .ofEnv unit (assign a r env)
    | .panic => .panic
    | .stuck => .stuck
  | .none => .stuck

/-- Which parameters are `&mut`, the receiver first. -/
def Fn.muts (f : Fn) : List Bool :=
  match f.recv with
  | .none => f.params.map (·.2)
  | .refMut => true :: f.params.map (·.2)
  | _ => false :: f.params.map (·.2)

def Fn.names (f : Fn) : List Name :=
  match f.recv with
  | .none => f.params.map (·.1)
  | _ => n!"self" :: f.params.map (·.1)

/-- A list of argument values, kept as a tuple. -/
def Val.list : Val → List Val
  | .tuple vs => vs
  | _ => []

/-- A call of a path: a closure in a variable, a function of the program, a tuple struct, a library function, or a variant. -/
def callPath (W : World) (C : Calls) (q : List Name) (es : Exs) (vs : List Val) (env : Env) : Res :=
  match q with
  | [x] =>
    match env.get x with
    | .some (.clo ps b cenv) => .ofCall [] es env (C.clo ps b cenv vs)
    | .some _ => .stuck
    | .none =>
      match W.fn? .none x with
      | .some f => .ofCall f.muts es env (C.fn f vs)
      | .none =>
        if W.isTuple x then
          match vs with
          | [.num _ n] => .ok (.struct x [(0, .num true n)]) env
          | _ => .stuck
        else
          match libFn [x] vs with
          | .some r => .ofLib (.path []) env r
          | .none => .stuck
  | [t, x] =>
    match W.fn? (.some t) x with
    | .some f => .ofCall f.muts es env (C.fn f vs)
    | .none =>
      match libFn [t, x] vs with
      | .some r => .ofLib (.path []) env r
      | .none => .ok (.data t x vs) env
  | _ => .stuck

/-- A method call. -/
def callMeth (W : World) (C : Calls) (e : Ex) (r : Val) (m : Name) (es : Exs) (vs : List Val) (env : Env) : Res :=
  match r with
  | .struct t _ =>
    match W.fn? (.some t) m with
    | .some f => .ofCall f.muts (.cons e es) env (C.fn f (r :: vs))
    | .none => .stuck
  | r => .ofLib e env (lib W.ord m r vs)

def loopN (f : Env → Res) : Nat → Env → Res
  | 0, _ => .oof
  | n + 1, env =>
    match f env with
    | .ok _ env => loopN f n env
    | .cont env => loopN f n env
    | .brk env => .ok unit env
    | r => r

def forN (f : Val → Env → Res) : List Val → Env → Res
  | [], env => .ok unit env
  | v :: vs, env =>
    match f v env with
    | .ok _ env => forN f vs env
    | .cont env => forN f vs env
    | .brk env => .ok unit env
    | r => r

def mapN (f : Val → Env → Res) : List Val → Env → Res
  | [], env => .ok (.tuple []) env
  | v :: vs, env => (f v env).bind fun a env => (mapN f vs env).bind fun as env => .ok (.tuple (a :: as.list)) env

/-- With the variables of a pattern. -/
def inScope (p : Pat) (f : Env → Res) (v : Val) (env : Env) : Res :=
  .ifMatch (pmatch p v) (fun bs => (f (bs ++ env)).drop bs.length) .stuck

def vecItems : Val → Option (List Val)
  | .vec vs => .some vs
  | _ => .none

mutual
/-- An expression, with at most `k` rounds of every `loop`. -/
def ev (W : World) (C : Calls) (k : Nat) : Ex → Env → Res
  | .bool b, env => .ok (.bool b) env
  | .int n, env => .ok (.num false n) env
  | .char c, env => .ok (.char c) env
  | .str s, env => .ok (.str s) env
  | .path q, env => .ofOpt env (pathVal env q)
  | .tuple es, env => evs W C k es env
  | .call q es, env => (evs W C k es env).bind fun a env => callPath W C q es a.list env
  | .meth e m es, env => (ev W C k e env).bind fun r env => (evs W C k es env).bind fun a env => callMeth W C e r m es a.list env
  | .field e f, env => (ev W C k e env).bind fun v env => .ofOpt env (fieldVal v f)
  | .index e i, env => (ev W C k e env).bind fun v env => (ev W C k i env).bind fun i env => .ofLib (.path []) env (indexVal v i)
  | .slice e i j, env =>
    (ev W C k e env).bind fun v env => (ev W C k i env).bind fun i env => (ev W C k j env).bind fun j env =>
      .ofLib (.path []) env (sliceVal v i j)
  | .not e, env => (ev W C k e env).bind fun v env => .ifTrue v (.ok (.bool false) env) (.ok (.bool true) env)
  | .bin .and a b, env => (ev W C k a env).bind fun v env => .ifTrue v (ev W C k b env) (.ok (.bool false) env)
  | .bin .or a b, env => (ev W C k a env).bind fun v env => .ifTrue v (.ok (.bool true) env) (ev W C k b env)
  | .bin o a b, env => (ev W C k a env).bind fun v env => (ev W C k b env).bind fun w env => .ofLib (.path []) env (binop o v w)
  | .cast e t, env => (ev W C k e env).bind fun v env => .ofOpt env (cast v t)
  | .ite c a b, env => (ev W C k c env).bind fun v env => .ifTrue v (ev W C k a env) (ev W C k b env)
  | .mtch e as, env => (ev W C k e env).bind fun v env => evArms W C k as v env
  | .block b, env => evBlk W C k b env
  | .loop b, env => loopN (fun env => ev W C k b env) k env
  | .forIn p e b, env => (ev W C k e env).bind fun v env =>
    .withItems (items W.ord v) fun vs => forN (inScope p fun env => ev W C k b env) vs env
  | .brk, env => .brk env
  | .cont, env => .cont env
  | .ret e, env => (ev W C k e env).bind fun v env => .ret v env
  | .assign a b, env => (ev W C k b env).bind fun v env => .ofEnv unit (assign a v env)
  | .addAssign a b, env => (ev W C k b env).bind fun w env => addTo a w env
  | .clo ps b, env => .ok (.clo ps b env) env
  | .each e x b, env => (ev W C k e env).bind fun v env =>
    .withItems (vecItems v) fun vs => (mapN (inScope (.var x) fun env => ev W C k b env) vs env).bind fun r env => .ok (.vec r.list) env
  | .struct n fs, env => evFlds W C k n [] fs env
  | .fmt ps es, env => (evs W C k es env).bind fun a env => .ofOpt env ((render ps a.list env).map .str)
  | .mac m es, env => (evs W C k es env).bind fun a env => .ofLib (.path []) env (macroCall m a.list)
/-- Arguments, from left to right, as a tuple. -/
def evs (W : World) (C : Calls) (k : Nat) : Exs → Env → Res
  | .nil, env => .ok (.tuple []) env
  | .cons e es, env => (ev W C k e env).bind fun v env => (evs W C k es env).bind fun a env => .ok (.tuple (v :: a.list)) env
def evArms (W : World) (C : Calls) (k : Nat) : Arms → Val → Env → Res
  | .nil, _, _ => .stuck
  | .cons p e as, v, env => .ifMatch (pmatch p v) (fun bs => (ev W C k e (bs ++ env)).drop bs.length) (evArms W C k as v env)
def evFlds (W : World) (C : Calls) (k : Nat) (n : Name) (acc : List (Name × Val)) : Flds → Env → Res
  | .nil, env => .ok (.struct n acc) env
  | .cons f e fs, env => (ev W C k e env).bind fun v env => evFlds W C k n (acc ++ [(f, v)]) fs env
def evBlk (W : World) (C : Calls) (k : Nat) : Blk → Env → Res
  | .nil, env => .ok unit env
  | .tail e, env => ev W C k e env
  | .letS p e b, env => (ev W C k e env).bind fun v env =>
    .ifMatch (pmatch p v) (fun bs => (evBlk W C k b (bs ++ env)).drop bs.length) .stuck
  | .letU x b, env => (evBlk W C k b ((x, unit) :: env)).drop 1
  | .exprS e b, env => (ev W C k e env).bind fun _ env => evBlk W C k b env
end

/-- How a body ends. -/
def Res.result : Res → CRes
  | .oof => .oof
  | .stuck => .stuck
  | .panic => .panic
  | .brk _ | .cont _ => .stuck
  | .ret v env => .ok v (env.map (·.2))
  | .ok v env => .ok v (env.map (·.2))

mutual
/-- A call of a function, with calls nested at most `n` deep and at most `n` rounds of every loop. -/
def callN (W : World) : Nat → Fn → List Val → CRes
  | 0, _, _ => .oof
  | n + 1, f, vs =>
    match f.body with
    | .none => .stuck
    | .some b => if f.names.length = vs.length then (ev W ⟨callN W n, cloN W n⟩ n b (f.names.zip vs)).result else .stuck
/-- A call of a closure. -/
def cloN (W : World) : Nat → List Name → Ex → Env → List Val → CRes
  | 0, _, _, _, _ => .oof
  | n + 1, ps, b, env, vs =>
    if ps.length = vs.length then (ev W ⟨callN W n, cloN W n⟩ n b (ps.zip vs ++ env)).result else .stuck
end

/-- The function of a type and name, called. -/
def World.call (W : World) (n : Nat) (ty : Option Name) (name : Name) (vs : List Val) : CRes :=
  match W.fn? ty name with
  | .some f => callN W n f vs
  | .none => .stuck

end PP.Rs
