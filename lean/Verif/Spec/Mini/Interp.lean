import Verif.Spec.Mini.Syntax
import Verif.Model.Calc.Arith

/-! # Specification: the fragment of Rust in which the core of a parser crate is written — execution

Values are untyped.  A shared reference is the value it refers to (which cannot change while the reference lives); a mutable reference is an
address in the heap and a path into the value there.  `RefCell`s have their contents in the heap; whether two borrows overlap is not checked
(see C67).  Integers: `+` is `u32` addition and `*` is `usize` multiplication, the types these operators have in the functions executed, and
both panic at overflow; values of type `i64` (which only come from `str::parse` and `sum`) are kept apart, and their operations panic at
overflow too, as in a debug build.  `HashMap`, `BTreeSet`, `HashSet` and `Vec` are built in; capacities are ignored, and so is what is printed. -/
namespace PP.Mini
open PP.Gen

/-- A step of a path into a value: a field, or the position of an element (of a vector) or of an entry (of a map). -/
inductive Step where
  | fld (f : Name)
  | idx (i : Nat)
  deriving DecidableEq, Repr

inductive Val where
  | bool (b : Bool)
  | int (n : Nat)                                           -- unsigned
  | i64 (x : Int)
  | str (bs : Bytes)                                        -- `str`, `String`
  | bytes (bs : Bytes)                                      -- byte slices
  | tuple (l : List Val)
  | vec (l : List Val)
  | set (l : List Val)
  | map (l : List (Val × Val))
  | struct (n : Name) (fs : List (Name × Val))
  | none
  | some (v : Val)
  | variant (ty v : Name)
  | fn (ty : Option Name) (n : Name)
  | clo (ps : List Name) (b : Ex) (env : List (Name × Val))
  | ref (a : Nat) (p : List Step)                           -- `&mut`
  | cell (a : Nat)                                          -- `RefCell`
  | uninit

abbrev Val.unit : Val := .tuple []

abbrev Heap := List Val

/-- The result of executing an expression: a value, or `break`, `return`, a panic; `stuck` if it is not in the fragment; `oof` if the fuel
does not suffice. -/
inductive Res (α : Type) where
  | oof
  | stuck
  | panic
  | brk (h : Heap)
  | ret (v : Val) (h : Heap)
  | ok (a : α) (h : Heap)

def Res.bind {α β : Type} (x : Res α) (f : α → Heap → Res β) : Res β :=
  match x with
  | .oof => .oof
  | .stuck => .stuck
  | .panic => .panic
  | .brk h => .brk h
  | .ret v h => .ret v h
  | .ok a h => f a h

/-- A program. -/
abbrev Prog := List Item

/-- The functions of this name. -/
def Prog.fns (P : Prog) (ty : Option Name) (n : Name) : List Fn :=
  P.filterMap fun
    | .fn f => if f.ty = ty ∧ f.name = n then some f else none
    | _ => none

/-- The function of this name, if there is exactly one. -/
def Prog.fn? (P : Prog) (ty : Option Name) (n : Name) : Option Fn :=
  match P.fns ty n with
  | [f] => some f
  | _ => none

def Prog.const? (P : Prog) (n : Name) : Option Nat := P.findSome? fun
  | .const x k => if x = n then some k else none
  | _ => none
def Prog.isTuple (P : Prog) (n : Name) : Bool := P.contains (.tupleStruct n)
def Prog.isUnit (P : Prog) (n : Name) : Bool := P.contains (.unitStruct n)
def Prog.isVariant (P : Prog) (ty n : Name) : Bool := P.any fun
  | .enum e vs => e = ty ∧ vs.contains n
  | _ => false

/-- A variable: a value, or (if it is mutable) the address of one. -/
inductive Bind where
  | val (v : Val)
  | loc (a : Nat)
abbrev Env := List (Name × Bind)

/-! ## Values in the heap -/

/-- What a path leads to. -/
def getAt : Val → List Step → Option Val
  | v, [] => some v
  | .struct _ fs, .fld f :: p => (fs.lookup f).bind (getAt · p)
  | .tuple l, .fld i :: p => (l[i]?).bind (getAt · p)
  | .vec l, .idx i :: p => (l[i]?).bind (getAt · p)
  | .map l, .idx i :: p => (l[i]?).bind (getAt ·.2 p)
  | _, _ => none

/-- A field changed. -/
def setField (f : Name) (v : Val) : List (Name × Val) → List (Name × Val)
  | [] => []
  | (g, w) :: fs => if g = f then (g, v) :: fs else (g, w) :: setField f v fs

/-- The value with the part that a path leads to replaced. -/
def putAt : Val → List Step → Val → Option Val
  | _, [], w => some w
  | .struct n fs, .fld f :: p, w => do
    let v ← fs.lookup f
    let v ← putAt v p w
    some (.struct n (setField f v fs))
  | .tuple l, .fld i :: p, w => do
    let v ← l[i]?
    let v ← putAt v p w
    some (.tuple (l.set i v))
  | .vec l, .idx i :: p, w => do
    let v ← l[i]?
    let v ← putAt v p w
    some (.vec (l.set i v))
  | .map l, .idx i :: p, w => do
    let v ← l[i]?
    let u ← putAt v.2 p w
    some (.map (l.set i (v.1, u)))
  | _, _, _ => none

/-- The value of a place; other values are themselves. -/
def loadV (h : Heap) : Val → Option Val
  | .ref a p => (h[a]?).bind (getAt · p)
  | v => some v

def load (v : Val) (h : Heap) : Res Val :=
  match loadV h v with
  | some w => .ok w h
  | none => .stuck

def store (a : Nat) (p : List Step) (w : Val) (h : Heap) : Res Val :=
  match (h[a]?).bind (putAt · p w) with
  | some v => .ok .unit (h.set a v)
  | none => .stuck

/-- The place that a place or a reference denotes (references are followed). -/
def follow (v : Val) (h : Heap) : Val :=
  match loadV h v with
  | some (.ref a p) => .ref a p
  | _ => v

/-- A field of a place or of a value. -/
def project (f : Name) (v : Val) (h : Heap) : Res Val :=
  match follow v h with
  | .ref a p => .ok (.ref a (p ++ [.fld f])) h
  | .struct _ fs =>
    match fs.lookup f with
    | some w => .ok w h
    | none => .stuck
  | .tuple l =>
    match l[f]? with
    | some w => .ok w h
    | none => .stuck
  | _ => .stuck

/-- An element of a place or of a value; out of range is a panic. -/
def element (i : Val) (v : Val) (h : Heap) : Res Val :=
  match i, loadV h (follow v h) with
  | .int i, some (.vec l) =>
    match l[i]? with
    | some w =>
      match follow v h with
      | .ref a p => .ok (.ref a (p ++ [.idx i])) h
      | _ => .ok w h
    | none => .panic
  | .int i, some (.bytes bs) =>
    match bs[i]? with
    | some c => .ok (.int c.toNat) h
    | none => .panic
  | _, _ => .stuck

/-- Between two characters of a string: the next byte is not a continuation byte. -/
def betweenChars (bs : Bytes) (i : Nat) : Bool :=
  match bs[i]? with
  | some c => decide (i = 0 ∨ c.toNat < 128 ∨ 192 ≤ c.toNat)
  | none => decide (i = bs.length)

/-- A part of a byte slice or of a string; out of range, or within a character, is a panic. -/
def slicing (i j v : Val) (h : Heap) : Res Val :=
  match i, j, loadV h (follow v h) with
  | .int i, .int j, some (.bytes bs) => if i ≤ j ∧ j ≤ bs.length then .ok (.bytes ((bs.take j).drop i)) h else .panic
  | .int i, .int j, some (.str bs) =>
    if i ≤ j ∧ j ≤ bs.length ∧ betweenChars bs i ∧ betweenChars bs j then .ok (.str ((bs.take j).drop i)) h else .panic
  | _, _, _ => .stuck

/-! ## Equality -/

/-- Equality of integers, Booleans, strings, enum variants and newtypes of integers. -/
def atomEq : Val → Val → Option Bool
  | .int a, .int b => some (decide (a = b))
  | .bool a, .bool b => some (decide (a = b))
  | .str a, .str b => some (decide (a = b))
  | .variant t a, .variant u b => some (decide (t = u ∧ a = b))
  | .struct n [(f, .int a)], .struct m [(g, .int b)] => if n = m ∧ f = g then some (decide (a = b)) else none
  | _, _ => none

/-- Equality, also of pairs and options of such values. -/
def valEq : Val → Val → Option Bool
  | .tuple [a, b], .tuple [c, d] => do
    let x ← atomEq a c
    let y ← atomEq b d
    some (x && y)
  | .none, .none => some true
  | .none, .some _ => some false
  | .some _, .none => some false
  | .some a, .some b => atomEq a b
  | a, b => atomEq a b

/-- Whether a value is in a list. -/
def memV (k : Val) (l : List Val) : Bool := l.any fun x => valEq x k = some true
/-- The position of an entry. -/
def findKey (k : Val) (l : List (Val × Val)) : Option Nat := l.findIdx? fun x => valEq x.1 k = some true

/-! ## Built-in operations -/

/-- The result of an operation of `i64`. -/
def i64 (x : Int) (h : Heap) : Res Val := if -9223372036854775808 ≤ x ∧ x < 9223372036854775808 then .ok (.i64 x) h else .panic

/-- `sum()` of `i64`s. -/
def sumN (s : Int) : List Val → Heap → Res Val
  | [], h => .ok (.i64 s) h
  | .i64 x :: vs, h => if -9223372036854775808 ≤ s + x ∧ s + x < 9223372036854775808 then sumN (s + x) vs h else .panic
  | _, _ => .stuck

def binop : Op → Val → Val → Heap → Res Val
  | .eq, a, b, h => match valEq a b with
    | some x => .ok (.bool x) h
    | none => .stuck
  | .ne, a, b, h => match valEq a b with
    | some x => .ok (.bool (!x)) h
    | none => .stuck
  | .lt, .int a, .int b, h => .ok (.bool (decide (a < b))) h
  | .le, .int a, .int b, h => .ok (.bool (decide (a ≤ b))) h
  | .gt, .int a, .int b, h => .ok (.bool (decide (b < a))) h
  | .ge, .int a, .int b, h => .ok (.bool (decide (b ≤ a))) h
  | .add, .int a, .int b, h => if a + b < 4294967296 then .ok (.int (a + b)) h else .panic
  | .mul, .int a, .int b, h => if a * b < 18446744073709551616 then .ok (.int (a * b)) h else .panic
  | .div, .int a, .int b, h => if b = 0 then .panic else .ok (.int (a / b)) h
  | .add, .i64 a, .i64 b, h => i64 (a + b) h
  | .sub, .i64 a, .i64 b, h => i64 (a - b) h
  | .mul, .i64 a, .i64 b, h => i64 (a * b) h
  | .div, .i64 a, .i64 b, h => if b = 0 then .panic else i64 (a.tdiv b) h
  | .add, .str a, .str b, h => .ok (.str (a ++ b)) h
  | _, _, _, _ => .stuck

def castTo (ty : Name) : Val → Heap → Res Val
  | .int n, h => if ty = n!"u32" then .ok (.int (n % 4294967296)) h else if ty = n!"usize" then .ok (.int n) h else .stuck
  | .i64 x, h => if ty = n!"u32" then .ok (.int (x % 4294967296).toNat) h else .stuck
  | _, _ => .stuck

/-- Associated functions of the library. -/
def builtin (ty f : Name) (args : List Val) (h : Heap) : Option (Res Val) :=
  if f = n!"new" then
    match args with
    | [] =>
      if ty = n!"BTreeSet" then some (.ok (.set []) h)
      else if ty = n!"HashSet" then some (.ok (.set []) h)
      else if ty = n!"HashMap" then some (.ok (.map []) h)
      else if ty = n!"Vec" then some (.ok (.vec []) h)
      else none
    | [v] => if ty = n!"RefCell" then some (.ok (.cell h.length) (h ++ [v])) else none
    | _ => none
  else if f = n!"with_capacity" then
    match args with
    | [_] => if ty = n!"Vec" then some (.ok (.vec []) h) else none
    | _ => none
  else none

/-- Methods of the library: the receiver as a place (or value), its value, the arguments. -/
def method (m : Name) (place v : Val) (args : List Val) (h : Heap) : Res Val :=
  match v, args with
  | .cell a, [] =>
    if m = n!"borrow_mut" then .ok (.ref a []) h
    else if m = n!"borrow" ∨ m = n!"into_inner" then
      match h[a]? with
      | some w => .ok w h
      | none => .stuck
    else .stuck
  | .str bs, [] =>
    if m = n!"len" then .ok (.int bs.length) h
    else if m = n!"as_bytes" then .ok (.bytes bs) h
    else if m = n!"to_string" then .ok (.str bs) h
    else if m = n!"parse" then
      match parseI64 bs with
      | some x => .ok (.some (.i64 x)) h
      | none => .ok .none h
    else .stuck
  | .str bs, [x] =>
    if m = n!"push_str" then
      match place, x with
      | .ref a p, .str cs => store a p (.str (bs ++ cs)) h
      | _, _ => .stuck
    else .stuck
  | .i64 a, [x] =>
    if m = n!"pow" then
      match x with
      | .int b => i64 (a ^ b) h
      | _ => .stuck
    else .stuck
  | .bytes bs, [] => if m = n!"len" then .ok (.int bs.length) h else .stuck
  | .int n, [] => if m = n!"try_into" then .ok (if n < 4294967296 then .some (.int n) else .none) h else .stuck
  | .none, [] =>
    if m = n!"is_some" then .ok (.bool false) h
    else if m = n!"unwrap" then .panic
    else if m = n!"copied" then .ok .none h
    else .stuck
  | .none, [_] => if m = n!"expect" then .panic else .stuck
  | .some w, [] =>
    if m = n!"is_some" then .ok (.bool true) h
    else if m = n!"unwrap" then .ok w h
    else if m = n!"copied" then .ok (.some w) h
    else .stuck
  | .some w, [_] => if m = n!"expect" then .ok w h else .stuck
  | .vec l, [] =>
    if m = n!"len" then .ok (.int l.length) h
    else if m = n!"clone" ∨ m = n!"to_vec" ∨ m = n!"iter" then .ok (.vec l) h
    else if m = n!"is_empty" then .ok (.bool l.isEmpty) h
    else if m = n!"sum" then sumN 0 l h
    else .stuck
  | .vec l, [x] =>
    if m = n!"push" then
      match place with
      | .ref a p => store a p (.vec (l ++ [x])) h
      | _ => .stuck
    else .stuck
  | .set l, [] => if m = n!"clone" then .ok (.set l) h else .stuck
  | .set l, [x] =>
    if m = n!"contains" then .ok (.bool (memV x l)) h
    else
      match place with
      | .ref a p =>
        if m = n!"insert" then
          (store a p (.set (if memV x l then l else l ++ [x])) h).bind fun _ h => .ok (.bool (!memV x l)) h
        else if m = n!"remove" then
          (store a p (.set (l.filter fun y => valEq y x ≠ some true)) h).bind fun _ h => .ok (.bool (memV x l)) h
        else .stuck
      | _ => .stuck
  | .map l, [k] =>
    if m = n!"get" then
      match findKey k l with
      | some i =>
        match l[i]? with
        | some e => .ok (.some e.2) h
        | none => .stuck
      | none => .ok .none h
    else if m = n!"get_mut" then
      match findKey k l with
      | some i =>
        match place with
        | .ref a p => .ok (.some (.ref a (p ++ [.idx i]))) h
        | _ => .stuck
      | none => .ok .none h
    else .stuck
  | .map l, [k, x] =>
    if m = n!"insert" then
      match place with
      | .ref a p =>
        match findKey k l with
        | some i =>
          match l[i]? with
          | some e => (store a p (.map (l.set i (k, x))) h).bind fun _ h => .ok (.some e.2) h
          | none => .stuck
        | none => (store a p (.map (l ++ [(k, x)])) h).bind fun _ h => .ok .none h
      | _ => .stuck
    else .stuck
  | _, _ => .stuck

/-! ## Expressions -/

/-- A variable is bound; mutable variables get an address. -/
def bindVar (mt : Bool) (x : Name) (v : Val) (env : Env) (h : Heap) : Env × Heap :=
  if mt then ((x, .loc h.length) :: env, h ++ [v]) else ((x, .val v) :: env, h)

def bindAll : List Name → List Val → Env → Option Env
  | [], [], env => some env
  | x :: xs, v :: vs, env => bindAll xs vs ((x, .val v) :: env)
  | _, _, _ => none

/-- A pattern matches and binds its variables (`none`: it does not match). -/
def matchPat : Pat → Val → Env → Option Env
  | .wild, _, env => some env
  | .var x, v, env => some ((x, .val v) :: env)
  | .none, .none, env => some env
  | .some x, .some v, env => some ((x, .val v) :: env)
  | .someTuple xs, .some (.tuple vs), env => bindAll xs vs env
  | .tuple xs, .tuple vs, env => bindAll xs vs env
  | .variants vs, .variant t x, env => if (t, x) ∈ vs then some env else none
  | _, _, _ => none

/-- What a closure captures (by move). -/
def capture (h : Heap) (env : Env) : List (Name × Val) :=
  env.map fun
    | (x, .val v) => (x, v)
    | (x, .loc a) => (x, (h[a]?).getD .uninit)

/-- The elements a `for` loop runs over. -/
def elements : Val → Option (List Val)
  | .vec l => some l
  | .bytes bs => some (bs.map fun c => .int c.toNat)
  | _ => none

/-- `loop`: at most `n` rounds. -/
def loopN (step : Heap → Res Val) : Nat → Heap → Res Val
  | 0, _ => .oof
  | n + 1, h =>
    match step h with
    | .ok _ h => loopN step n h
    | .brk h => .ok .unit h
    | r => r

def forN (step : Val → Heap → Res Val) : List Val → Heap → Res Val
  | [], h => .ok .unit h
  | v :: vs, h =>
    match step v h with
    | .ok _ h => forN step vs h
    | .brk h => .ok .unit h
    | r => r

/-- How functions are called. -/
abbrev Call := Val → List Val → Heap → Res Val

section
variable (P : Prog) (call : Call) (n : Nat)

/-- A name that is not a local variable. -/
def global : List Name → Heap → Res Val
  | [x], h =>
    if x = n!"None" then .ok .none h
    else match P.const? x with
      | some k => .ok (.int k) h
      | none => if P.isUnit x then .ok (.struct x []) h else .ok (.fn none x) h
  | [t, x], h => if P.isVariant t x then .ok (.variant t x) h else .ok (.fn (some t) x) h
  | _, _ => .stuck

/-- The call of a name that is not a local variable: a constructor, a function of the library, or one of the program. -/
def callGlobal (f : List Name) (args : List Val) (h : Heap) : Res Val :=
  match f, args with
  | [x], args =>
    if x = n!"Some" then
      match args with
      | [v] => .ok (.some v) h
      | _ => .stuck
    else if P.isTuple x then .ok (.struct x ((List.range args.length).zip args)) h
    else call (.fn none x) args h
  | [t, x], args =>
    match builtin t x args h with
    | some r => r
    | none => call (.fn (some t) x) args h
  | _, _ => .stuck

/-- A method call: of a method of the program if the receiver is a struct, else of the library. -/
def callMethod (m : Name) (recv : Val) (args : List Val) (h : Heap) : Res Val :=
  let place := follow recv h
  match loadV h place with
  | some (.struct t fs) =>
    match P.fn? (some t) m with
    | some f =>
      match f.recv, place with
      | .refMut, .ref a p => call (.fn (some t) m) (.ref a p :: args) h
      | .ref, _ => call (.fn (some t) m) (.struct t fs :: args) h
      | .val, _ => call (.fn (some t) m) (.struct t fs :: args) h
      | _, _ => .stuck
    | none => .stuck
  | some v => method m place v args h
  | none => .stuck

mutual
/-- An expression is evaluated: with `pl` to the place it denotes, if it denotes one (a `ref`). -/
def ev (pl : Bool) : Ex → Env → Heap → Res Val
  | .bool b, _, h => .ok (.bool b) h
  | .int k, _, h => .ok (.int k) h
  | .byte s, _, h => match byteLit s with
    | some c => .ok (.int c.toNat) h
    | none => .stuck
  | .bytes s, _, h => match byteStr (s.map (·.toNat)) with
    | some d => .ok (.bytes d) h
    | none => .stuck
  | .str s, _, h => .ok (.str (bytesOfName s)) h
  | .msg, _, h => .ok .unit h
  | .path ss, env, h =>
    match ss with
    | [x] =>
      match env.lookup x with
      | some (.val v) => .ok v h
      | some (.loc a) => if pl then .ok (.ref a []) h else load (.ref a []) h
      | none => global P [x] h
    | ss => global P ss h
  | .tuple es, env, h => (evs es env h).bind fun vs h => .ok (.tuple vs) h
  | .array es, env, h => (evs es env h).bind fun vs h => .ok (.vec vs) h
  | .call f es, env, h =>
    match f with
    | .path [x] =>
      match env.lookup x with
      | some (.val v) => (evs es env h).bind fun vs h => call v vs h
      | some (.loc a) => (evs es env h).bind fun vs h => (load (.ref a []) h).bind fun v h => call v vs h
      | none => (evs es env h).bind fun vs h => callGlobal P call [x] vs h
    | .path ss => (evs es env h).bind fun vs h => callGlobal P call ss vs h
    | _ => .stuck
  | .meth e m es, env, h =>
    (ev true e env h).bind fun r h => (evs es env h).bind fun vs h => callMethod P call m r vs h
  | .field e f, env, h =>
    (ev true e env h).bind fun r h => (project f r h).bind fun r h => if pl then .ok r h else load r h
  | .index e i, env, h =>
    (ev true e env h).bind fun r h => (ev false i env h).bind fun i h => (element i r h).bind fun r h =>
      if pl then .ok r h else load r h
  | .slice e i j, env, h =>
    (ev true e env h).bind fun r h => (ev false i env h).bind fun i h => (ev false j env h).bind fun j h => slicing i j r h
  | .ref e, env, h => (ev true e env h).bind fun r h => load (follow r h) h
  | .refMut e, env, h => ev true e env h
  | .deref e, env, h => (ev true e env h).bind fun r h => if pl then .ok (follow r h) h else load (follow r h) h
  | .not e, env, h => (ev false e env h).bind fun v h =>
    match v with
    | .bool b => .ok (.bool (!b)) h
    | _ => .stuck
  | .neg e, env, h => (ev false e env h).bind fun v h =>
    match v with
    | .i64 x => i64 (-x) h
    | _ => .stuck
  | .bin o a b, env, h => (ev false a env h).bind fun v h =>
    match o, v with
    | .and, .bool x => if x then ev false b env h else .ok (.bool false) h
    | .or, .bool x => if x then .ok (.bool true) h else ev false b env h
    | o, v => (ev false b env h).bind fun w h => binop o v w h
  | .cast e ty, env, h => (ev false e env h).bind fun v h => castTo ty v h
  | .ite c a b, env, h => (ev false c env h).bind fun v h =>
    match v with
    | .bool true => ev false a env h
    | .bool false => ev false b env h
    | _ => .stuck
  | .mtch e as, env, h => (ev false e env h).bind fun v h => evArms v as env h
  | .block b, env, h => evBlk b env h
  | .loop b, env, h => loopN (fun h => ev false b env h) n h
  | .forIn p e b, env, h => (ev false e env h).bind fun v h =>
    match elements v with
    | some vs => forN (fun v h =>
        match matchPat p v env with
        | some env => ev false b env h
        | none => .stuck) vs h
    | none => .stuck
  | .brk, _, h => .brk h
  | .ret e, env, h => (ev false e env h).bind fun v h => .ret v h
  | .assign a b, env, h => (ev false b env h).bind fun v h => (ev true a env h).bind fun r h =>
    match r with
    | .ref l p => store l p v h
    | _ => .stuck
  | .addAssign a b, env, h => (ev false b env h).bind fun v h => (ev true a env h).bind fun r h =>
    (load r h).bind fun w h => (binop .add w v h).bind fun s h =>
      match r with
      | .ref l p => store l p s h
      | _ => .stuck
  | .clo ps b, env, h => .ok (.clo ps b (capture h env)) h
  | .struct t fs, env, h => (evFlds fs env h).bind fun l h => .ok (.struct t l) h
  | .mac m es, env, h =>
    if m = n!"debug_assert" then
      match es with
      | .cons e _ => (ev false e env h).bind fun v h =>
        match v with
        | .bool true => .ok .unit h
        | .bool false => .panic
        | _ => .stuck
      | .nil => .stuck
    else if m = n!"println" ∨ m = n!"print" then (evs es env h).bind fun _ h => .ok .unit h
    else if m = n!"panic" ∨ m = n!"unreachable" then (evs es env h).bind fun _ _ => .panic
    else .stuck
def evs : Exs → Env → Heap → Res (List Val)
  | .nil, _, h => .ok [] h
  | .cons e es, env, h => (ev false e env h).bind fun v h => (evs es env h).bind fun vs h => .ok (v :: vs) h
def evFlds : Flds → Env → Heap → Res (List (Name × Val))
  | .nil, _, h => .ok [] h
  | .cons f e fs, env, h => (ev false e env h).bind fun v h => (evFlds fs env h).bind fun vs h => .ok ((f, v) :: vs) h
def evArms (v : Val) : Arms → Env → Heap → Res Val
  | .nil, _, _ => .stuck
  | .cons p e as, env, h =>
    match matchPat p v env with
    | some env => ev false e env h
    | none => evArms v as env h
def evBlk : Blk → Env → Heap → Res Val
  | .nil, _, h => .ok .unit h
  | .tail e, env, h => ev false e env h
  | .letS p mt e b, env, h => (ev false e env h).bind fun v h =>
    match mt, p with
    | true, .var x => evBlk b ((x, .loc h.length) :: env) (h ++ [v])
    | true, _ => .stuck
    | false, p =>
      match matchPat p v env with
      | some env => evBlk b env h
      | none => .stuck
  | .letU x b, env, h => evBlk b ((x, .loc h.length) :: env) (h ++ [.uninit])
  | .exprS e b, env, h => (ev false e env h).bind fun _ h => evBlk b env h
end
end

/-- The result of a function: `return` ends it. -/
def Res.result : Res Val → Res Val
  | .ret v h => .ok v h
  | .brk _ => .stuck
  | r => r

/-- A function or closure is called.  `n` bounds the depth of calls and the number of rounds of each loop. -/
def run (P : Prog) : Nat → Call
  | 0, _, _, _ => .oof
  | n + 1, .clo ps b env, args, h =>
    match bindAll ps args (env.map fun x => (x.1, .val x.2)) with
    | some env => (ev P (run P n) n false b env h).result
    | none => .stuck
  | n + 1, .fn ty f, args, h =>
    match P.fn? ty f with
    | none => .stuck
    | some f =>
      match f.body, bindAll (if f.recv = .none then f.params else n!"self" :: f.params) args [] with
      | some b, some env => (ev P (run P n) n false b env h).result
      | _, _ => .stuck
  | _ + 1, _, _, _ => .stuck

end PP.Mini
