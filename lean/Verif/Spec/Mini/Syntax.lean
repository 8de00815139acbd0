import Verif.Spec.RustText

/-! # Specification: the fragment of Rust in which the core of a parser crate is written — syntax -/
namespace PP.Mini
open PP.Gen

/-- Identifiers, as numbers to the base 256. -/
abbrev Name := Nat

/-- `n!"abc"` is the identifier `abc`: the number 97·256² + 98·256 + 99. -/
macro:max "n!" s:str : term => return Lean.Syntax.mkNumLit (toString (s.getString.toUTF8.foldl (fun a c => a * 256 + c.toNat) 0))

/-- The identifier with these bytes. -/
def nameOf (bs : Bytes) : Name := bs.foldl (fun a c => a * 256 + c.toNat) 0

example : nameOf (utf8Of "while") = n!"while" := by decide +kernel

/-- The last `k` digits to the base 256 of a number, in front of `acc`. -/
def digits256 : Nat → Nat → Bytes → Bytes
  | 0, _, acc => acc
  | k + 1, n, acc => if n = 0 then acc else digits256 k (n / 256) (UInt8.ofNat (n % 256) :: acc)

/-- The bytes of which a number is made (the inverse of `nameOf`, for bytes that do not start with 0). -/
def bytesOfName (n : Name) : Bytes := digits256 n n []

example : bytesOfName n!"while" = utf8Of "while" := by decide +kernel

inductive Pat where
  | wild
  | var (x : Name)
  | none
  | some (x : Name)
  | someTuple (xs : List Name)   -- `Some((a, b, …))`
  | tuple (xs : List Name)       -- `(a, b, …)`
  | variants (vs : List (Name × Name))   -- `T::A | T::B | …`
  deriving DecidableEq, Repr

inductive Op where
  | eq | ne | lt | le | gt | ge | and | or | add | sub | mul | div
  deriving DecidableEq, Repr

mutual
inductive Ex where
  | bool (b : Bool)
  | int (n : Nat)
  | byte (s : Bytes)                       -- `b'…'`
  | bytes (s : Bytes)                      -- `b"…"`
  | str (s : Name)                         -- `"…"` without backslashes and NULs; the text as a number, as for identifiers
  | msg                                    -- other `"…"`: messages, whose text plays no role
  | path (ss : List Name)                -- `a::b`
  | tuple (es : Exs)
  | array (es : Exs)
  | call (f : Ex) (es : Exs)
  | meth (e : Ex) (m : Name) (es : Exs)  -- `e.m(…)`
  | field (e : Ex) (f : Name)
  | index (e i : Ex)
  | slice (e i j : Ex)                     -- `e[i..j]`
  | ref (e : Ex)                           -- `&e`
  | refMut (e : Ex)                        -- `&mut e`
  | deref (e : Ex)
  | not (e : Ex)
  | neg (e : Ex)                           -- `-e`
  | bin (o : Op) (a b : Ex)
  | cast (e : Ex) (ty : Name)            -- `e as ty`
  | ite (c a b : Ex)
  | mtch (e : Ex) (arms : Arms)
  | block (b : Blk)
  | loop (b : Ex)
  | forIn (p : Pat) (e b : Ex)
  | brk
  | ret (e : Ex)
  | assign (a b : Ex)
  | addAssign (a b : Ex)
  | clo (ps : List Name) (b : Ex)        -- `move |…| b`
  | struct (n : Name) (fs : Flds)
  | mac (n : Name) (es : Exs)
inductive Exs where
  | nil
  | cons (e : Ex) (es : Exs)
inductive Arms where
  | nil
  | cons (p : Pat) (e : Ex) (as : Arms)
inductive Flds where
  | nil
  | cons (f : Name) (e : Ex) (fs : Flds)
inductive Blk where
  | nil                                              -- `()`
  | tail (e : Ex)
  | letS (p : Pat) (mt : Bool) (e : Ex) (b : Blk)   -- `let p = e; …`
  | letU (x : Name) (b : Blk)                      -- `let x; …`
  | exprS (e : Ex) (b : Blk)                         -- `e; …`
end
deriving instance DecidableEq, Repr for Ex, Exs, Arms, Flds, Blk

/-- How a method takes its receiver. -/
inductive Recv where
  | none | val | ref | refMut
  deriving DecidableEq, Repr

/-- A function; `body` is `none` if it is not in the fragment. -/
structure Fn where
  ty : Option Name   -- of which type it is an associated function
  name : Name
  recv : Recv
  params : List Name
  body : Option Ex
  deriving DecidableEq, Repr

inductive Item where
  | fn (f : Fn)
  | const (x : Name) (n : Nat)
  | tupleStruct (n : Name)
  | unitStruct (n : Name)
  | enum (n : Name) (vs : List Name)
  deriving DecidableEq, Repr

end PP.Mini
