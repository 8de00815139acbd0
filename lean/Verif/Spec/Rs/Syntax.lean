import Verif.Spec.Mini.Syntax

/-! # Specification: the fragment of Rust in which the generator is written — syntax

References are left out: `&e` and `*e` are `e` (see `Interp`). -/
namespace PP.Rs
open PP.Gen
open PP.Mini (Name nameOf)

inductive Pat where
  | wild
  | var (x : Name)
  | none                                         -- `None`, `Err(…)`
  | some (x : Name)                              -- `Some(x)`, `Ok(x)`
  | tuple (xs : List Name)                       -- `(a, b, …)`
  | variants (vs : List (Name × Name))           -- `T::A | T::B | …`
  | data (ty v : Name) (xs : List Name)          -- `T::A(a, b, …)`
  | dataAny (ty v : Name)                        -- `T::A(..)`
  deriving DecidableEq, Repr

inductive Op where
  | eq | ne | lt | le | gt | ge | and | or | add | sub
  deriving DecidableEq, Repr

/-- A piece of a format string. -/
inductive Piece where
  | lit (s : Bytes)
  | disp                  -- `{}`
  | dbg                   -- `{:?}`
  | dispVar (x : Name)    -- `{x}`
  | dbgVar (x : Name)     -- `{x:?}`
  deriving DecidableEq, Repr

mutual
inductive Ex where
  | bool (b : Bool)
  | int (n : Nat)
  | char (c : Nat)
  | str (s : Bytes)
  | path (ss : List Name)                -- `a::b`
  | tuple (es : Exs)
  | call (f : List Name) (es : Exs)
  | meth (e : Ex) (m : Name) (es : Exs)  -- `e.m(…)`
  | field (e : Ex) (f : Name)
  | index (e i : Ex)
  | slice (e i j : Ex)                   -- `e[i..j]`
  | not (e : Ex)
  | bin (o : Op) (a b : Ex)
  | cast (e : Ex) (ty : Name)            -- `e as ty`
  | ite (c a b : Ex)
  | mtch (e : Ex) (arms : Arms)
  | block (b : Blk)
  | loop (b : Ex)
  | forIn (p : Pat) (e b : Ex)
  | brk
  | cont
  | ret (e : Ex)
  | assign (a b : Ex)
  | addAssign (a b : Ex)
  | clo (ps : List Name) (b : Ex)        -- `|…| b`
  | each (e : Ex) (x : Name) (b : Ex)    -- `e.map(|x| b)`
  | struct (n : Name) (fs : Flds)
  | fmt (ps : List Piece) (es : Exs)     -- `format!(…)`
  | mac (n : Name) (es : Exs)
inductive Exs where
  | nil
  | cons (e : Ex) (es : Exs)
inductive Arms where
  | nil
  | cons (p : Pat) (e : Ex) (as : Arms)
inductive Flds where
  | nil
  | cons (f : Name) (e : Ex) (fs : Flds)
inductive Blk where
  | nil                                   -- `()`
  | tail (e : Ex)
  | letS (p : Pat) (e : Ex) (b : Blk)     -- `let p = e; …`
  | letU (x : Name) (b : Blk)             -- `let x; …`
  | exprS (e : Ex) (b : Blk)              -- `e; …`
end
deriving instance DecidableEq, Repr for Ex, Exs, Arms, Flds, Blk

/-- How a method takes its receiver. -/
inductive Recv where
  | none | val | ref | refMut
  deriving DecidableEq, Repr

/-- A function; its parameters, each with whether it is a `&mut`; `body` is `none` if it is not in the fragment. -/
structure Fn where
  ty : Option Name   -- of which type it is an associated function
  name : Name
  recv : Recv
  params : List (Name × Bool)
  body : Option Ex
  deriving DecidableEq, Repr

inductive Item where
  | fn (f : Fn)
  | tupleStruct (n : Name)               -- `struct N(pub u32);`
  | enum (n : Name) (vs : List Name)
  deriving DecidableEq, Repr

end PP.Rs
