import Verif.Spec.Rs.Syntax

/-! # Specification: the tokens of a Rust source file -/
namespace PP.Rs
open PP.Gen
open PP.Mini (Name nameOf)

inductive T where
  | id (x : Name)
  | num (n : Nat)
  | char (c : Nat)
  | str (s : Bytes)
  | life
  | p (c : Nat)
  deriving DecidableEq, Repr

/-- What the lexer is in the middle of; texts are kept reversed. -/
inductive Mode where
  | code | ident (acc : Bytes) | num (acc : Bytes) | slash | comment
  | str (acc : Bytes) (esc : Bool) | strHex (acc : Bytes) | strHex2 (acc : Bytes) (d : UInt8)
  | rawHash (k : Nat) | raw (k : Nat) (acc : Bytes) | rawEnd (k j : Nat) (acc : Bytes)
  | tick (b : Bool) | tickEsc (b : Bool) | tickEnd (b : Bool) (c : Nat) | tickOr (c : UInt8) | life

def isIdStart (c : UInt8) : Bool := (97 ≤ c && c ≤ 122) || (65 ≤ c && c ≤ 90) || c = 95
def isDig (c : UInt8) : Bool := 48 ≤ c && c ≤ 57
def isIdCont (c : UInt8) : Bool := isIdStart c || isDig c

/-- The character an escape sequence `\c` stands for. -/
def escaped (c : UInt8) : Option UInt8 :=
  if c = 110 then some 10 else if c = 116 then some 9 else if c = 114 then some 13 else if c = 48 then some 0
  else if c = 92 ∨ c = 34 ∨ c = 39 then some c else none

/-- A digit of `\xNN`. -/
def hexDig (c : UInt8) : Option UInt8 :=
  if isDig c then some (c - 48) else if 97 ≤ c && c ≤ 102 then some (c - 87) else if 65 ≤ c && c ≤ 70 then some (c - 55) else none

def start (c : UInt8) : Option (List T × Mode) :=
  if c = 32 || c = 9 || c = 10 || c = 13 then some ([], .code)
  else if isIdStart c then some ([], .ident [c])
  else if isDig c then some ([], .num [c])
  else if c = 47 then some ([], .slash)
  else if c = 34 then some ([], .str [] false)
  else if c = 39 then some ([], .tick false)
  else if 33 ≤ c && c < 127 then some ([.p c.toNat], .code)
  else none

def emit (t : T) : Option (List T × Mode) → Option (List T × Mode)
  | none => none
  | some (ts, m) => some (t :: ts, m)

/-- One character.  `b'c'` and `'c'` are the number and the character, `b"…"` is not read.  Raw strings are `r"…"`, `r#"…"#`, ….
Block comments are not read. -/
def step : Mode → UInt8 → Option (List T × Mode)
  | .code, c => start c
  | .ident acc, c =>
    if isIdCont c then some ([], .ident (c :: acc))
    else if c = 39 && acc = [98] then some ([], .tick true)
    else if c = 34 then (if acc = [114] then some ([], .raw 0 []) else none)
    else if c = 35 && acc = [114] then some ([], .rawHash 1)
    else emit (.id (nameOf acc.reverse)) (start c)
  | .num acc, c =>
    if isIdCont c then some ([], .num (c :: acc))
    else emit (.num (decValue acc.reverse)) (start c)
  | .slash, c => if c = 47 then some ([], .comment) else if c = 42 then none else emit (.p 47) (start c)
  | .comment, c => if c = 10 then some ([], .code) else some ([], .comment)
  | .str acc esc, c =>
    if esc then
      if c = 120 then some ([], .strHex acc)
      else
        match escaped c with
        | some d => some ([], .str (d :: acc) false)
        | none => none
    else if c = 92 then some ([], .str acc true)
    else if c = 34 then some ([.str acc.reverse], .code)
    else some ([], .str (c :: acc) false)
  | .strHex acc, c =>
    match hexDig c with
    | some d => some ([], .strHex2 acc d)
    | none => none
  | .strHex2 acc d, c =>
    match hexDig c with
    | some e => some ([], .str ((16 * d + e) :: acc) false)
    | none => none
  | .rawHash k, c => if c = 35 then some ([], .rawHash (k + 1)) else if c = 34 then some ([], .raw k []) else none
  | .raw k acc, c =>
    if c = 34 then (if k = 0 then some ([.str acc.reverse], .code) else some ([], .rawEnd k 0 acc))
    else some ([], .raw k (c :: acc))
  | .rawEnd k j acc, c =>
    if c = 35 then (if j + 1 = k then some ([.str acc.reverse], .code) else some ([], .rawEnd k (j + 1) acc))
    else
      let acc := List.replicate j 35 ++ 34 :: acc
      if c = 34 then some ([], .rawEnd k 0 acc) else some ([], .raw k (c :: acc))
  | .tick b, c => if c = 92 then some ([], .tickEsc b) else if b then some ([], .tickEnd b c.toNat) else some ([], .tickOr c)
  | .tickEsc b, c =>
    match escaped c with
    | some d => some ([], .tickEnd b d.toNat)
    | none => none
  | .tickEnd b d, c => if c = 39 then some ([if b then .num d else .char d], .code) else none
  | .tickOr d, c =>
    if c = 39 then some ([.char d.toNat], .code)
    else if isIdStart d then (if isIdCont c then some ([], .life) else emit .life (start c))
    else none
  | .life, c => if isIdCont c then some ([], .life) else emit .life (start c)

/-- Many characters. -/
def run : Mode → Bytes → Option (List T × Mode)
  | m, [] => some ([], m)
  | m, c :: cs =>
    match step m c with
    | none => none
    | some (ts, m') =>
      match run m' cs with
      | none => none
      | some (us, m'') => some (ts ++ us, m'')

/-- The tokens of a file that ends outside of a token. -/
def lex (bs : Bytes) : Option (List T) :=
  match run .code bs with
  | some (ts, .code) => some ts
  | _ => none

end PP.Rs
