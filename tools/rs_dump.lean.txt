import Verif.Spec.Rs.Reader
open PP PP.Rs PP.Gen
open PP.Mini (Name)
def nm (n : Nat) : String := Id.run do
  let mut l : List Char := []
  let mut m := n
  while m > 0 do
    l := Char.ofNat (m % 256) :: l
    m := m / 256
  return String.ofList l
def q (n : Name) : String := if n < 48 then toString n else "n!\"" ++ nm n ++ "\""
def ql (l : List Name) : String := "[" ++ ", ".intercalate (l.map q) ++ "]"
def qb (b : Bytes) : String := Id.run do
  let mut s := ""
  for c in b do
    let c := Char.ofNat c.toNat
    s := s ++ (if c = '"' then "\\\"" else if c = '\\' then "\\\\" else if c = '\n' then "\\n" else if c = '\t' then "\\t" else if c = '\r' then "\\r"
      else if c.toNat < 32 then "\\x" ++ String.ofList [Nat.digitChar (c.toNat / 16), Nat.digitChar (c.toNat % 16)]
      else if c = ' ' then "␣" else toString c)
  return "(utf8Of␣\"" ++ s ++ "\")"
def sp : Pat → String
  | .wild => ".wild" | .var x => s!"(.var {q x})" | .none => ".none" | .some x => s!"(.some {q x})"
  | .tuple xs => s!"(.tuple {ql xs})"
  | .variants vs => "(.variants [" ++ ", ".intercalate (vs.map fun v => s!"({q v.1}, {q v.2})") ++ "])"
  | .data t v xs => s!"(.data {q t} {q v} {ql xs})" | .dataAny t v => s!"(.dataAny {q t} {q v})"
def so : Op → String
  | .eq => ".eq" | .ne => ".ne" | .lt => ".lt" | .le => ".le" | .gt => ".gt" | .ge => ".ge" | .and => ".and" | .or => ".or" | .add => ".add" | .sub => ".sub"
def spc : Piece → String
  | .lit s => s!".lit {qb s}" | .disp => ".disp" | .dbg => ".dbg" | .dispVar x => s!".dispVar {q x}" | .dbgVar x => s!".dbgVar {q x}"
mutual
partial def se : Ex → String
  | .bool b => s!"(.bool {b})" | .int n => s!"(.int {n})" | .char c => s!"(.char {c})" | .str n => s!"(.str {qb n})"
  | .path ss => s!"(.path {ql ss})" | .tuple es => s!"(.tuple {ss es})"
  | .call f es => s!"(.call {ql f} {ss es})" | .meth e m es => s!"(.meth {se e} {q m} {ss es})" | .field e f => s!"(.field {se e} {q f})"
  | .index e i => s!"(.index {se e} {se i})" | .slice e i j => s!"(.slice {se e} {se i} {se j})"
  | .not e => s!"(.not {se e})" | .bin o a b => s!"(.bin {so o} {se a} {se b})" | .cast e t => s!"(.cast {se e} {q t})"
  | .ite c a b => s!"(.ite {se c} {se a} {se b})" | .mtch e as => s!"(.mtch {se e} {sa as})" | .block b => s!"(.block {sb b})"
  | .loop b => s!"(.loop {se b})" | .forIn p e b => s!"(.forIn {sp p} {se e} {se b})" | .brk => ".brk" | .cont => ".cont" | .ret e => s!"(.ret {se e})"
  | .assign a b => s!"(.assign {se a} {se b})" | .addAssign a b => s!"(.addAssign {se a} {se b})" | .clo ps b => s!"(.clo {ql ps} {se b})"
  | .each e x b => s!"(.each {se e} {q x} {se b})"
  | .struct n fs => s!"(.struct {q n} {sf fs})" | .fmt ps es => "(.fmt [" ++ ", ".intercalate (ps.map spc) ++ s!"] {ss es})" | .mac n es => s!"(.mac {q n} {ss es})"
partial def ss : Exs → String
  | .nil => ".nil" | .cons e es => s!"(.cons {se e} {ss es})"
partial def sa : Arms → String
  | .nil => ".nil" | .cons p e as => s!"(.cons {sp p} {se e} {sa as})"
partial def sf : Flds → String
  | .nil => ".nil" | .cons f e fs => s!"(.cons {q f} {se e} {sf fs})"
partial def sb : Blk → String
  | .nil => ".nil" | .tail e => s!"(.tail {se e})" | .letS p e b => s!"(.letS {sp p} {se e}\n{sb b})" | .letU x b => s!"(.letU {q x}\n{sb b})"
  | .exprS e b => s!"(.exprS {se e}\n{sb b})"
end
def sr : Recv → String
  | .none => ".none" | .val => ".val" | .ref => ".ref" | .refMut => ".refMut"
def fnId (f : PP.Rs.Fn) : String := (match f.ty with | some t => nm t ++ "." | none => "") ++ nm f.name
def sps (l : List (Name × Bool)) : String := "[" ++ ", ".intercalate (l.map fun p => s!"({q p.1}, {p.2})") ++ "]"
def main (args : List String) : IO Unit := do
  for f in args do
    let t ← IO.FS.readFile ("/repo/" ++ f)
    IO.println s!"@file {f}"
    match readFile t.toUTF8.data.toList with
    | none => IO.println "FAIL"
    | some is =>
      for i in is do
        match i with
        | .fn f =>
          IO.println s!"@fn {fnId f}"
          let ty := match f.ty with | some t => s!"(some {q t})" | none => "none"
          match f.body with
          | some b => IO.println s!"⟨{ty}, {q f.name}, {sr f.recv}, {sps f.params}, some {se b}⟩"
          | none => IO.println s!"⟨{ty}, {q f.name}, {sr f.recv}, {sps f.params}, none⟩"
        | .tupleStruct n => IO.println s!"@item .tupleStruct {q n}"
        | .enum n vs => IO.println s!"@item .enum {q n} {ql vs}"
