import Verif.Spec.Mini.Reader
open PP PP.Mini PP.Gen
def nm (n : Nat) : String := Id.run do
  let mut l : List Char := []
  let mut m := n
  while m > 0 do
    l := Char.ofNat (m % 256) :: l
    m := m / 256
  return String.ofList l
def q (n : Name) : String := if n < 48 then toString n else "n!\"" ++ nm n ++ "\""
def qs (n : Name) : String := if (nm n).all fun c => 32 ≤ c.toNat && c.toNat < 127 && c != '"' then "n!\"" ++ (nm n).map (fun c => if c = ' ' then '␣' else c) ++ "\"" else toString n
def ql (l : List Name) : String := "[" ++ ", ".intercalate (l.map q) ++ "]"
def sp : Pat → String
  | .wild => ".wild" | .var x => s!"(.var {q x})" | .none => ".none" | .some x => s!"(.some {q x})"
  | .someTuple xs => s!"(.someTuple {ql xs})" | .tuple xs => s!"(.tuple {ql xs})"
  | .variants vs => "(.variants [" ++ ", ".intercalate (vs.map fun v => s!"({q v.1}, {q v.2})") ++ "])"
def so : Op → String
  | .eq => ".eq" | .ne => ".ne" | .lt => ".lt" | .le => ".le" | .gt => ".gt" | .ge => ".ge" | .and => ".and" | .or => ".or" | .add => ".add" | .sub => ".sub" | .mul => ".mul" | .div => ".div"
mutual
partial def se : Ex → String
  | .bool b => s!"(.bool {b})" | .int n => s!"(.int {n})" | .byte s => s!"(.byte {s})" | .bytes s => s!"(.bytes {s})" | .str n => s!"(.str {qs n})" | .msg => ".msg"
  | .path ss => s!"(.path {ql ss})" | .tuple es => s!"(.tuple {ss es})" | .array es => s!"(.array {ss es})"
  | .call f es => s!"(.call {se f} {ss es})" | .meth e m es => s!"(.meth {se e} {q m} {ss es})" | .field e f => s!"(.field {se e} {q f})"
  | .index e i => s!"(.index {se e} {se i})" | .slice e i j => s!"(.slice {se e} {se i} {se j})" | .ref e => s!"(.ref {se e})" | .refMut e => s!"(.refMut {se e})" | .deref e => s!"(.deref {se e})"
  | .not e => s!"(.not {se e})" | .neg e => s!"(.neg {se e})" | .bin o a b => s!"(.bin {so o} {se a} {se b})" | .cast e t => s!"(.cast {se e} {q t})"
  | .ite c a b => s!"(.ite {se c} {se a} {se b})" | .mtch e as => s!"(.mtch {se e} {sa as})" | .block b => s!"(.block {sb b})"
  | .loop b => s!"(.loop {se b})" | .forIn p e b => s!"(.forIn {sp p} {se e} {se b})" | .brk => ".brk" | .ret e => s!"(.ret {se e})"
  | .assign a b => s!"(.assign {se a} {se b})" | .addAssign a b => s!"(.addAssign {se a} {se b})" | .clo ps b => s!"(.clo {ql ps} {se b})"
  | .struct n fs => s!"(.struct {q n} {sf fs})" | .mac n es => s!"(.mac {q n} {ss es})"
partial def ss : Exs → String
  | .nil => ".nil" | .cons e es => s!"(.cons {se e} {ss es})"
partial def sa : Arms → String
  | .nil => ".nil" | .cons p e as => s!"(.cons {sp p} {se e} {sa as})"
partial def sf : Flds → String
  | .nil => ".nil" | .cons f e fs => s!"(.cons {q f} {se e} {sf fs})"
partial def sb : Blk → String
  | .nil => ".nil" | .tail e => s!"(.tail {se e})" | .letS p m e b => s!"(.letS {sp p} {m} {se e}\n{sb b})" | .letU x b => s!"(.letU {q x}\n{sb b})"
  | .exprS e b => s!"(.exprS {se e}\n{sb b})"
end
def sr : Recv → String
  | .none => ".none" | .val => ".val" | .ref => ".ref" | .refMut => ".refMut"
def fnId (f : Fn) : String := (match f.ty with | some t => nm t ++ "." | none => "") ++ nm f.name
def main : IO Unit := do
  for f in ["keys.rs","source.rs","cache.rs","publisher.rs","context.rs","parser_core.rs","var_name.rs","parse.rs"].map ("parser/src/" ++ ·) ++
      ["parser/src/user_state.rs", "parser/src/hooked_calls.rs", "examples/example_11_external_rule_call_parser/src/user_state.rs",
        "examples/example_11_external_rule_call_parser/src/hooked_calls.rs", "examples/example_1/src/lib.rs", "examples/example_2/src/lib.rs",
        "examples/example_3_basic_maths/src/lib.rs", "examples/example_4_full_maths/src/lib.rs"] do
    let t ← IO.FS.readFile ("/repo/" ++ f)
    IO.println s!"@file {f}"
    match readFile t.toUTF8.data.toList with
    | none => IO.println "FAIL"
    | some is =>
      for i in is do
        match i with
        | .fn f =>
          IO.println s!"@fn {fnId f}"
          let ty := match f.ty with | some t => s!"(some {q t})" | none => "none"
          match f.body with
          | some b => IO.println s!"⟨{ty}, {q f.name}, {sr f.recv}, {ql f.params}, some {se b}⟩"
          | none => IO.println s!"⟨{ty}, {q f.name}, {sr f.recv}, {ql f.params}, none⟩"
        | .const x n => IO.println s!"@item .const {q x} {n}"
        | .tupleStruct n => IO.println s!"@item .tupleStruct {q n}"
        | .unitStruct n => IO.println s!"@item .unitStruct {q n}"
        | .enum n vs => IO.println s!"@item .enum {q n} {ql vs}"
