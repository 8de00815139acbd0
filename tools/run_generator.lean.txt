import Verif.Model.Gen.Generate
open PP PP.Gen
def show1 (src : List UInt8) : IO Unit := do
  match generateParser HashOrd.id 2000 src with
  | .ok (.code c) => do
     for r in c.rules do IO.println (String.fromUTF8! ⟨r.text.toArray⟩)
     IO.println (repr (c.variants.map asStr)); IO.println (repr c.numRules); IO.println (repr (c.hookImports.map asStr))
  | .ok (.syntaxError n) => IO.println s!"line {n}"
  | .panic p => IO.println (repr p)
  | .oof => IO.println "oof"
def main (args : List String) : IO Unit := do
  for a in args do
    let b ← IO.FS.readBinFile a
    show1 b.toList
