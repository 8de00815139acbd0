import Verif.Spec.Rs.Encode
import Verif.Spec.Files
import Verif.Model.GenTexts
import Verif.Model.CoreTexts

/-! # Specification: the generator, as the text in the repository -/
namespace PP.Rs
open PP.Gen

/-- The files the generator consists of: of the crate `parser` what it uses of the tree (parser/src/keys.rs, parser/src/publisher.rs), and
of the crate `generator` binary_wo.rs, symbol_table.rs, cycle_detector.rs, constructor.rs and lib.rs. -/
def generatorFiles : List Bytes :=
  [fileOf CoreTexts.keys, fileOf CoreTexts.publisher, fileOf GenTexts.binaryWo, fileOf GenTexts.symbolTable, fileOf GenTexts.cycleDetector,
    fileOf GenTexts.constructor, fileOf GenTexts.lib]

/-- The items of all files. -/
def readFiles : List Bytes → Option (List Item)
  | [] => some []
  | f :: fs =>
    match readFile f, readFiles fs with
    | some is, some js => some (is ++ js)
    | _, _ => none

/-- A call returns `v`, whatever it does to its parameters. -/
def CRes.Returns (r : CRes) (v : Val) : Prop := ∃ ps, r = .ok v ps

/-- The outcome of a call agrees with that of the model: the same value, or both panic.  (The model running out of fuel says
nothing.) -/
def CRes.Agrees {α : Type} (r : CRes) (o : Out α) (enc : α → Val) : Prop :=
  match o with
  | .ok a => r.Returns (enc a)
  | .panic _ => r = .panic
  | .oof => True

end PP.Rs
