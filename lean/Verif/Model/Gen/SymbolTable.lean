import Verif.Model.Gen.Text
import Verif.Model.Publisher
import Verif.Model.Grammars.Dsl

/-! # Model of generator/src/symbol_table.rs -/
namespace PP.Gen

/-- generator/src/symbol_table.rs:4-8 `struct SymbolTable` (the source is passed separately; `inlined_rules` maps names to
`""` and is only queried for membership). -/
structure SymbolTable where
  names : List Bytes
  inlined : Map Unit

/-- generator/src/symbol_table.rs:46-49 `check_symbol_is_inline` -/
def SymbolTable.isInline (t : SymbolTable) (name : Bytes) : Bool := (t.inlined.get name).isSome

/-- generator/src/symbol_table.rs:37-44 `check_symbol` -/
def SymbolTable.checkSymbol (t : SymbolTable) (name : Bytes) : Bool := t.names.any fun i => name = i

/-- generator/src/symbol_table.rs:51-55 `run_duplication_check` -/
def SymbolTable.runDuplicationCheck (t : SymbolTable) : SymbolTable := { t with names := dedup (sortNames t.names) }

variable (tree : Publisher Dsl) (src : Bytes)

/-- generator/src/symbol_table.rs:78-97 `check_semantic_instructions` (the unused lookup of `index` is kept: it can panic) -/
def checkSemanticInstructions (t : SymbolTable) (parentIndex : Nat) (name : Bytes) (index : Nat) : Out SymbolTable := do
  let _ ← tree.getNode index
  let node ← tree.getNode parentIndex
  node.children.foldlM (fun t child => do
    let childNode ← tree.getNode child
    if childNode.rule = .r_semantic_instructions then do
      let semKey ← Out.ofOption .indexOutOfBounds childNode.children[0]?
      let semNode ← tree.getNode semKey
      if semNode.rule = .r_inline then .ok { t with inlined := t.inlined.insert name () } else .ok t
    else .ok t) t

/-- generator/src/symbol_table.rs:99-126 `create_symbol_table_from_tree_kernel`; the recursion takes fuel.  Positions are
`u32`: `end_position - 1` panics on 0 in a debug build. -/
def symbolTableKernel : Nat → SymbolTable → Nat → Nat → Out SymbolTable
  | 0, _, _, _ => .oof
  | n + 1, t, parentIndex, index => do
    let node ← tree.getNode index
    let t ← (if node.rule = .r_var_name_decl then
        if !node.result then .panic .explicit
        else if node.stop = 0 then .panic .overflow
        else do
          let name ← Source.strSlice src (node.start + 1) (node.stop - 1)
          checkSemanticInstructions tree { t with names := t.names ++ [name] } parentIndex name index
      else .ok t)
    node.children.foldlM (fun t childIndex => symbolTableKernel n t index childIndex) t

/-- generator/src/symbol_table.rs:57-73 `create_symbol_table_from_tree` -/
def createSymbolTable (fuel : Nat) (t : SymbolTable) : Out SymbolTable := do
  let node ← tree.getNode 0
  if node.rule ≠ .r_grammar then .panic .explicit
  else node.children.foldlM (fun t childIndex => symbolTableKernel tree src fuel t childIndex childIndex) t

/-- generator/src/symbol_table.rs:11-21 `SymbolTable::new` -/
def SymbolTable.new (fuel : Nat) : Out SymbolTable := do
  let t ← createSymbolTable tree src fuel { names := [], inlined := [] }
  .ok t.runDuplicationCheck

end PP.Gen
