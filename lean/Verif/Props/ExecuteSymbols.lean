import Verif.Props.ExecuteGen
import Verif.Lemmas.Rs.Symbols

/-! # C85: the text of the generator's symbol table, executed -/
namespace PP.Rs
open PP.Gen

/-- A call of a function of the program is what the interpreter makes of the function that the name resolves to. -/
theorem world_call {ord ty nm d m args} (h : (World.gen ord).fn? ty nm = some d) : (⟨Ast.generator, ord⟩ : World).call m ty nm args = callN (World.gen ord) m d args := by
  rw [World.gen] at h
  rw [World.call, h]
  rfl

theorem CRes.Sim.agrees {α : Type} {r : CRes} {o : Out α} {enc : α → Val} {ps : α → List Val} (h : r.Sim o fun a => .ok (enc a) (ps a)) : r.Agrees o enc := by
  cases o with
  | oof => trivial
  | panic q => exact h
  | ok a => exact ⟨_, h⟩

/-- C85: `SymbolTable::new` of the text of the repository, called with a syntax tree and the source text it was made from, returns the
symbol table of the model (the names, sorted and without duplicates, and the set of inlined rules), or panics if the model does; for every
tree over every ASCII text shorter than 4 GiB, every order of the hash containers and every sufficient recursion depth. -/
theorem C85_symbol_table_executed : ∃ P, readFiles generatorFiles = some P ∧
    ∀ (ord : List Val → List Val) (tree : Publisher Dsl) (src : Bytes) (B n m : Nat), TreeFits tree B → ascii src = true → n + B + 8 ≤ m →
      ((⟨P, ord⟩ : World).call m (some n!"SymbolTable") n!"new" [encTree tree, .str src]).Agrees (SymbolTable.new tree src n) (encSym src) := by
  refine ⟨_, read_generatorFiles, fun ord p src B n m hf hs hm => ?_⟩
  rw [world_call (fn_SymbolTable_new ord)]
  exact (call_symbols ord hf hs n m hm).agrees

/-! An instance: the tree of `<b> INLINE ='x';<a>='y';` (without the right hand sides), and the names that come out. -/
def exampleSrc : Bytes := utf8Of "<b> INLINE ='x';<a>='y';"
def exampleSyntax : Publisher Dsl :=
  ⟨[⟨0, .r_grammar, 0, 24, true, [1, 6]⟩, ⟨1, .r_rule, 0, 16, true, [2]⟩, ⟨2, .r_lhs, 0, 11, true, [3, 4]⟩, ⟨3, .r_var_name_decl, 0, 3, true, []⟩,
    ⟨4, .r_semantic_instructions, 4, 10, true, [5]⟩, ⟨5, .r_inline, 4, 10, true, []⟩, ⟨6, .r_rule, 16, 24, true, [7]⟩, ⟨7, .r_lhs, 16, 19, true, [8]⟩,
    ⟨8, .r_var_name_decl, 16, 19, true, []⟩]⟩

example : TreeFits exampleSyntax 2 ∧ ascii exampleSrc = true :=
  ⟨⟨by decide +kernel, by decide +kernel, by decide⟩, by decide +kernel⟩

set_option maxRecDepth 100000 in
example : ∃ t, SymbolTable.new exampleSyntax exampleSrc 5 = .ok t ∧ t.names = [utf8Of "a", utf8Of "b"] ∧ t.inlined = [(utf8Of "b", ())] := by
  have h : createSymbolTable exampleSyntax exampleSrc 5 ⟨[], []⟩ = .ok ⟨[utf8Of "b", utf8Of "a"], [(utf8Of "b", ())]⟩ := by rfl
  refine ⟨_, by rw [SymbolTable.new, h]; rfl, ?_, rfl⟩
  have e : sortNames [utf8Of "b", utf8Of "a"] = [utf8Of "a", utf8Of "b"] := by
    unfold sortNames
    simp [List.mergeSort, List.MergeSort.Internal.splitInTwo, List.merge]
    decide +kernel
  simp only [SymbolTable.runDuplicationCheck, e]
  decide +kernel

end PP.Rs
