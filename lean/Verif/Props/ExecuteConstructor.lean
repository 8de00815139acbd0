import Verif.Props.ExecuteSymbols
import Verif.Lemmas.Rs.Generate

/-! # C86: the text of the generator's constructor, executed -/
namespace PP.Rs
open PP.Gen

/-- C86: `GeneratedCode::new` of the text of the repository, called with the detector of left recursion, the symbol table, the syntax tree and
the text of a grammar, panics exactly if the model does; otherwise it returns a value of which `parser_file_content` and
`rules_enum_file_content` of the same text make the two files of the model, byte by byte.  For every tree, symbol table and sets of names
within the bounds of `Given`, every order of the hash containers and every sufficient recursion depth. -/
theorem C86_constructor_executed : ∃ P, readFiles generatorFiles = some P ∧
    ∀ (ord : List Val → List Val) (e : Gen.Env) (L : Val) (B n m : Nat), Given ord e L B → 2 * n + B + 13 ≤ m →
      match GeneratedCode.new e n with
      | .ok c => ∃ v, ((⟨P, ord⟩ : World).call m (some n!"GeneratedCode") n!"new" [L, encSym e.src e.sym, encTree e.tree, .str e.src]).Returns v ∧
          ((⟨P, ord⟩ : World).call m (some n!"GeneratedCode") n!"parser_file_content" [v]).Returns (.str (Run.parserFile c)) ∧
          ((⟨P, ord⟩ : World).call m (some n!"GeneratedCode") n!"rules_enum_file_content" [v]).Returns (.str (Run.rulesFile c))
      | .panic _ => (⟨P, ord⟩ : World).call m (some n!"GeneratedCode") n!"new" [L, encSym e.src e.sym, encTree e.tree, .str e.src] = .panic
      | .oof => True := by
  refine ⟨_, read_generatorFiles, fun ord e L B n m hg hm => ?_⟩
  rw [world_call (fn_GeneratedCode_new ord)]
  have h := call_code ord hg n hm
  cases ho : GeneratedCode.new e n with
  | oof => trivial
  | panic q =>
    rw [ho] at h
    exact h
  | ok c =>
    rw [ho] at h
    refine ⟨encCode c, ⟨_, h⟩, ?_, ?_⟩
    · rw [world_call (fn_GeneratedCode_parser_file_content ord)]
      exact ⟨_, call_parser_file ord c (by omega)⟩
    · rw [world_call (fn_GeneratedCode_rules_enum_file_content ord)]
      exact ⟨_, call_rules_file ord c (by omega)⟩

/-- C86, the expressions: each function of the constructor that compiles an expression (`rhs`, `ordered_choice`, `sequence`, `atom`, …)
returns the key that the model returns and leaves the output tree and the list of hooks as the model does (keys are `u32`), or panics if the
model does. -/
theorem C86_expression_executed : ∃ P, readFiles generatorFiles = some P ∧
    ∀ (ord : List Val → List Val) (e : Gen.Env) (L : Val) (B : Nat), Given ord e L B →
      ∀ (n m : Nat) (f : Gen.Fn) (t : BTree) (hooks : List Bytes) (i : Nat), n + 4 ≤ m →
        match expr e n f (t, hooks) i with
        | .ok (k, t', hooks') =>
          (⟨P, ord⟩ : World).call m (some n!"GeneratedCode") (exprName f) [.vec (hooks.map .str), L, encOut t, encSym e.src e.sym, encTree e.tree, .str e.src, encKey i] =
            .ok (encK k) [.vec (hooks'.map .str), L, encOut t', encSym e.src e.sym, encTree e.tree, .str e.src, encKey i]
        | .panic _ =>
          (⟨P, ord⟩ : World).call m (some n!"GeneratedCode") (exprName f) [.vec (hooks.map .str), L, encOut t, encSym e.src e.sym, encTree e.tree, .str e.src, encKey i] = .panic
        | .oof => True := by
  refine ⟨_, read_generatorFiles, fun ord e L B hg n m f t hooks i hm => ?_⟩
  have h := call_expr ord L hg.input hg.fits hg.perm hg.sets n f (t, hooks) i m hm
  have hn : (World.gen ord).fn? (some n!"GeneratedCode") (exprName f) = some (exprFn f) := by
    cases f
    · exact fn_GeneratedCode_rhs ord
    · exact fn_GeneratedCode_ordered_choice ord
    · exact fn_GeneratedCode_sequence ord
    · exact fn_GeneratedCode_atom ord
    · exact fn_GeneratedCode_optional ord
    · exact fn_GeneratedCode_one_or_more ord
    · exact fn_GeneratedCode_zero_or_more ord
    · exact fn_GeneratedCode_and_predicate ord
    · exact fn_GeneratedCode_not_predicate ord
    · exact fn_GeneratedCode_nucleus ord
    · exact fn_GeneratedCode_subexpression ord
    · exact fn_GeneratedCode_hooked_call ord
  rw [world_call hn]
  cases ho : expr e n f (t, hooks) i with
  | oof => trivial
  | panic q => rw [ho] at h; exact h
  | ok r => rw [ho] at h; exact h

/-! An instance: the grammar `<a>='x';`. -/
def exampleEnv : Gen.Env where
  src := utf8Of "<a>='x';"
  tree := ⟨[⟨0, .r_grammar, 0, 8, true, [1]⟩, ⟨1, .r_rule, 0, 8, true, [2, 4]⟩, ⟨2, .r_lhs, 0, 3, true, [3]⟩, ⟨3, .r_var_name_decl, 0, 3, true, []⟩,
    ⟨4, .r_rhs, 4, 7, true, [5]⟩, ⟨5, .r_atom, 4, 7, true, [6]⟩, ⟨6, .r_nucleus, 4, 7, true, [7]⟩, ⟨7, .r_terminal, 4, 7, true, []⟩]⟩
  sym := ⟨[utf8Of "a"], []⟩
  lr := []
  ord := HashOrd.id

def exampleDetector : Val := .struct n!"LeftRecursionDetector" [(n!"rule_call_tree", .struct n!"RuleCallTree" [(n!"involved_sets", .map [])])]

theorem exampleEnv_given : Given id exampleEnv exampleDetector 2 where
  input := ⟨by decide +kernel, by decide +kernel⟩
  fits := ⟨by decide +kernel, by decide +kernel, by decide⟩
  perm := fun _ => .refl _
  sets := ⟨⟨_, rfl, rfl⟩, fun x s h => by cases h⟩
  strings := by
    intro nd h hr
    have : ∀ nd ∈ exampleEnv.tree.nodes, nd.rule ≠ .r_stringterminal := by decide +kernel
    exact absurd hr (this nd h)
  sized := by
    intro root h0 i hi nd hn b hb bd hbd hr n hs k t hs' h
    cases h0
    simp only [List.mem_singleton] at hi
    subst hi
    cases hn
    simp only [List.mem_cons, List.not_mem_nil, or_false] at hb
    rcases hb with rfl | rfl
    · cases hbd; cases hr
    · match n with
      | 0 => cases h
      | 1 => cases h
      | 2 => cases h
      | n + 3 =>
        have e1 : expr exampleEnv (n + 3) .rhs (BTree.new, hs) 4 = .ok (1, [⟨.null, none, none⟩, ⟨.terminal (utf8Of "x"), none, none⟩], hs) := by rfl
        rw [e1] at h
        cases h
        decide
  names := by unfold AsciiAll; decide +kernel
  count := by decide

set_option maxRecDepth 100000 in
example : ∃ c, GeneratedCode.new exampleEnv 10 = .ok c ∧ c.variants = [utf8Of "A"] ∧ (c.rules.map RuleCode.name) = [utf8Of "a"] := by
  refine ⟨_, rfl, ?_, ?_⟩ <;> decide +kernel

end PP.Rs
