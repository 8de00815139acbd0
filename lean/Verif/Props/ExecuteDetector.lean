import Verif.Props.ExecuteConstructor
import Verif.Lemmas.Rs.Detector

/-! # C87: the text of the detector of left recursion, executed -/
namespace PP.Rs
open PP.Gen

/-- C87: `LeftRecursionDetector::new` of the text of the repository, called with the syntax tree and the text of a grammar, panics exactly if
the model does; otherwise it returns a value that is a detector of exactly the sets of the model, in the sense `Sets` that `Given` (C86) asks
of the first argument of the constructor, and `get_left_recursion_rules` of the same text returns these sets.  For every tree of less than
2^32 nodes, every ASCII text and every sufficient recursion depth; an order `ord` of iteration of the hash containers corresponds to an order
of iteration `o` of the model, the same for all trees. -/
theorem C87_detector_executed : ∃ P, readFiles generatorFiles = some P ∧
    ∀ (ord : List Val → List Val), (∀ l, (ord l).Perm l) → ∃ o : HashOrd,
      ∀ (tree : Publisher Dsl) (src : Bytes) (n m : Nat), tree.nodes.length < 4294967296 → ascii src = true → n + 6 ≤ m →
        match leftRecursionRules tree src o n with
        | .ok s => ∃ L, ((⟨P, ord⟩ : World).call m (some n!"LeftRecursionDetector") n!"new" [encTree tree, .str src]).Returns L ∧ Sets L s ∧
            ((⟨P, ord⟩ : World).call m (some n!"LeftRecursionDetector") n!"get_left_recursion_rules" [L]).Returns (encSets s)
        | .panic _ => (⟨P, ord⟩ : World).call m (some n!"LeftRecursionDetector") n!"new" [encTree tree, .str src] = .panic
        | .oof => True := by
  refine ⟨_, read_generatorFiles, fun ord hord => ⟨ordOf hord, fun tree src n m hB hs hm => ?_⟩⟩
  rw [world_call (fn_LeftRecursionDetector_new ord)]
  have H := call_detector hord hs hB n hm
  rw [leftRecursionRules]
  cases ho : RuleCallTree.build tree src (ordOf hord) n with
  | oof => trivial
  | panic q => rw [ho] at H; exact H
  | ok t =>
    rw [ho] at H
    have hS := sets_detector hs ho
    refine ⟨_, ⟨_, H⟩, hS, ?_⟩
    rw [world_call (fn_LeftRecursionDetector_get_left_recursion_rules ord)]
    exact ⟨_, hS.call ord (by omega)⟩

/-! An instance: the tree of the grammar `<a>=<a>,'x';`, whose rule is left recursive. -/
def exampleCycle : Publisher Dsl :=
  ⟨[⟨0, .r_grammar, 0, 12, true, [1]⟩, ⟨1, .r_rule, 0, 12, true, [2, 4]⟩, ⟨2, .r_lhs, 0, 3, true, [3]⟩, ⟨3, .r_var_name_decl, 0, 3, true, []⟩,
    ⟨4, .r_rhs, 4, 11, true, [5]⟩, ⟨5, .r_sequence, 4, 11, true, [6, 9]⟩, ⟨6, .r_atom, 4, 7, true, [7]⟩, ⟨7, .r_nucleus, 4, 7, true, [8]⟩, ⟨8, .r_var_name_ref, 4, 7, true, []⟩,
    ⟨9, .r_atom, 8, 11, true, [10]⟩, ⟨10, .r_nucleus, 8, 11, true, [11]⟩, ⟨11, .r_terminal, 8, 11, true, []⟩]⟩

set_option maxRecDepth 100000 in
example : exampleCycle.nodes.length < 4294967296 ∧ ascii (utf8Of "<a>=<a>,'x';") = true ∧
    leftRecursionRules exampleCycle (utf8Of "<a>=<a>,'x';") HashOrd.id 10 = .ok [(utf8Of "a", [utf8Of "a"])] :=
  ⟨by decide, by decide +kernel, by rfl⟩

end PP.Rs
