import Verif.Props.ExecuteDetector
import Verif.Props.Generator
import Verif.Lemmas.Rs.GramGiven
import Verif.Lemmas.Layout
import Verif.Spec.Rs.Chain
import Verif.Lemmas.Rs.LowHex

/-! # C88: the text of the generator, executed on a grammar -/
namespace PP.Rs
open PP.Gen

/-- The tree that `generate_parser` makes of a grammar file: the text is parsed by `grammar`, to its end, and the tree is cleared
(generator/src/lib.rs:28-51). -/
def ClearedTree (src : Bytes) (tree : Publisher Dsl) : Prop :=
  ∃ N, ∀ n, N ≤ n → ∃ b st, eval dslParser ⟨src⟩ n (Dsl.body .r_grammar) 0 0 (St.new .r_grammar ()) = .ok (b, src.length, st) ∧
    st.pub.clearFalse .r_grammar n = .ok tree

theorem cleared (g : DGrammar) (hw : g.WF) (hsm : g.text.length < 82000000) : ∃ tree, ClearedTree g.text tree ∧ IsTable g tree := by
  obtain ⟨b, q, ts, st, h1, hle, _, h2, ks, h0, hu⟩ := start_run hsm
  have key : q = g.text.length ∧ Tree.prune.pruneL ts = g.trees 0 := by
    by_cases hne : g = []
    · subst hne
      obtain ⟨us, h3, h4⟩ := empty_bad
      obtain ⟨_, rfl, rfl⟩ := h1.det h3
      exact ⟨rfl, h4⟩
    · obtain ⟨us, h3, h4⟩ := ok_grammar (src := ⟨g.text⟩) hw hne (by omega) rfl
      obtain ⟨_, rfl, rfl⟩ := h1.det h3
      exact ⟨by simp, h4⟩
  obtain ⟨rfl, hts⟩ := key
  have hsize := trees_size hw 0
  obtain ⟨t, ht, hconv⟩ := clearFalse_conv .r_grammar st.pub h0 rfl hu (by rw [hts]; omega)
  obtain ⟨-, -, N1, c1⟩ := h2
  obtain ⟨-, -, N2, c2⟩ := hconv
  have hl := clearFalse_layout .r_grammar st.pub h0 rfl hu (c2 _ (Nat.le_refl _))
  rw [hts] at hl
  exact ⟨t, ⟨max N1 N2, fun n hn => ⟨b, st, c1 n (by omega), c2 n (by omega)⟩⟩, _, rfl, rfl, rfl, hl⟩

/-- What the chain of calls does, whatever the outcome. -/
theorem chain {g : DGrammar} (hw : g.WF) (hsm : g.text.length < 82000000) (hs : ascii g.text = true) (hl : g.Low) {tree : Publisher Dsl} (ht : IsTable g tree)
    {ord : List Val → List Val} (hord : ∀ l, (ord l).Perm l) : ∃ M, ∀ m, M ≤ m →
      (∃ c, g.output = .ok (.code c) ∧ Writes ⟨Ast.generator, ord⟩ m tree g.text (Run.rulesFile c) (Run.parserFile c)) ∨
      ((∃ q, g.output = .panic q) ∧ Stops ⟨Ast.generator, ord⟩ m tree g.text) := by
  have htab := table_nodes ht hw hl
  have hsize := table_size ht hw
  have hfit : TreeFits tree (8 * g.text.length) := ⟨fun nd h => by have := (htab nd h).1; omega, fun nd h => (htab nd h).2.1, by omega⟩
  have hu := table_unf ht
  obtain ⟨o, _, _, _, he⟩ := id ht
  have h1 : tree.getNode 0 = .ok ⟨0, .r_grammar, 0, 0, true, Tree.roots 2 (g.trees 0)⟩ := by simp [Publisher.getNode, he]
  obtain ⟨_, _, N0, hsym⟩ := symbols_conv (src := g.text) hw h1 rfl hu rfl
  have hS : ∀ m, N0 + 8 * g.text.length + 8 ≤ m → ((⟨Ast.generator, ord⟩ : World).call m (some n!"SymbolTable") n!"new" [encTree tree, .str g.text]).Returns (encSym g.text g.symbols) := by
    intro m hm
    have := call_symbols ord hfit hs N0 m hm
    rw [show SymbolTable.new tree g.text N0 = _ from hsym N0 (Nat.le_refl _)] at this
    rw [world_call (fn_SymbolTable_new ord)]
    exact ⟨_, this⟩
  rcases build_conv (src := g.text) (ordOf hord) hw h1 hu rfl with ⟨hd, _, _, N1, hb⟩ | ⟨hd, lr, hm, _, _, N1, hb⟩
  · refine ⟨max (N0 + 8 * g.text.length + 8) (N1 + 6), fun m hm => .inr ⟨⟨.explicit, by unfold DGrammar.output; rw [if_pos hd]⟩, .inr ⟨_, hS m (by omega), .inl ?_⟩⟩⟩
    have := call_detector hord hs (p := tree) (by omega) N1 (m := m) (by omega)
    have hb : leftRecursionRules _ _ _ _ = _ := hb N1 (Nat.le_refl _)
    rw [leftRecursionRules] at hb
    rw [world_call (fn_LeftRecursionDetector_new ord)]
    cases hB : RuleCallTree.build tree g.text (ordOf hord) N1 with
    | oof => rw [hB] at hb; cases hb
    | panic q => rw [hB] at this; exact this
    | ok t => rw [hB] at hb; cases hb
  · have hb : leftRecursionRules _ _ _ _ = _ := hb N1 (Nat.le_refl _)
    rw [leftRecursionRules] at hb
    obtain ⟨t, hB, hb⟩ := bind_oks hb
    cases hb
    have hL : ∀ m, N1 + 6 ≤ m → ((⟨Ast.generator, ord⟩ : World).call m (some n!"LeftRecursionDetector") n!"new" [encTree tree, .str g.text]).Returns (encDetector t) := by
      intro m hm
      have := call_detector hord hs (p := tree) (by omega) N1 (m := m) (by omega)
      rw [hB] at this
      rw [world_call (fn_LeftRecursionDetector_new ord)]
      exact ⟨_, this⟩
    have hgiven := given_of hw hsm hs hl ht hord hB hm
    have hnamed : Gen.Env.Named { tree := tree, src := g.text, sym := g.symbols, lr := t.involved, ord := ordOf hord } := by
      intro nm inv hi x hx
      obtain ⟨r, hr, rfl⟩ := (((hm.mem nm inv hi x).mp hx).1).declared
      exact hw.name_ne hr
    have hg := generate_conv hnamed hw h1 rfl hu rfl
    rw [show Gen.Env.ctx { tree := tree, src := g.text, sym := g.symbols, lr := t.involved, ord := ordOf hord } = ⟨g.symbols.isInline, t.involved.get⟩ from rfl,
      gramCode_same hm.same] at hg
    have hen := enum_eq (t := g.symbols) (fun x hx => by
      obtain ⟨r, hr, rfl⟩ := (symbols_mem g).mp hx
      exact hw.name_ne hr)
    have hcode : Conv (fun n => GeneratedCode.new { tree := tree, src := g.text, sym := g.symbols, lr := t.involved, ord := ordOf hord } n)
        (gramCode g.ctx ([], []) g >>= fun y => .ok ⟨y.1, variantsOf g.symbols, (variantsOf g.symbols).length, y.2⟩) := by
      unfold GeneratedCode.new
      refine Conv.bind hg fun y _ => ?_
      simp only [hen, Out.bind_ok]
      exact Conv.ok _
    obtain ⟨hne, _, N2, hcode⟩ := hcode
    have hcode : GeneratedCode.new _ _ = _ := hcode N2 (Nat.le_refl _)
    refine ⟨max (N0 + 8 * g.text.length + 8) (max (N1 + 6) (2 * N2 + 8 * g.text.length + 13)), fun m hm => ?_⟩
    have hcall := call_code ord hgiven N2 (m := m) (by omega)
    rw [hcode] at hcall
    unfold DGrammar.output
    rw [if_neg hd]
    cases hgc : gramCode g.ctx ([], []) g with
    | oof => rw [hgc] at hne; exact absurd rfl hne
    | panic q =>
      rw [hgc] at hcall
      refine .inr ⟨⟨q, rfl⟩, .inr ⟨_, hS m (by omega), .inr ⟨_, hL m (by omega), ?_⟩⟩⟩
      rw [world_call (fn_GeneratedCode_new ord)]
      exact hcall
    | ok y =>
      rw [hgc] at hcall
      refine .inl ⟨_, rfl, _, _, encCode ⟨y.1, variantsOf g.symbols, (variantsOf g.symbols).length, y.2⟩, hS m (by omega), hL m (by omega), ?_, ?_, ?_⟩
      · rw [world_call (fn_GeneratedCode_new ord)]
        exact ⟨_, hcall⟩
      · rw [world_call (fn_GeneratedCode_rules_enum_file_content ord)]
        exact ⟨_, call_rules_file ord _ (by omega)⟩
      · rw [world_call (fn_GeneratedCode_parser_file_content ord)]
        exact ⟨_, call_parser_file ord _ (by omega)⟩

/-- C88: the text of the generator, called the way `generate_parser` calls it on the cleared syntax tree of a written grammar (ASCII, below
82 million bytes, without hexadecimal strings of 0x80 and above), makes the two files that the model makes, byte by byte, if the model makes
files, and panics if the model does; whatever the order of iteration of the hash containers, for every sufficient recursion depth. -/
theorem C88_generator_executed : ∃ P, readFiles generatorFiles = some P ∧
    ∀ (g : DGrammar), g.WF → g.text.length < 82000000 → ascii g.text = true → g.Low →
      ∃ tree, ClearedTree g.text tree ∧
        ∀ (ord : List Val → List Val), (∀ l, (ord l).Perm l) → ∃ M, ∀ m, M ≤ m →
          (∀ o n c, generateParser o n g.text = .ok (.code c) → Writes ⟨P, ord⟩ m tree g.text (Run.rulesFile c) (Run.parserFile c)) ∧
          (∀ o n q, generateParser o n g.text = .panic q → Stops ⟨P, ord⟩ m tree g.text) := by
  refine ⟨_, read_generatorFiles, fun g hw hsm hs hl => ?_⟩
  obtain ⟨tree, hc, ht⟩ := cleared g hw hsm
  refine ⟨tree, hc, fun ord hord => ?_⟩
  obtain ⟨M, hM⟩ := chain hw hsm hs hl ht hord
  refine ⟨M, fun m hm => ⟨fun o n c h => ?_, fun o n q h => ?_⟩⟩
  · have := (gen_conv hw hsm o).eq (n := n) (by rw [h]; simp)
    rw [h] at this
    rcases hM m hm with ⟨c', e, h⟩ | ⟨⟨q, e⟩, _⟩
    · rw [e] at this; cases this; exact h
    · rw [e] at this; cases this
  · have := (gen_conv hw hsm o).eq (n := n) (by rw [h]; simp)
    rw [h] at this
    rcases hM m hm with ⟨c', e, h⟩ | ⟨_, h⟩
    · rw [e] at this; cases this
    · exact h

/-- C88, when the executed generator fails: exactly on the grammars of C53 (an undeclared leftmost reference, a leaf the generator cannot handle,
an empty comment) it panics; on every other one it makes two files, the same ones in every run. -/
theorem C88_executed_panics_iff : ∃ P, readFiles generatorFiles = some P ∧
    ∀ (g : DGrammar), g.WF → g.text.length < 82000000 → ascii g.text = true → g.Low →
      ∃ tree, ClearedTree g.text tree ∧
        ((g.Dangling ∨ (∃ r ∈ g, r.rhs.Panics) ∨ ∃ r ∈ g, ∃ k ∈ r.comments, k.Panics) →
          ∀ (ord : List Val → List Val), (∀ l, (ord l).Perm l) → ∃ M, ∀ m, M ≤ m → Stops ⟨P, ord⟩ m tree g.text) ∧
        (¬ (g.Dangling ∨ (∃ r ∈ g, r.rhs.Panics) ∨ ∃ r ∈ g, ∃ k ∈ r.comments, k.Panics) →
          ∃ rulesRs parserRs, ∀ (ord : List Val → List Val), (∀ l, (ord l).Perm l) → ∃ M, ∀ m, M ≤ m → Writes ⟨P, ord⟩ m tree g.text rulesRs parserRs) := by
  obtain ⟨P, hP, H⟩ := C88_generator_executed
  refine ⟨P, hP, fun g hw hsm hs hl => ?_⟩
  obtain ⟨tree, ht, H⟩ := H g hw hsm hs hl
  have hp := C53_generator_panics_iff hw hsm .id
  refine ⟨tree, ht, fun h ord hord => ?_, fun h => ?_⟩
  · obtain ⟨M, hM⟩ := H ord hord
    obtain ⟨N, hN⟩ := hp.2.mpr h
    obtain ⟨q, hq⟩ := hN N (Nat.le_refl _)
    exact ⟨M, fun m hm => (hM m hm).2 _ _ _ hq⟩
  · obtain ⟨N, hN⟩ := hp.1.mpr h
    obtain ⟨c, hc⟩ := hN N (Nat.le_refl _)
    refine ⟨Run.rulesFile c, Run.parserFile c, fun ord hord => ?_⟩
    obtain ⟨M, hM⟩ := H ord hord
    exact ⟨M, fun m hm => (hM m hm).1 _ _ _ hc⟩

/-! Instances: `<a>=<b>;` meets the hypotheses and makes the executed generator panic; those of Props/ExecuteFiles make files. -/
def danglingExample : DGrammar := [⟨[97], .plain [], .atom [] (.plain (.mk (.ref [98]) [])), [], []⟩]

example : danglingExample.WF ∧ danglingExample.text = utf8Of "<a>=<b>;" ∧ ascii danglingExample.text = true ∧ danglingExample.Low ∧ danglingExample.Dangling := by
  refine ⟨by decide +kernel, by decide +kernel, by decide +kernel, ?_, ?_⟩
  · exact DGrammar.low_low (by decide +kernel)
  · exact ⟨[97], [98], ⟨_, rfl, by decide +kernel⟩, by decide +kernel⟩

end PP.Rs
