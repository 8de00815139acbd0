import Verif.Lemmas.Gen.ClearConv
import Verif.Lemmas.Gen.CstSize
import Verif.Lemmas.Gen.Involved
import Verif.Lemmas.Gen.Symbols
import Verif.Lemmas.Gen.RuleCode
import Verif.Model.Gen.Generate
import Verif.Props.Termination

/-! # The whole generator, on written grammars -/
namespace PP.Gen

/-! ### The translation depends on the involved sets only as sets -/

/-- Same inlined rules, same left-recursive rules, same involved sets (up to order). -/
structure Ctx.Same (c c' : Ctx) : Prop where
  inl : ∀ x, c.inl x = c'.inl x
  none : ∀ x, c.lr x = none ↔ c'.lr x = none
  perm : ∀ x s s', c.lr x = some s → c'.lr x = some s' → s.Perm s'

section
variable {c c' : Ctx}
mutual
theorem rhs_same (h : c.Same c') : ∀ (r : DRhs) L, r.comp c L = r.comp c' L
  | .atom _ a, L => by simp only [DRhs.comp]; exact atom_same h a L
  | .chain o _ a as, L => by
    simp only [DRhs.comp]
    rw [atom_same h a L]
    cases a.comp c' L with
    | oof => rfl
    | panic x => rfl
    | ok P => exact atoms_same h as o L P
theorem atoms_same (h : c.Same c') : ∀ (as : DAtoms) o L P, as.comp c o L P = as.comp c' o L P
  | .one _ a, o, L, P => by simp only [DAtoms.comp]; rw [atom_same h a]
  | .cons _ a as, o, L, P => by
    simp only [DAtoms.comp]
    rw [atom_same h a]
    cases a.comp c' (L + P.nodes.length) with
    | oof => rfl
    | panic x => rfl
    | ok Q => exact atoms_same h as o L _
theorem atom_same (h : c.Same c') : ∀ (a : DAtom) L, a.comp c L = a.comp c' L
  | .plain n, L => by simp only [DAtom.comp]; exact nuc_same h n L
  | .pre o n, L => by simp only [DAtom.comp]; rw [nuc_same h n]
  | .post o n _, L => by simp only [DAtom.comp]; rw [nuc_same h n]
theorem nuc_same (h : c.Same c') : ∀ (n : DNuc) L, n.comp c L = n.comp c' L
  | .mk k _, L => by simp only [DNuc.comp]; exact core_same h k L
theorem core_same (h : c.Same c') : ∀ (k : DCore) L, k.comp c L = k.comp c' L
  | .range .., L => by simp only [DCore.comp]
  | .hook _ r, L => by simp only [DCore.comp]; rw [rhs_same h r]
  | .sub r, L => by simp only [DCore.comp]; rw [rhs_same h r]
  | .term (.chr _), L => by simp only [DCore.comp]
  | .term (.esc _), L => by simp only [DCore.comp]
  | .term .eps, L => by simp only [DCore.comp]
  | .str _, L => by simp only [DCore.comp]
  | .ref name, L => by
    simp only [DCore.comp]
    rw [h.inl]
    cases h1 : c.lr name with
    | none => rw [(h.none name).mp h1]
    | some s =>
      cases h2 : c'.lr name with
      | none => rw [(h.none name).mpr h2] at h1; cases h1
      | some s' => simp only [sortNames_perm ((h.perm name s s' h1 h2).map cap)]
end

theorem ruleCode_same (h : c.Same c') (hooks : List Bytes) (r : DRule) : r.code c hooks = r.code c' hooks := by
  unfold DRule.code; rw [rhs_same h]
theorem gramCode_same (h : c.Same c') (acc) (g : DGrammar) : gramCode c acc g = gramCode c' acc g := by
  induction g generalizing acc with
  | nil => rfl
  | cons r g ih =>
    simp only [gramCode, ruleCode_same h]
    cases r.code c' acc.2 with
    | oof => rfl
    | panic x => rfl
    | ok y => exact ih _
end

/-! ### The context of a written grammar -/

open Classical in
/-- What the generator knows about the names of a grammar: the inlined ones, and for each left-recursive one the flagged
names it leads to. -/
noncomputable def DGrammar.ctx (g : DGrammar) : Ctx :=
  ⟨g.symbols.isInline, fun x => if g.Flagged x then some (g.symbols.names.filter fun y => decide (g.Flagged y ∧ g.Leads x y)) else none⟩

theorem StrictSorted.nodup {l : List Bytes} (h : StrictSorted l) : l.Nodup := h.imp fun h => h.2

theorem perm_of_nodup {l l' : List Bytes} (h : l.Nodup) (h' : l'.Nodup) (hm : ∀ x, x ∈ l ↔ x ∈ l') : l.Perm l' := by
  rw [List.perm_iff_count]
  intro a
  rw [h.count, h'.count]
  simp [hm a]

theorem DGrammar.Flagged.declared {g : DGrammar} {x : Bytes} (h : g.Flagged x) : ∃ r ∈ g, r.name = x := by
  obtain ⟨r, hr⟩ := h.1
  unfold DGrammar.lookup at hr
  have h1 := List.mem_of_find?_eq_some hr
  have h2 := List.find?_some hr
  exact ⟨r, by simpa using h1, by simpa using h2⟩

theorem DGrammar.ctx_flagged {g : DGrammar} {x : Bytes} (h : g.Flagged x) : ∃ s, g.ctx.lr x = some s ∧ s.Nodup ∧
    ∀ y, y ∈ s ↔ g.Flagged y ∧ g.Leads x y := by
  classical
  refine ⟨g.symbols.names.filter fun y => decide (g.Flagged y ∧ g.Leads x y), ?_, (symbols_names_sorted g).nodup.filter _, fun y => ?_⟩
  · unfold DGrammar.ctx
    simp only [if_pos h]
  · rw [List.mem_filter, symbols_mem]
    simp only [decide_eq_true_eq]
    exact ⟨fun h => h.2, fun h => ⟨h.1.declared, h⟩⟩
theorem DGrammar.ctx_not {g : DGrammar} {x : Bytes} (h : ¬ g.Flagged x) : g.ctx.lr x = none := by
  unfold DGrammar.ctx
  simp only [if_neg h]

theorem LRTable.same {g : DGrammar} {m : Map (List Bytes)} (h : LRTable g m) : Ctx.Same ⟨g.symbols.isInline, m.get⟩ g.ctx := by
  refine ⟨fun _ => rfl, fun x => ?_, fun x s s' h1 h2 => ?_⟩
  · show m.get x = none ↔ _
    have := h.flagged x
    by_cases hf : g.Flagged x
    · obtain ⟨s, hs⟩ := this.mpr hf
      obtain ⟨s', hs', _⟩ := g.ctx_flagged hf
      simp [hs, hs']
    · rw [g.ctx_not hf]
      cases hs : m.get x with
      | none => simp
      | some s => exact absurd (this.mp ⟨s, hs⟩) hf
  · have h1 : m.get x = some s := h1
    obtain ⟨t, ht, hn, hmem⟩ := g.ctx_flagged ((h.flagged x).mp ⟨s, h1⟩)
    rw [ht] at h2
    injection h2 with h2
    subst h2
    refine perm_of_nodup (h.nodup x s h1) hn fun y => ?_
    rw [h.mem x s h1, hmem]

theorem DGrammar.WF.name_ne {g : DGrammar} (hw : g.WF) {r : DRule} (hr : r ∈ g) : r.name ≠ [] := by
  intro h
  have := (hw r hr).1
  rw [h] at this
  exact this

/-- The outcome of the generator on a written grammar. -/
noncomputable def DGrammar.output (g : DGrammar) : Out GenResult :=
  open Classical in
  if g.Dangling then .panic .explicit
  else gramCode g.ctx ([], []) g >>= fun y =>
    .ok (.code ⟨y.1, variantsOf g.symbols, (variantsOf g.symbols).length, y.2⟩)

/-- Everything after the tree has been cleared. -/
def afterTree (ord : HashOrd) (src : Bytes) (tree : Publisher Dsl) (fuel : Nat) : Out GenResult := do
  let sym ← SymbolTable.new tree src fuel
  let lr ← leftRecursionRules tree src ord fuel
  let code ← GeneratedCode.new { tree := tree, src := src, sym := sym, lr := lr, ord := ord } fuel
  .ok (.code code)

theorem afterTree_conv (ord : HashOrd) {src : Bytes} {tree : Publisher Dsl} {g : DGrammar} (hw : g.WF)
    (hc : Cleaned .r_grammar tree (g.trees 0)) (hs : src = g.text) : Conv (afterTree ord src tree) g.output := by
  obtain ⟨ks, h0, hu⟩ := hc.root
  have h1 : tree.getNode 0 = .ok ⟨0, .r_grammar, 0, 0, true, ks⟩ := by simp [Publisher.getNode, h0]
  have hsym := symbols_conv (src := src) hw h1 rfl hu hs
  unfold afterTree
  refine Conv.bind_ok hsym ?_
  rcases build_conv ord hw h1 hu hs with ⟨hd, hb⟩ | ⟨hd, m, hm, hb⟩
  · unfold DGrammar.output
    rw [if_pos hd]
    exact Conv.bind_panic hb
  · refine Conv.bind_ok hb ?_
    unfold DGrammar.output
    rw [if_neg hd]
    have hnamed : Env.Named { tree := tree, src := src, sym := g.symbols, lr := m, ord := ord } := by
      intro nm inv hi x hx
      obtain ⟨r, hr, rfl⟩ := (((hm.mem nm inv hi x).mp hx).1).declared
      exact hw.name_ne hr
    have hg := generate_conv hnamed hw h1 rfl hu hs
    rw [show Env.ctx { tree := tree, src := src, sym := g.symbols, lr := m, ord := ord } = ⟨g.symbols.isInline, m.get⟩ from rfl,
      gramCode_same hm.same] at hg
    have hen := enum_eq (t := g.symbols) (fun x hx => by
      obtain ⟨r, hr, rfl⟩ := (symbols_mem g).mp hx
      exact hw.name_ne hr)
    have : Conv (fun n => GeneratedCode.new { tree := tree, src := src, sym := g.symbols, lr := m, ord := ord } n)
        (gramCode g.ctx ([], []) g >>= fun y => .ok ⟨y.1, variantsOf g.symbols, (variantsOf g.symbols).length, y.2⟩) := by
      unfold GeneratedCode.new
      refine Conv.bind hg fun y _ => ?_
      simp only [hen, Out.bind_ok]
      exact Conv.ok _
    have := Conv.bind this (g := fun _ code => Out.ok (GenResult.code code)) (y := fun code => Out.ok (GenResult.code code)) fun y _ => Conv.ok _
    refine this.val ?_
    cases gramCode g.ctx ([], []) g <;> rfl

/-! ### The front end -/

section
variable {src : Bytes}

theorem empty_bad : Bad ⟨[]⟩ (Dsl.body .r_grammar) 0 [] := by
  have h : Rem ⟨[]⟩ 0 [] := ⟨by decide, by simp, rfl⟩
  have := bad_rule h .nil
  exact .seq1 (.plus this)

/-- The run of the start rule: it always ends, with the PEG result. -/
theorem start_run (hsm : src.length < 82000000) : ∃ b q ts st, PegT Dsl.body ⟨src⟩ (Dsl.body .r_grammar) 0 b q ts ∧ q ≤ src.length ∧ (b = false → q = 0) ∧
    Conv (fun n => eval dslParser ⟨src⟩ n (Dsl.body .r_grammar) 0 0 (St.new .r_grammar ())) (.ok (b, q, st)) ∧
    ∃ ks, st.pub.nodes[0]? = some ⟨0, .r_grammar, 0, 0, true, ks⟩ ∧ UnfL st.pub.nodes ks ts := by
  have hlen : (⟨src⟩ : Source).len = src.length := by unfold Source.len; exact Nat.mod_eq_of_lt (by simp; omega)
  have hcard : Dsl.all.length * ((⟨src⟩ : Source).len + 1) < 2 ^ 32 := by
    rw [show Dsl.all.length = 52 from rfl, hlen]; omega
  obtain ⟨b, q, h⟩ := C07_peg_is_total Dsl.body ⟨src⟩ dsl_plain wf_dsl (Dsl.body .r_grammar) (dsl_plain _) (wf_dsl.noLoop _) 0
  obtain ⟨N, hN⟩ := C05_peg_result_is_computed_small Dsl.body .r_grammar ⟨src⟩ dsl_plain Dsl.all Dsl.mem_all hcard
    (dsl_plain _) (Nat.zero_le _) h
  obtain ⟨st, hst⟩ := hN N (Nat.le_refl _)
  obtain ⟨ks, ts, hr, h0, hu⟩ := eval_new_root (lr := False) dslParser ⟨src⟩ (plain_hooksOK _ _ _)
      (fun r => Or.inr (dsl_plain r).lrFree) (e := Dsl.body .r_grammar) (Or.inr (dsl_plain _).lrFree) hst
  refine ⟨b, q, ts, st, hr.pegT dsl_plain (dsl_plain _), ?_, hr.pos.1, ?_, ks, h0, hu⟩
  · have := hr.pos.2
    rw [hlen] at this; omega
  · exact Conv.of_mono (fun n m hnm => eval_le dslParser ⟨src⟩ n m hnm _ _ _ _) hst (by simp)

theorem countLines_ok {q : Nat} (h : q ≤ src.length) : countLines src q = .ok (1 + (src.take q).count 10) := by
  unfold countLines Source.byteSlice
  rw [if_pos ⟨Nat.zero_le _, h⟩]
  simp only [Out.bind_ok, List.drop_zero, Nat.sub_zero]
  congr 1
  have : ∀ (l : Bytes) (k : Nat), l.foldl (fun n c => if c = 10 then n + 1 else n) k = k + l.count 10 := by
    intro l
    induction l with
    | nil => simp
    | cons c l ih =>
      intro k
      simp only [List.foldl_cons, ih, List.count_cons]
      by_cases h : c = 10 <;> simp [h]
      omega
  exact this _ _

/-- What the generator does with a file that its own grammar does not read to the end. -/
theorem generator_rejects (ord : HashOrd) (hsm : src.length < 82000000) {b q} (h : Peg Dsl.body ⟨src⟩ (Dsl.body .r_grammar) 0 b q)
    (hq : q ≠ src.length) : Conv (fun n => generateParser ord n src) (.ok (.syntaxError (1 + (src.take q).count 10))) := by
  obtain ⟨b', q', ts, st, h1, hle, _, h2, ks, h0, hu⟩ := start_run hsm
  obtain ⟨rfl, rfl⟩ := h1.peg.det h
  unfold generateParser
  refine Conv.bind_ok h2 ?_
  have : q' ≠ src.length % 4294967296 := by rwa [Nat.mod_eq_of_lt (by omega)]
  simp only [if_pos this, countLines_ok hle, Out.bind_ok]
  exact Conv.ok _

/-- What the generator does with a written grammar (or an empty file). -/
theorem generator_accepts (ord : HashOrd) {g : DGrammar} (hw : g.WF) (hsrc : g.text = src) (hsm : src.length < 82000000) :
    Conv (fun n => generateParser ord n src) g.output := by
  obtain ⟨b, q, ts, st, h1, hle, _, h2, ks, h0, hu⟩ := start_run hsm
  have key : q = src.length ∧ Tree.prune.pruneL ts = g.trees 0 := by
    by_cases hne : g = []
    · subst hne
      have hsrc : ([] : Bytes) = src := hsrc
      subst hsrc
      obtain ⟨us, h3, h4⟩ := empty_bad
      obtain ⟨_, rfl, rfl⟩ := h1.det h3
      exact ⟨rfl, h4⟩
    · obtain ⟨us, h3, h4⟩ := ok_grammar (src := ⟨src⟩) hw hne (by rw [hsrc]; omega) hsrc.symm
      obtain ⟨_, rfl, rfl⟩ := h1.det h3
      exact ⟨by rw [hsrc], h4⟩
  obtain ⟨rfl, hts⟩ := key
  have hsize := trees_size hw 0
  obtain ⟨t, ht, hconv⟩ := clearFalse_conv .r_grammar st.pub h0 rfl hu (by rw [hts]; rw [hsrc] at hsize; omega)
  rw [hts] at ht
  unfold generateParser
  refine Conv.bind_ok h2 ?_
  have : ¬ (src.length ≠ src.length % 4294967296) := by rw [Nat.mod_eq_of_lt (by omega)]; simp
  simp only [if_neg this]
  exact Conv.bind_ok hconv (afterTree_conv ord hw ht hsrc.symm)

/-- Every file below 82 million bytes is either rejected or is a written grammar (the empty file being the empty grammar). -/
theorem generator_cases (hsm : src.length < 82000000) :
    (∃ b q, Peg Dsl.body ⟨src⟩ (Dsl.body .r_grammar) 0 b q ∧ q ≤ src.length ∧ q ≠ src.length) ∨ (∃ g : DGrammar, g.WF ∧ g.text = src) := by
  obtain ⟨b, q, ts, st, h1, hle, hf, -⟩ := start_run hsm
  by_cases hq : q = src.length
  · right
    subst hq
    cases b with
    | true =>
      obtain ⟨g, hg, _, t, e, h3, _⟩ := grammar_inv (src := ⟨src⟩) (by simp; omega) h1.peg
      refine ⟨g, hg, ?_⟩
      simp only [List.drop_zero, Nat.zero_add] at e h3
      have : t = [] := by
        have := congrArg List.length e
        simp at this
        exact List.eq_nil_of_length_eq_zero (by omega)
      subst this
      simpa using e.symm
    | false =>
      have := hf rfl
      exact ⟨[], fun _ h => by simp at h, by
        have : src = [] := List.eq_nil_of_length_eq_zero this
        subst this; rfl⟩
  · exact Or.inl ⟨b, q, h1.peg, hle, hq⟩

end
end PP.Gen
