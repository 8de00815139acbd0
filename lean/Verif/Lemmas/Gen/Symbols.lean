import Verif.Lemmas.Gen.RuleCode

/-! # The symbol table of a written grammar -/
namespace PP.Gen

/-- No node of the forest has rule `r`; all nodes succeeded. -/
inductive NoRule (r : Dsl) : List (Tree Dsl) → Prop where
  | nil : NoRule r []
  | cons {x s kids ts} : x ≠ r → NoRule r kids → NoRule r ts → NoRule r (.node x (some s) kids :: ts)

theorem NoRule.append {r ts us} (h : NoRule r ts) (h' : NoRule r us) : NoRule r (ts ++ us) := by
  induction h with
  | nil => exact h'
  | cons h1 h2 _ _ ih => exact .cons h1 h2 ih
theorem NoRule.one {r x s kids} (h : x ≠ r) (h' : NoRule r kids) : NoRule r [.node x (some s) kids] := .cons h h' .nil
theorem NoRule.glue {r T ts} (h : NoRule r [T]) (h' : NoRule r ts) : NoRule r (T :: ts) := h.append h'

theorem leaves_noRule {r x : Dsl} (h : x ≠ r) {p n : Nat} : NoRule r (leaves x p n) := by
  induction n generalizing p with
  | zero => exact .nil
  | succ n ih => exact .cons h .nil ih

theorem ne0 {r0 x : Dsl} (h0 : r0 = .r_var_name_decl ∨ r0 = .r_rule) (h : x ≠ .r_var_name_decl ∧ x ≠ .r_rule) : x ≠ r0 := by
  rcases h0 with rfl | rfl
  · exact h.1
  · exact h.2
theorem hex_low {r0 : Dsl} (h0 : r0 = .r_var_name_decl ∨ r0 = .r_rule) {p ds} : NoRule r0 [hexTree p ds] := .one (ne0 h0 (by decide)) (leaves_noRule (ne0 h0 (by decide)))
theorem int_low {r0 : Dsl} (h0 : r0 = .r_var_name_decl ∨ r0 = .r_rule) {p ds} : NoRule r0 [intTree p ds] :=
  .one (ne0 h0 (by decide)) (.glue (.one (ne0 h0 (by decide)) .nil) (leaves_noRule (ne0 h0 (by decide))))
theorem term_low {r0 : Dsl} (h0 : r0 = .r_var_name_decl ∨ r0 = .r_rule) {p} {t : DTerm} : NoRule r0 [t.tree p] := by
  cases t with
  | chr c => exact .one (ne0 h0 (by decide)) (leaves_noRule (ne0 h0 (by decide)))
  | esc c => exact .one (ne0 h0 (by decide)) (leaves_noRule (ne0 h0 (by decide)))
  | eps => exact .one (ne0 h0 (by decide)) ((leaves_noRule (ne0 h0 (by decide))).append (.one (ne0 h0 (by decide)) .nil))
theorem bound_low {r0 : Dsl} (h0 : r0 = .r_var_name_decl ∨ r0 = .r_rule) {p} {b : DBound} : NoRule r0 [b.tree p] := by
  cases b with
  | term t => exact (term_low h0)
  | int ds => exact (int_low h0)
  | hex ds => exact (hex_low h0)
theorem str_low {r0 : Dsl} (h0 : r0 = .r_var_name_decl ∨ r0 = .r_rule) {p} {s : DStr} : NoRule r0 [s.tree p] := by
  cases s with
  | quoted t => exact .one (ne0 h0 (by decide)) (leaves_noRule (ne0 h0 (by decide)))
  | int ds => exact .one (ne0 h0 (by decide)) (int_low h0)
  | hex ds => exact .one (ne0 h0 (by decide)) (hex_low h0)

mutual
theorem rhs_low {r0 : Dsl} (h0 : r0 = .r_var_name_decl ∨ r0 = .r_rule) : ∀ {r : DRhs} {p : Nat}, NoRule r0 [r.tree p]
  | .atom w a, p => by unfold DRhs.tree; exact .one (ne0 h0 (by decide)) (atom_low h0)
  | .chain o w a as, p => by
    unfold DRhs.tree
    exact .one (ne0 h0 (by decide)) (.one (ne0 h0 (by cases o <;> decide)) (.glue (atom_low h0) (atoms_low h0)))
theorem atoms_low {r0 : Dsl} (h0 : r0 = .r_var_name_decl ∨ r0 = .r_rule) : ∀ {r : DAtoms} {o : ChainOp} {p : Nat}, NoRule r0 (r.trees o p)
  | .one w a, o, p => by unfold DAtoms.trees; exact (atom_low h0)
  | .cons w a as, o, p => by unfold DAtoms.trees; exact .glue (atom_low h0) (atoms_low h0)
theorem atom_low {r0 : Dsl} (h0 : r0 = .r_var_name_decl ∨ r0 = .r_rule) : ∀ {r : DAtom} {p : Nat}, NoRule r0 [r.tree p]
  | .plain n, p => by unfold DAtom.tree; exact .one (ne0 h0 (by decide)) (nuc_low h0)
  | .pre o n, p => by unfold DAtom.tree; exact .one (ne0 h0 (by decide)) (.one (ne0 h0 (by cases o <;> decide)) (nuc_low h0))
  | .post o n w, p => by unfold DAtom.tree; exact .one (ne0 h0 (by decide)) (.one (ne0 h0 (by cases o <;> decide)) (nuc_low h0))
theorem nuc_low {r0 : Dsl} (h0 : r0 = .r_var_name_decl ∨ r0 = .r_rule) : ∀ {r : DNuc} {p : Nat}, NoRule r0 [r.tree p]
  | .mk c w, p => by unfold DNuc.tree; exact .one (ne0 h0 (by decide)) (core_low h0)
theorem core_low {r0 : Dsl} (h0 : r0 = .r_var_name_decl ∨ r0 = .r_rule) : ∀ {r : DCore} {p : Nat} {w : Bytes}, NoRule r0 [r.tree p w]
  | .range w0 w1 lo hi w2, p, w => by unfold DCore.tree; exact .one (ne0 h0 (by decide)) (.glue (bound_low h0) (bound_low h0))
  | .hook n r, p, w => by unfold DCore.tree; exact .one (ne0 h0 (by decide)) (rhs_low h0)
  | .sub r, p, w => by unfold DCore.tree; exact .one (ne0 h0 (by decide)) (rhs_low h0)
  | .term t, p, w => by unfold DCore.tree; exact (term_low h0)
  | .str s, p, w => by unfold DCore.tree; exact (str_low h0)
  | .ref n, p, w => by unfold DCore.tree; exact .one (ne0 h0 (by decide)) .nil
end

theorem comments_low {r0 : Dsl} (h0 : r0 = .r_var_name_decl ∨ r0 = .r_rule) {cs : List DComment} {p : Nat} : NoRule r0 (commentsTree p cs) := by
  induction cs generalizing p with
  | nil => exact .nil
  | cons c cs ih => exact .cons (ne0 h0 (by decide)) (leaves_noRule (ne0 h0 (by decide))) ih

theorem rhs_noDecl {r : DRhs} {p : Nat} : NoRule .r_var_name_decl [r.tree p] := rhs_low (.inl rfl)
theorem comments_noDecl {cs : List DComment} {p : Nat} : NoRule .r_var_name_decl (commentsTree p cs) := comments_low (.inl rfl)

section
variable {tree : Publisher Dsl} {src : Bytes}

theorem kernel_zero {t : SymbolTable} {a b : Nat} : symbolTableKernel tree src 0 t a b = .oof := by
  unfold symbolTableKernel; rfl

/-- Nothing is declared in a forest without declarations. -/
theorem kernel_none {ts : List (Tree Dsl)} (h : NoRule .r_var_name_decl ts) : ∀ {ks : List Nat} {parent : Nat} {t : SymbolTable},
    UnfL tree.nodes ks ts → Conv (fun n => ks.foldlM (fun t c => symbolTableKernel tree src n t parent c) t) (.ok t) := by
  induction h with
  | nil => intro ks parent t h; have := UnfL.inv_nil h; subst this; exact Conv.ok _
  | @cons x s kids ts hx _ _ ih1 ih2 =>
    intro ks parent t h
    obtain ⟨k, ks, rfl, a, h⟩ := UnfL.inv_cons h
    obtain ⟨nd, g1, g2, g3, g4, g5, g6⟩ := At.inv (p := s.1) (q := s.2) a
    simp only [List.foldlM_cons]
    refine Conv.bind_ok (a := t) ?_ (ih2 h)
    refine Conv.succ kernel_zero ((ih1 (parent := k) g6).congr fun n => ?_)
    simp only [symbolTableKernel, g1, Out.bind_ok, g2, if_neg hx]

/-- What a rule adds. -/
def SymbolTable.addRule (t : SymbolTable) (r : DRule) : SymbolTable :=
  ⟨t.names ++ [r.name], if r.sep.isInline then t.inlined.insert r.name () else t.inlined⟩

theorem decl_slice {r : DRule} (hr : r.WF) {p : Nat} (hc : Cut ⟨src⟩ p (p + r.text.length) r.text) :
    Source.strSlice src (p + 1) (p + (r.name.length + 2) - 1) = .ok r.name := by
  have hc' : Cut ⟨src⟩ p (p + r.text.length) ((60 :: (r.name ++ [62])) ++ (r.sep.text ++ 61 :: (r.rhs.text ++ 59 :: (r.w ++ commentsText r.comments)))) := by
    have := hc
    rw [show r.text = (60 :: (r.name ++ [62])) ++ (r.sep.text ++ 61 :: (r.rhs.text ++ 59 :: (r.w ++ commentsText r.comments))) by
      simp [DRule.text]] at this
    simpa [DRule.text] using this
  have c1 := hc'.split.1
  have := Cut.inner (src := ⟨src⟩) c1 hr.1.hd (by decide)
  simpa using this

theorem rule_symbols {r : DRule} (hr : r.WF) {i p : Nat} {t : SymbolTable} (h : At tree i (r.tree p))
    (hc : Cut ⟨src⟩ p (p + r.text.length) r.text) : Conv (fun n => symbolTableKernel tree src n t i i) (.ok (t.addRule r)) := by
  unfold DRule.tree at h
  obtain ⟨nd, h1, h2, h3, h4, h5, h6⟩ := At.inv h
  obtain ⟨k1, ks, hk, a1, h6⟩ := UnfL.inv_cons h6
  have rest := kernel_none (src := src) (parent := i) (t := t.addRule r) (.glue (rhs_noDecl (r := r.rhs.strip)) (comments_noDecl (cs := r.comments))) h6
  have hs := decl_slice hr hc
  have e0 : ∀ n, symbolTableKernel tree src (n + 1) t i i = (symbolTableKernel tree src n t i k1 >>= fun t =>
      ks.foldlM (fun t c => symbolTableKernel tree src n t i c) t) := by
    intro n
    rw [symbolTableKernel, h1, Out.bind_ok, if_neg (by simp [h2]), Out.bind_ok, hk, List.foldlM_cons]
  refine Conv.succ kernel_zero (Conv.congr ?_ e0)
  refine Conv.bind_ok ?_ rest
  unfold DRule.lhsTree at a1
  split at a1
  · next w hw =>
    obtain ⟨nd1, g1, g2, g3, g4, g5, g6⟩ := At.inv a1
    obtain ⟨k2, ks2, hk2, a2, g6⟩ := UnfL.inv_cons g6
    have := UnfL.inv_nil g6
    subst this
    obtain ⟨nd2, x1, x2, x3, x4, x5, x6⟩ := At.inv a2
    have := UnfL.inv_nil x6
    have e1 : ∀ n, symbolTableKernel tree src (n + 2) t i k1 = .ok (t.addRule r) := by
      intro n
      rw [symbolTableKernel, g1, Out.bind_ok, if_neg (by simp [g2]), Out.bind_ok, hk2, List.foldlM_cons]
      rw [symbolTableKernel, x1, Out.bind_ok, if_pos x2, x3, x4, x5]
      simp only [Bool.not_true, Bool.false_eq_true, if_false]
      rw [if_neg (by omega), hs]
      simp only [Out.bind_ok, checkSemanticInstructions, x1, g1, hk2, List.foldlM_cons, List.foldlM_nil, x2]
      simp [this, SymbolTable.addRule, hw, DSep.isInline]
    refine Conv.succ kernel_zero ?_
    refine Conv.succ ?_ ((Conv.ok _).congr fun n => e1 n)
    show symbolTableKernel tree src 1 t i k1 = .oof
    rw [symbolTableKernel, g1, Out.bind_ok, if_neg (by simp [g2]), Out.bind_ok, hk2, List.foldlM_cons, kernel_zero]
    rfl
  · next w w' hw =>
    obtain ⟨nd1, g1, g2, g3, g4, g5, g6⟩ := At.inv a1
    obtain ⟨k2, ks2, hk2, a2, g6⟩ := UnfL.inv_cons g6
    obtain ⟨k3, ks3, rfl, a3, g6⟩ := UnfL.inv_cons g6
    have := UnfL.inv_nil g6
    subst this
    obtain ⟨nd2, x1, x2, x3, x4, x5, x6⟩ := At.inv a2
    have h0 := UnfL.inv_nil x6
    obtain ⟨nd3, y1, y2, y3, y4, y5, y6⟩ := At.inv a3
    obtain ⟨k4, hk4, a4⟩ := UnfL.one y6
    obtain ⟨nd4, z1, z2, _⟩ := At.rule a4
    have rest2 := kernel_none (src := src) (ks := [k3]) (parent := k1) (t := t.addRule r) (.one (by decide) (.one (by decide) .nil)) a3
    have e1 : ∀ n, symbolTableKernel tree src (n + 1) t k1 k2 = .ok (t.addRule r) := by
      intro n
      rw [symbolTableKernel, x1, Out.bind_ok, if_pos x2, x3, x4, x5]
      simp only [Bool.not_true, Bool.false_eq_true, if_false]
      rw [if_neg (by omega), hs]
      simp only [Out.bind_ok, checkSemanticInstructions, x1, g1, hk2, List.foldlM_cons, List.foldlM_nil, x2, y1, y2, if_true,
        hk4, List.getElem?_cons_zero, Out.ofOption_some, z1, z2]
      simp [h0, SymbolTable.addRule, hw, DSep.isInline]
    have e2 : ∀ n, symbolTableKernel tree src (n + 1) t i k1 = symbolTableKernel tree src n t k1 k2 >>= fun t =>
        [k3].foldlM (fun t c => symbolTableKernel tree src n t k1 c) t := by
      intro n
      rw [symbolTableKernel, g1, Out.bind_ok, if_neg (by simp [g2]), Out.bind_ok, hk2, List.foldlM_cons]
    refine Conv.succ kernel_zero (Conv.congr ?_ e2)
    exact Conv.bind_ok (Conv.succ kernel_zero ((Conv.ok _).congr fun n => e1 n)) rest2

def SymbolTable.addRules (t : SymbolTable) (g : DGrammar) : SymbolTable := g.foldl SymbolTable.addRule t

theorem rules_symbols {g : DGrammar} : ∀ {ks : List Nat} {p : Nat} {t : SymbolTable}, g.WF →
    UnfL tree.nodes ks (g.trees p) → Cut ⟨src⟩ p (p + g.text.length) g.text →
    Conv (fun n => ks.foldlM (fun t c => symbolTableKernel tree src n t c c) t) (.ok (t.addRules g)) := by
  induction g with
  | nil => intro ks p t _ h _; have := UnfL.inv_nil h; subst this; exact Conv.ok _
  | cons r g ih =>
    intro ks p t hw h hc
    obtain ⟨k, ks, rfl, a, h7⟩ := UnfL.inv_cons h
    have hl : p + (DGrammar.text (r :: g)).length = p + r.text.length + (DGrammar.text g).length := by
      simp [DGrammar.text]; omega
    rw [hl] at hc
    have hc : Cut ⟨src⟩ p (p + r.text.length + (DGrammar.text g).length) (r.text ++ DGrammar.text g) := hc
    simp only [List.foldlM_cons]
    exact Conv.bind_ok (rule_symbols (hw r (by simp)) a hc.split.1) (ih (fun r hr => hw r (by simp [hr])) h7 hc.split.2)

/-- The symbol table of a written grammar. -/
def DGrammar.symbols (g : DGrammar) : SymbolTable := (SymbolTable.addRules ⟨[], []⟩ g).runDuplicationCheck

theorem symbols_conv {g : DGrammar} (hw : g.WF) {nd : Node Dsl} (h1 : tree.getNode 0 = .ok nd)
    (h2 : nd.rule = .r_grammar) (h : UnfL tree.nodes nd.children (g.trees 0)) (hs : src = g.text) :
    Conv (fun n => SymbolTable.new tree src n) (.ok g.symbols) := by
  have := rules_symbols (src := src) (t := ⟨[], []⟩) hw h ⟨[], by simp [hs], rfl, by simp [hs]⟩
  have : Conv (fun n => createSymbolTable tree src n ⟨[], []⟩) (.ok (SymbolTable.addRules ⟨[], []⟩ g)) := by
    refine this.congr fun n => ?_
    unfold createSymbolTable
    rw [h1, Out.bind_ok, if_neg (by simp [h2])]
  exact Conv.bind_ok this (Conv.ok _)
end

/-! ### What the table says -/

theorem addRules_names {t : SymbolTable} {g : DGrammar} : (t.addRules g).names = t.names ++ g.map (·.name) := by
  induction g generalizing t with
  | nil => simp [SymbolTable.addRules]
  | cons r g ih =>
    have : t.addRules (r :: g) = (t.addRule r).addRules g := rfl
    rw [this, ih]; simp [SymbolTable.addRule]

theorem Map.get_insert {V : Type} {m : Map V} {k k' : Bytes} {v : V} : (m.insert k v).get k' = if k = k' then some v else m.get k' := by
  induction m with
  | nil => simp only [Map.insert, Map.get, List.find?_cons, List.find?_nil]; split <;> simp_all
  | cons x m ih =>
    unfold Map.get at ih ⊢
    simp only [Map.insert]
    by_cases h : x.1 = k
    · subst h
      simp only [if_true, List.find?_cons]
      by_cases h' : x.1 = k' <;> simp [h']
    · simp only [if_neg h, List.find?_cons]
      by_cases h' : x.1 = k'
      · have : k ≠ k' := fun e => h (h'.trans e.symm)
        simp [h', this]
      · simp [h', ih]

theorem addRules_inline {t : SymbolTable} {g : DGrammar} {nm : Bytes} :
    (t.addRules g).isInline nm = true ↔ t.isInline nm = true ∨ ∃ r ∈ g, r.name = nm ∧ r.sep.isInline = true := by
  induction g generalizing t with
  | nil => simp [SymbolTable.addRules]
  | cons r g ih =>
    have : t.addRules (r :: g) = (t.addRule r).addRules g := rfl
    rw [this, ih]
    have h1 : (t.addRule r).isInline nm = true ↔ t.isInline nm = true ∨ (r.name = nm ∧ r.sep.isInline = true) := by
      unfold SymbolTable.isInline SymbolTable.addRule
      by_cases hi : r.sep.isInline = true
      · simp only [hi, if_true, Map.get_insert]
        by_cases hn : r.name = nm <;> simp [hn]
      · simp [hi]
    rw [h1]
    simp only [List.mem_cons, exists_eq_or_imp, or_assoc]

theorem mem_dedup {l : List Bytes} {x : Bytes} : x ∈ dedup l ↔ x ∈ l := by
  have go : ∀ (l : List Bytes) a, x ∈ dedup.go a l ↔ x = a ∨ x ∈ l := by
    intro l
    induction l with
    | nil => intro a; simp [dedup.go]
    | cons b l ih =>
      intro a
      simp only [dedup.go]
      split
      · next h => subst h; rw [ih]; simp
      · simp [ih]
  cases l with
  | nil => simp [dedup]
  | cons a l => simp [dedup, go]

/-- Strictly increasing in byte order. -/
def StrictSorted (l : List Bytes) : Prop := l.Pairwise fun a b => bytesLe a b = true ∧ a ≠ b

theorem dedup_sorted {l : List Bytes} (h : l.Pairwise fun a b => bytesLe a b = true) : StrictSorted (dedup l) := by
  have go : ∀ (l : List Bytes) a, (a :: l).Pairwise (fun a b => bytesLe a b = true) → StrictSorted (dedup.go a l) ∧ ∀ x ∈ dedup.go a l, bytesLe a x = true := by
    intro l
    induction l with
    | nil =>
      intro a h
      refine ⟨List.pairwise_singleton _ _, ?_⟩
      intro x hx
      simp [dedup.go] at hx
      subst hx
      have := bytesLe_total x x
      simpa using this
    | cons b l ih =>
      intro a h
      have h1 := List.pairwise_cons.mp h
      have haa : bytesLe a a = true := by have := bytesLe_total a a; simpa using this
      simp only [dedup.go]
      split
      · next hb =>
        subst hb
        exact ih _ h1.2
      · next hb =>
        obtain ⟨i1, i2⟩ := ih b h1.2
        have hab := h1.1 b (by simp)
        refine ⟨List.pairwise_cons.mpr ⟨?_, i1⟩, ?_⟩
        · intro x hx
          refine ⟨bytesLe_trans _ _ _ hab (i2 x hx), ?_⟩
          rintro rfl
          exact hb (bytesLe_antisymm _ _ (i2 _ hx) hab)
        · intro x hx
          rcases List.mem_cons.mp hx with rfl | hx
          · exact haa
          · exact bytesLe_trans _ _ _ hab (i2 x hx)
  cases l with
  | nil => exact List.Pairwise.nil
  | cons a l => exact (go l a h).1

theorem symbols_names_sorted (g : DGrammar) : StrictSorted g.symbols.names :=
  dedup_sorted (by
    unfold sortNames
    exact List.pairwise_mergeSort bytesLe_trans bytesLe_total _)
theorem symbols_mem (g : DGrammar) {x : Bytes} : x ∈ g.symbols.names ↔ ∃ r ∈ g, r.name = x := by
  show x ∈ dedup (sortNames _) ↔ _
  rw [mem_dedup, mem_sortNames, addRules_names]
  simp
theorem symbols_inline (g : DGrammar) {nm : Bytes} : g.symbols.isInline nm = true ↔ ∃ r ∈ g, r.name = nm ∧ r.sep.isInline = true := by
  have : g.symbols.isInline nm = (SymbolTable.addRules ⟨[], []⟩ g).isInline nm := rfl
  rw [this, addRules_inline]
  simp [SymbolTable.isInline, Map.get]

/-- The variants of the generated enum. -/
def variantsOf (t : SymbolTable) : List Bytes := (t.names.filter fun s => !t.isInline s).map cap

theorem enum_eq {t : SymbolTable} (h : ∀ x ∈ t.names, x ≠ []) : generateRulesEnum t = .ok (variantsOf t, (variantsOf t).length) := by
  have : ∀ (l : List Bytes) (a : List Bytes × Nat), (∀ x ∈ l, x ≠ []) → l.foldlM (fun (acc : List Bytes × Nat) s => do
      if !t.isInline s then do
        let v ← capitalise s
        .ok (acc.1 ++ [v], acc.2 + 1)
      else .ok acc) a = (.ok (a.1 ++ (l.filter fun s => !t.isInline s).map cap, a.2 + (l.filter fun s => !t.isInline s).length) : Out _) := by
    intro l
    induction l with
    | nil => intro a _; simp
    | cons x l ih =>
      intro a hx
      rw [List.foldlM_cons]
      by_cases hi : t.isInline x = true
      · simp only [hi, Bool.not_true, Bool.false_eq_true, if_false, Out.bind_ok]
        rw [ih a fun y hy => hx y (by simp [hy])]
        simp [hi]
      · simp only [hi, Bool.not_false, if_true, capitalise_eq (hx x (by simp)), Out.bind_ok]
        rw [ih _ fun y hy => hx y (by simp [hy])]
        simp [hi]
        omega
  unfold generateRulesEnum variantsOf
  rw [this _ _ h]
  simp

end PP.Gen
