import Verif.Lemmas.Gen.Symbols
import Verif.Spec.LeftRec

/-! # Walking the tree: references and leftmost references -/
namespace PP.Gen

/-- Insert in order. -/
def setAdd (s : List Bytes) (l : List Bytes) : List Bytes := l.foldl setInsert s
theorem setAdd_append {s a b} : setAdd s (a ++ b) = setAdd (setAdd s a) b := by simp [setAdd]
theorem mem_setInsert {s : List Bytes} {x y} : y ∈ setInsert s x ↔ y ∈ s ∨ y = x := by
  unfold setInsert
  split
  · next h => simp at h; constructor
              · exact Or.inl
              · rintro (h' | rfl)
                · exact h'
                · exact h
  · simp
theorem mem_setAdd {s l : List Bytes} {y} : y ∈ setAdd s l ↔ y ∈ s ∨ y ∈ l := by
  induction l generalizing s with
  | nil => simp [setAdd]
  | cons x l ih =>
    have : setAdd s (x :: l) = setAdd (setInsert s x) l := rfl
    rw [this, ih, mem_setInsert]; simp [or_assoc]
theorem setInsert_nodup {s : List Bytes} {x} (h : s.Nodup) : (setInsert s x).Nodup := by
  unfold setInsert
  split
  · exact h
  · next hx =>
    simp at hx
    rw [List.nodup_append]
    exact ⟨h, by simp, by simp; intro a ha e; exact hx (e ▸ ha)⟩
theorem setAdd_nodup {s l : List Bytes} (h : s.Nodup) : (setAdd s l).Nodup := by
  induction l generalizing s with
  | nil => exact h
  | cons x l ih => exact ih (setInsert_nodup h)

section
variable {tree : Publisher Dsl} {src : Bytes}

/-! ### All references -/

theorem refs_zero {nd : Node Dsl} {s : List Bytes} : getRulesReferencedByRule tree src 0 nd s = .oof := by
  unfold getRulesReferencedByRule; rfl

/-- One step of the loop of `get_rules_referenced_by_rule`. -/
def refStep (tree : Publisher Dsl) (src : Bytes) (n : Nat) (refs : List Bytes) (child : Nat) : Out (List Bytes) := do
  let childNode ← tree.getNode child
  let refs ← (if childNode.rule = .r_var_name_ref then do
      let name ← getRuleRefName src childNode
      .ok (setInsert refs name)
    else .ok refs)
  getRulesReferencedByRule tree src n childNode refs

theorem refs_unfold {n : Nat} {nd : Node Dsl} {s : List Bytes} :
    getRulesReferencedByRule tree src (n + 1) nd s = nd.children.foldlM (refStep tree src n) s := by
  rw [getRulesReferencedByRule]; rfl

/-- The forest refers to the names of `l`, in this order. -/
def RefsOf (tree : Publisher Dsl) (src : Bytes) (ks : List Nat) (l : List Bytes) : Prop :=
  ∀ s, Conv (fun n => ks.foldlM (refStep tree src n) s) (.ok (setAdd s l))

theorem RefsOf.nil : RefsOf tree src [] [] := fun _ => Conv.ok _
theorem RefsOf.cons {k ks l m} (h : RefsOf tree src [k] l) (h' : RefsOf tree src ks m) : RefsOf tree src (k :: ks) (l ++ m) := by
  intro s
  rw [setAdd_append]
  have h1 : Conv (fun n => refStep tree src n s k) (.ok (setAdd s l)) := by
    refine (h s).congr fun n => ?_
    simp only [List.foldlM_cons, List.foldlM_nil]
    cases refStep tree src n s k <;> rfl
  simp only [List.foldlM_cons]
  exact Conv.bind_ok h1 (h' _)

/-- A node that is not a reference: what its children refer to. -/
theorem RefsOf.node {k : Nat} {nd : Node Dsl} {l} (h1 : tree.getNode k = .ok nd) (h2 : nd.rule ≠ .r_var_name_ref)
    (h : RefsOf tree src nd.children l) : RefsOf tree src [k] l := by
  intro s
  have : Conv (fun n => getRulesReferencedByRule tree src n nd s) (.ok (setAdd s l)) :=
    Conv.succ refs_zero ((h s).congr fun n => refs_unfold)
  refine this.congr fun n => ?_
  simp only [List.foldlM_cons, List.foldlM_nil, refStep, h1, Out.bind_ok, if_neg h2]
  cases getRulesReferencedByRule tree src n nd s <;> rfl

/-- A forest without references. -/
theorem RefsOf.none {ts : List (Tree Dsl)} (h : NoRule .r_var_name_ref ts) : ∀ {ks : List Nat}, UnfL tree.nodes ks ts → RefsOf tree src ks [] := by
  induction h with
  | nil => intro ks h; have := UnfL.inv_nil h; subst this; exact .nil
  | @cons x s kids ts hx _ _ ih1 ih2 =>
    intro ks h
    obtain ⟨k, ks, rfl, a, h⟩ := UnfL.inv_cons h
    obtain ⟨nd, g1, g2, g3, g4, g5, g6⟩ := At.inv (p := s.1) (q := s.2) a
    exact RefsOf.cons (l := []) (.node g1 (g2 ▸ hx) (ih1 g6)) (ih2 h)

theorem hex_noRef {p ds} : NoRule .r_var_name_ref [hexTree p ds] := .one (by decide) (leaves_noRule (by decide))
theorem int_noRef {p ds} : NoRule .r_var_name_ref [intTree p ds] :=
  .one (by decide) (.glue (.one (by decide) .nil) (leaves_noRule (by decide)))
theorem term_noRef {p} {t : DTerm} : NoRule .r_var_name_ref [t.tree p] := by
  cases t with
  | chr c => exact .one (by decide) (leaves_noRule (by decide))
  | esc c => exact .one (by decide) (leaves_noRule (by decide))
  | eps => exact .one (by decide) ((leaves_noRule (by decide)).append (.one (by decide) .nil))
theorem bound_noRef {p} {b : DBound} : NoRule .r_var_name_ref [b.tree p] := by
  cases b with
  | term t => exact term_noRef
  | int ds => exact int_noRef
  | hex ds => exact hex_noRef
theorem str_noRef {p} {s : DStr} : NoRule .r_var_name_ref [s.tree p] := by
  cases s with
  | quoted t => exact .one (by decide) (leaves_noRule (by decide))
  | int ds => exact .one (by decide) int_noRef
  | hex ds => exact .one (by decide) hex_noRef
theorem comments_noRef {cs : List DComment} {p : Nat} : NoRule .r_var_name_ref (commentsTree p cs) := by
  induction cs generalizing p with
  | nil => exact .nil
  | cons c cs ih => exact .cons (by decide) (leaves_noRule (by decide)) ih
theorem lhs_noRef {r : DRule} {p : Nat} : NoRule .r_var_name_ref [r.lhsTree p] := by
  unfold DRule.lhsTree
  split
  · exact .one (by decide) (.one (by decide) .nil)
  · exact .one (by decide) (.glue (.one (by decide) .nil) (.one (by decide) (.one (by decide) .nil)))

/-- The name in a reference. -/
theorem ref_name {nm : Bytes} (hn : IsName nm) {nd : Node Dsl} {p : Nat} (h2 : nd.rule = .r_var_name_ref) (h4 : nd.start = p)
    (h5 : nd.stop = p + (nm.length + 2)) (hc : Cut ⟨src⟩ p (p + (nm.length + 2)) (60 :: (nm ++ [62])))
    (hb : Source.isCharBoundary src (p + (nm.length + 2)) = true) : getRuleRefName src nd = .ok nm := by
  have hs : Source.strSlice src p (p + (nm.length + 2)) = .ok (60 :: (nm ++ [62])) :=
    hc.strSlice (boundary_of hc.get (by decide)) hb
  have hs2 : Source.strSlice (60 :: (nm ++ [62])) 1 ((60 :: (nm ++ [62])).length - 1) = .ok nm := by
    have := Cut.inner (src := ⟨60 :: (nm ++ [62])⟩) (p := 0) (q := (60 :: (nm ++ [62])).length) (s := nm) (a := 60) (d := 62)
      ⟨[], by simp, by simp, by simp⟩ hn.hd (by decide)
    simpa using this
  unfold getRuleRefName innerString
  rw [if_neg (by simp [h2]), h4, h5, hs, Out.bind_ok, if_neg (by simp), hs2]

/-- Boundary after a piece of white space, for plain sources. -/
theorem ws_bnd {w : Bytes} {p q : Nat} (hw : IsWs w) (hc : Cut ⟨src⟩ p q w) (hn : Source.isCharBoundary src q = true) :
    Source.isCharBoundary src p = true := by
  cases w with
  | nil => have := hc.end; simp at this; rw [← this]; exact hn
  | cons d w =>
    refine boundary_of hc.get ?_
    rcases hw d (by simp) with rfl | rfl | rfl | rfl <;> decide

/-- What holds at the place of an expression. -/
structure Spot (tree : Publisher Dsl) (src : Bytes) (i p : Nat) (T : Tree Dsl) (s : Bytes) : Prop where
  at_ : At tree i T
  cut : Cut ⟨src⟩ p (p + s.length) s
  bnd : Source.isCharBoundary src (p + s.length) = true

theorem RefsOf.app {k ks l m} (h : RefsOf tree src [k] l) (h' : RefsOf tree src ks m) : RefsOf tree src (k :: ks) (l ++ m) := .cons h h'

/-! The parts of a written expression stand where the tree says. -/
theorem Spot.atom {w : Bytes} {x : DAtom} {i p : Nat} (h : Spot tree src i p ((DRhs.atom w x).tree p) (DRhs.atom w x).text) :
    ∃ nd k, tree.getNode i = .ok nd ∧ nd.rule = .r_rhs ∧ nd.children = [k] ∧ Spot tree src k (p + w.length) (x.tree (p + w.length)) x.text := by
  obtain ⟨h, hc, hn⟩ := h
  unfold DRhs.tree at h
  unfold DRhs.text at hc hn
  obtain ⟨nd, h1, h2, h3, rfl, h5, h6⟩ := At.inv h
  obtain ⟨k, hk, h7⟩ := UnfL.one h6
  exact ⟨nd, k, h1, h2, hk, h7, (by have := hc.split.2; rwa [List.length_append, ← Nat.add_assoc] at this),
      by rwa [List.length_append, ← Nat.add_assoc] at hn⟩

/-- The members of a chain after the first. -/
structure Spots (tree : Publisher Dsl) (src : Bytes) (ks : List Nat) (o : ChainOp) (p : Nat) (xs : DAtoms) : Prop where
  unf : UnfL tree.nodes ks (xs.trees o p)
  cut : Cut ⟨src⟩ p (p + (xs.text o).length) (xs.text o)
  bnd : Source.isCharBoundary src (p + (xs.text o).length) = true

theorem Spot.chain {o : ChainOp} {w : Bytes} {x : DAtom} {xs : DAtoms} {i p : Nat}
    (h : Spot tree src i p ((DRhs.chain o w x xs).tree p) (DRhs.chain o w x xs).text) :
    ∃ nd k ndk kx kxs, tree.getNode i = .ok nd ∧ nd.rule = .r_rhs ∧ nd.children = [k] ∧ tree.getNode k = .ok ndk ∧
      ndk.rule = o.rule ∧ ndk.children = kx :: kxs ∧ Spot tree src kx (p + w.length) (x.tree (p + w.length)) x.text ∧
      Spots tree src kxs o (p + w.length + x.text.length) xs := by
  obtain ⟨h, hc, hn⟩ := h
  unfold DRhs.tree at h
  unfold DRhs.text at hc hn
  obtain ⟨nd, h1, h2, h3, rfl, h5, h6⟩ := At.inv h
  obtain ⟨k, hk, h7⟩ := UnfL.one h6
  obtain ⟨ndk, g1, g2, g3, g4, g5, g6⟩ := At.inv h7
  obtain ⟨kx, kxs, hkk, b1, b2⟩ := UnfL.inv_cons g6
  have c2 := hc.split.2.split
  have c3 := c2.2
  have hb : Source.isCharBoundary src (nd.start + w.length + x.text.length) = true := by
    obtain ⟨t, ht⟩ := xs.text_head o
    rw [ht] at c3
    exact boundary_of c3.get o.byte_ok
  have hl : nd.start + (w ++ (x.text ++ xs.text o)).length = nd.start + w.length + x.text.length + (xs.text o).length := by
    simp; omega
  rw [hl] at c3 hn
  exact ⟨nd, k, ndk, kx, kxs, h1, h2, hk, g1, g2, hkk, ⟨b1, c2.1, hb⟩, ⟨b2, c3, hn⟩⟩

theorem Spots.one {o : ChainOp} {w : Bytes} {x : DAtom} {ks : List Nat} {p : Nat} (h : Spots tree src ks o p (.one w x)) :
    ∃ k, ks = [k] ∧ Spot tree src k (p + 1 + w.length) (x.tree (p + 1 + w.length)) x.text := by
  obtain ⟨h, hc, hn⟩ := h
  unfold DAtoms.trees at h
  unfold DAtoms.text at hc hn
  obtain ⟨k, rfl, h7⟩ := UnfL.one h
  have hl : p + (o.byte :: (w ++ x.text)).length = p + 1 + w.length + x.text.length := by simp; omega
  rw [hl] at hc hn
  exact ⟨k, rfl, h7, hc.uncons.2.split.2, hn⟩

theorem Spots.cons {o : ChainOp} {w : Bytes} {x : DAtom} {xs : DAtoms} {ks : List Nat} {p : Nat} (h : Spots tree src ks o p (.cons w x xs)) :
    ∃ k ks', ks = k :: ks' ∧ Spot tree src k (p + 1 + w.length) (x.tree (p + 1 + w.length)) x.text ∧
      Spots tree src ks' o (p + 1 + w.length + x.text.length) xs := by
  obtain ⟨h, hc, hn⟩ := h
  unfold DAtoms.trees at h
  unfold DAtoms.text at hc hn
  obtain ⟨k, ks, rfl, h7, h8⟩ := UnfL.inv_cons h
  have hl : p + (o.byte :: (w ++ (x.text ++ xs.text o))).length = p + 1 + w.length + x.text.length + (xs.text o).length := by
    simp; omega
  rw [hl] at hc hn
  have c2 := hc.uncons.2.split.2.split
  have c3 := c2.2
  have hb : Source.isCharBoundary src (p + 1 + w.length + x.text.length) = true := by
    obtain ⟨t, ht⟩ := xs.text_head o
    rw [ht] at c3
    exact boundary_of c3.get o.byte_ok
  exact ⟨k, ks, rfl, ⟨h7, c2.1, hb⟩, ⟨h8, c3, hn⟩⟩

theorem Spot.plain {m : DNuc} {i p : Nat} (h : Spot tree src i p ((DAtom.plain m).tree p) (DAtom.plain m).text) :
    ∃ nd k, tree.getNode i = .ok nd ∧ nd.rule = .r_atom ∧ nd.children = [k] ∧ Spot tree src k p (m.tree p) m.text := by
  obtain ⟨h, hc, hn⟩ := h
  unfold DAtom.tree at h
  unfold DAtom.text at hc hn
  obtain ⟨nd, h1, h2, h3, rfl, h5, h6⟩ := At.inv h
  obtain ⟨k, hk, h7⟩ := UnfL.one h6
  exact ⟨nd, k, h1, h2, hk, h7, hc, hn⟩

theorem Spot.pre {o : PreOp} {m : DNuc} {i p : Nat} (h : Spot tree src i p ((DAtom.pre o m).tree p) (DAtom.pre o m).text) :
    ∃ nd k ndk j, tree.getNode i = .ok nd ∧ nd.rule = .r_atom ∧ nd.children = [k] ∧ tree.getNode k = .ok ndk ∧ ndk.rule = o.rule ∧
      ndk.children = [j] ∧ Spot tree src j (p + 1) (m.tree (p + 1)) m.text := by
  obtain ⟨h, hc, hn⟩ := h
  unfold DAtom.tree at h
  unfold DAtom.text at hc hn
  obtain ⟨nd, h1, h2, h3, rfl, h5, h6⟩ := At.inv h
  obtain ⟨k, hk, h7⟩ := UnfL.one h6
  obtain ⟨ndk, g1, g2, g3, g4, g5, g6⟩ := At.inv h7
  obtain ⟨j, hj, h8⟩ := UnfL.one g6
  have hl : nd.start + (o.byte :: m.text).length = nd.start + 1 + m.text.length := by simp; omega
  rw [hl] at hc hn
  exact ⟨nd, k, ndk, j, h1, h2, hk, g1, g2, hj, h8, hc.uncons.2, hn⟩

theorem Spot.post {o : PostOp} {m : DNuc} {w : Bytes} {i p : Nat} (h : Spot tree src i p ((DAtom.post o m w).tree p) (DAtom.post o m w).text) :
    ∃ nd k ndk j, tree.getNode i = .ok nd ∧ nd.rule = .r_atom ∧ nd.children = [k] ∧ tree.getNode k = .ok ndk ∧ ndk.rule = o.rule ∧
      ndk.children = [j] ∧ Spot tree src j p (m.tree p) m.text := by
  obtain ⟨h, hc, hn⟩ := h
  unfold DAtom.tree at h
  unfold DAtom.text at hc hn
  obtain ⟨nd, h1, h2, h3, rfl, h5, h6⟩ := At.inv h
  obtain ⟨k, hk, h7⟩ := UnfL.one h6
  obtain ⟨ndk, g1, g2, g3, g4, g5, g6⟩ := At.inv h7
  obtain ⟨j, hj, h8⟩ := UnfL.one g6
  exact ⟨nd, k, ndk, j, h1, h2, hk, g1, g2, hj, h8, hc.split.1, boundary_of hc.split.2.get o.byte_ok⟩

theorem Spot.nuc {c : DCore} {w : Bytes} {i p : Nat} (hw : IsWs w) (h : Spot tree src i p ((DNuc.mk c w).tree p) (DNuc.mk c w).text) :
    ∃ nd k, tree.getNode i = .ok nd ∧ nd.rule = .r_nucleus ∧ nd.children = [k] ∧ Spot tree src k p (c.tree p w) c.text := by
  obtain ⟨h, hc, hn⟩ := h
  unfold DNuc.tree at h
  unfold DNuc.text at hc hn
  obtain ⟨nd, h1, h2, h3, rfl, h5, h6⟩ := At.inv h
  obtain ⟨k, hk, h7⟩ := UnfL.one h6
  obtain ⟨hc, hc2⟩ := hc.split
  exact ⟨nd, k, h1, h2, hk, h7, hc, ws_bnd hw hc2 hn⟩

theorem Spot.sub {r : DRhs} {w : Bytes} {i p : Nat} (h : Spot tree src i p ((DCore.sub r).tree p w) (DCore.sub r).text) :
    ∃ nd k, tree.getNode i = .ok nd ∧ nd.rule = .r_subexpression ∧ nd.children = [k] ∧ Spot tree src k (p + 1) (r.tree (p + 1)) r.text := by
  obtain ⟨h, hc, hn⟩ := h
  unfold DCore.tree at h
  unfold DCore.text at hc
  obtain ⟨nd, h1, h2, h3, rfl, h5, h6⟩ := At.inv h
  obtain ⟨k, hk, h7⟩ := UnfL.one h6
  have c1 := hc.uncons.2.split
  exact ⟨nd, k, h1, h2, hk, h7, c1.1, boundary_of c1.2.get (by decide)⟩

theorem Spot.hook {nm : Bytes} {r : DRhs} {w : Bytes} {i p : Nat} (h : Spot tree src i p ((DCore.hook nm r).tree p w) (DCore.hook nm r).text) :
    ∃ nd k, tree.getNode i = .ok nd ∧ nd.rule = .r_hooked_call ∧ nd.children = [k] ∧
      Spot tree src k (p + nm.length + 1) (r.tree (p + nm.length + 1)) r.text := by
  obtain ⟨h, hc, hn⟩ := h
  unfold DCore.tree at h
  unfold DCore.text at hc
  obtain ⟨nd, h1, h2, h3, rfl, h5, h6⟩ := At.inv h
  obtain ⟨k, hk, h7⟩ := UnfL.one h6
  have c1 := hc.split.2.uncons.2.split
  exact ⟨nd, k, h1, h2, hk, h7, c1.1, boundary_of c1.2.get (by decide)⟩

theorem Spot.ref {nm : Bytes} {w : Bytes} {i p : Nat} (hn : IsName nm) (h : Spot tree src i p ((DCore.ref nm).tree p w) (DCore.ref nm).text) :
    ∃ nd, tree.getNode i = .ok nd ∧ nd.rule = .r_var_name_ref ∧ nd.children = [] ∧ getRuleRefName src nd = .ok nm := by
  obtain ⟨h, hc, hb⟩ := h
  unfold DCore.tree at h
  unfold DCore.text at hc hb
  obtain ⟨nd, h1, h2, h3, h4, h5, h6⟩ := At.inv h
  have hl : (60 :: (nm ++ [62])).length = nm.length + 2 := by simp
  rw [hl] at hc hb
  exact ⟨nd, h1, h2, UnfL.inv_nil h6, ref_name hn h2 h4 h5 hc hb⟩

mutual
theorem rhs_refs : ∀ {r : DRhs} {i p : Nat}, r.WF → Spot tree src i p (r.tree p) r.text → RefsOf tree src [i] r.refs
  | .atom w x, i, p, hr, h => by
    unfold DRhs.WF at hr
    obtain ⟨nd, k, h1, h2, hk, h7⟩ := h.atom
    unfold DRhs.refs
    exact .node h1 (by simp [h2]) (hk ▸ atom_refs hr.2 h7)
  | .chain o w x xs, i, p, hr, h => by
    unfold DRhs.WF at hr
    obtain ⟨nd, k, ndk, kx, kxs, h1, h2, hk, g1, g2, hkk, a1, a2⟩ := h.chain
    unfold DRhs.refs
    refine .node h1 (by simp [h2]) (hk ▸ .node g1 (by rw [g2]; cases o <;> decide) ?_)
    rw [hkk]
    exact .cons (atom_refs hr.2.1 a1) (atoms_refs hr.2.2 a2)
theorem atoms_refs : ∀ {xs : DAtoms} {ks : List Nat} {o : ChainOp} {p : Nat}, xs.WF → Spots tree src ks o p xs →
    RefsOf tree src ks xs.refs
  | .one w x, ks, o, p, hr, h => by
    unfold DAtoms.WF at hr
    obtain ⟨k, rfl, h'⟩ := h.one
    unfold DAtoms.refs
    exact atom_refs hr.2 h'
  | .cons w x xs, ks, o, p, hr, h => by
    unfold DAtoms.WF at hr
    obtain ⟨k, ks, rfl, h, h'⟩ := h.cons
    unfold DAtoms.refs
    exact .cons (atom_refs hr.2.1 h) (atoms_refs hr.2.2 h')
theorem atom_refs : ∀ {r : DAtom} {i p : Nat}, r.WF → Spot tree src i p (r.tree p) r.text → RefsOf tree src [i] r.refs
  | .plain m, i, p, hr, h => by
    unfold DAtom.WF at hr
    obtain ⟨nd, k, h1, h2, hk, h7⟩ := h.plain
    unfold DAtom.refs
    exact .node h1 (by simp [h2]) (hk ▸ nuc_refs hr.1 h7)
  | .pre o m, i, p, hr, h => by
    unfold DAtom.WF at hr
    obtain ⟨nd, k, ndk, j, h1, h2, hk, g1, g2, hj, h7⟩ := h.pre
    unfold DAtom.refs
    exact .node h1 (by simp [h2]) (hk ▸ .node g1 (by rw [g2]; cases o <;> decide) (hj ▸ nuc_refs hr h7))
  | .post o m w, i, p, hr, h => by
    unfold DAtom.WF at hr
    obtain ⟨nd, k, ndk, j, h1, h2, hk, g1, g2, hj, h7⟩ := h.post
    unfold DAtom.refs
    exact .node h1 (by simp [h2]) (hk ▸ .node g1 (by rw [g2]; cases o <;> decide) (hj ▸ nuc_refs hr.1 h7))
theorem nuc_refs : ∀ {r : DNuc} {i p : Nat}, r.WF → Spot tree src i p (r.tree p) r.text → RefsOf tree src [i] r.refs
  | .mk c w, i, p, hr, h => by
    unfold DNuc.WF at hr
    obtain ⟨nd, k, h1, h2, hk, h7⟩ := h.nuc hr.2
    unfold DNuc.refs
    exact .node h1 (by simp [h2]) (hk ▸ core_refs hr.1 h7)
theorem core_refs : ∀ {r : DCore} {w : Bytes} {i p : Nat}, r.WF → Spot tree src i p (r.tree p w) r.text → RefsOf tree src [i] r.refs
  | .range w0 w1 lo hi w2, w, i, p, hr, h => by
    have h := h.at_
    unfold DCore.tree at h
    unfold DCore.refs
    exact .none (.one (by decide) (.glue bound_noRef bound_noRef)) h
  | .hook nm r, w, i, p, hr, h => by
    unfold DCore.WF at hr
    obtain ⟨nd, k, h1, h2, hk, h7⟩ := h.hook
    unfold DCore.refs
    exact .node h1 (by simp [h2]) (hk ▸ rhs_refs hr.2 h7)
  | .sub r, w, i, p, hr, h => by
    unfold DCore.WF at hr
    obtain ⟨nd, k, h1, h2, hk, h7⟩ := h.sub
    unfold DCore.refs
    exact .node h1 (by simp [h2]) (hk ▸ rhs_refs hr h7)
  | .term t, w, i, p, hr, h => by
    have h := h.at_
    unfold DCore.tree at h
    unfold DCore.refs
    exact .none term_noRef h
  | .str s, w, i, p, hr, h => by
    have h := h.at_
    unfold DCore.tree at h
    unfold DCore.refs
    exact .none str_noRef h
  | .ref nm, w, i, p, hr, h => by
    unfold DCore.WF at hr
    obtain ⟨nd, h1, h2, h3, h4⟩ := h.ref hr
    unfold DCore.refs
    intro s
    have : Conv (fun n => getRulesReferencedByRule tree src n nd (setInsert s nm)) (.ok (setInsert s nm)) :=
      Conv.succ refs_zero ((Conv.ok _).congr fun n => by rw [refs_unfold, h3]; rfl)
    refine this.congr fun n => ?_
    simp only [List.foldlM_cons, List.foldlM_nil, refStep, h1, Out.bind_ok, if_pos h2, h4]
    cases getRulesReferencedByRule tree src n nd (setInsert s nm) <;> rfl
end

/-! ### Leftmost references -/

theorem lm_zero {nd : Node Dsl} {s : List Bytes} : leftMostOf tree src 0 nd s = .oof := by
  unfold leftMostOf; rfl
theorem lm_succ {n : Nat} {nd : Node Dsl} {s : List Bytes} :
    leftMostOf tree src (n + 1) nd s = leftMostLoop tree src (leftMostOf tree src n) nd.children nd.children s := by
  rw [leftMostOf]

/-- The node's leftmost references. -/
def LeftsOf (tree : Publisher Dsl) (src : Bytes) (nd : Node Dsl) (l : List Bytes) : Prop :=
  ∀ s, Conv (fun n => leftMostOf tree src n nd s) (.ok (setAdd s l))

theorem LeftsOf.transparent {nd ndk : Node Dsl} {k : Nat} {ks : List Nat} {l} (hk : nd.children = k :: ks) (h1 : tree.getNode k = .ok ndk)
    (h2 : isTransparent ndk.rule = true) (h : LeftsOf tree src ndk l) : LeftsOf tree src nd l := by
  intro s
  refine Conv.succ lm_zero ((h s).congr fun n => ?_)
  rw [lm_succ, hk]
  have n1 : ndk.rule ≠ .r_ordered_choice := by intro e; rw [e] at h2; cases h2
  have n2 : ndk.rule ≠ .r_sequence := by intro e; rw [e] at h2; cases h2
  simp only [leftMostLoop, h1, Out.bind_ok, if_neg n1, if_neg n2, h2, if_true]

theorem LeftsOf.opaque {nd ndk : Node Dsl} {k : Nat} (hk : nd.children = [k]) (h1 : tree.getNode k = .ok ndk)
    (h2 : ndk.rule ≠ .r_ordered_choice ∧ ndk.rule ≠ .r_sequence ∧ isTransparent ndk.rule = false ∧ ndk.rule ≠ .r_var_name_ref) :
    LeftsOf tree src nd [] := by
  intro s
  refine Conv.succ lm_zero ((Conv.ok _).congr fun n => ?_)
  rw [lm_succ, hk]
  simp only [leftMostLoop, h1, Out.bind_ok, if_neg h2.1, if_neg h2.2.1, h2.2.2.1, if_neg h2.2.2.2]
  rfl

mutual
theorem rhs_lefts : ∀ {r : DRhs} {i p : Nat} {nd : Node Dsl}, r.WF → Spot tree src i p (r.tree p) r.text → tree.getNode i = .ok nd →
    LeftsOf tree src nd r.lefts
  | .atom w x, i, p, nd', hr, h, hi => by
    unfold DRhs.WF at hr
    obtain ⟨nd, k, h1, h2, hk, h7⟩ := h.atom
    cases h1.symm.trans hi
    unfold DRhs.lefts
    obtain ⟨s, kk, ht⟩ := x.tree_rule (p + w.length)
    obtain ⟨ndk, g1, g2, _⟩ := At.rule (ht ▸ h7.at_)
    exact .transparent hk g1 (by rw [g2]; rfl) (atom_lefts hr.2 h7 g1)
  | .chain .seq w x xs, i, p, nd', hr, h, hi => by
    unfold DRhs.WF at hr
    obtain ⟨nd, k, ndk, kx, kxs, h1, h2, hk, g1, g2, hkk, a1, a2⟩ := h.chain
    cases h1.symm.trans hi
    unfold DRhs.lefts
    obtain ⟨s, kk, ht⟩ := x.tree_rule (p + w.length)
    obtain ⟨ndx, x1, x2, _⟩ := At.rule (ht ▸ a1.at_)
    have hx : LeftsOf tree src ndk x.lefts := .transparent hkk x1 (by rw [x2]; rfl) (atom_lefts hr.2.1 a1 x1)
    intro s
    have g2 : ndk.rule = .r_sequence := g2
    refine Conv.succ lm_zero ((hx s).congr fun n => ?_)
    rw [lm_succ, hk]
    simp only [leftMostLoop, g1, Out.bind_ok, g2, if_true, sequenceSkipLoop]
    rfl
  | .chain .choice w x xs, i, p, nd', hr, h, hi => by
    unfold DRhs.WF at hr
    obtain ⟨nd, k, ndk, kx, kxs, h1, h2, hk, g1, g2, hkk, a1, a2⟩ := h.chain
    cases h1.symm.trans hi
    unfold DRhs.lefts
    obtain ⟨s, kk, ht⟩ := x.tree_rule (p + w.length)
    obtain ⟨ndx, x1, x2, _⟩ := At.rule (ht ▸ a1.at_)
    have hx := atom_lefts hr.2.1 a1 x1
    intro s
    have g2 : ndk.rule = .r_ordered_choice := g2
    obtain ⟨ne, hxs⟩ := atoms_lefts hr.2.2 a2
    have ht : (kx :: kxs).take ((kx :: kxs).length - 1) = kx :: kxs.take (kxs.length - 1) := by
      cases kxs with
      | nil => exact absurd rfl ne
      | cons y ys => simp
    have hh : ∀ n, leftMostOf tree src (n + 1) nd' s = (leftMostOf tree src n ndx s >>= fun acc =>
        (kxs.take (kxs.length - 1)).foldlM (fun acc key => tree.getNode key >>= fun nd => leftMostOf tree src n nd acc) acc) := by
      intro n
      rw [lm_succ, hk]
      simp only [leftMostLoop, g1, Out.bind_ok, g2, if_true, hkk, ht, List.foldlM_cons, x1]
      rw [if_neg (by simp)]
    refine Conv.succ lm_zero (Conv.congr ?_ hh)
    rw [setAdd_append]
    exact Conv.bind_ok (hx s) (hxs _)
theorem atoms_lefts : ∀ {xs : DAtoms} {ks : List Nat} {o : ChainOp} {p : Nat}, xs.WF → Spots tree src ks o p xs →
    ks ≠ [] ∧ ∀ s, Conv (fun n => (ks.take (ks.length - 1)).foldlM (fun acc key => tree.getNode key >>= fun nd => leftMostOf tree src n nd acc) s)
      (.ok (setAdd s xs.lefts))
  | .one w x, ks, o, p, hr, h => by
    unfold DAtoms.WF at hr
    obtain ⟨k, rfl, h⟩ := h.one
    unfold DAtoms.lefts
    exact ⟨by simp, fun s => Conv.ok _⟩
  | .cons w x xs, ks, o, p, hr, h => by
    unfold DAtoms.WF at hr
    obtain ⟨k, ks, rfl, h, h'⟩ := h.cons
    unfold DAtoms.lefts
    obtain ⟨ne, hxs⟩ := atoms_lefts hr.2.2 h'
    obtain ⟨s, kk, ht⟩ := x.tree_rule (p + 1 + w.length)
    obtain ⟨ndx, x1, x2, _⟩ := At.rule (ht ▸ h.at_)
    have hx := atom_lefts hr.2.1 h x1
    have ht : (k :: ks).take ((k :: ks).length - 1) = k :: ks.take (ks.length - 1) := by
      cases ks with
      | nil => exact absurd rfl ne
      | cons y ys => simp
    refine ⟨by simp, fun s => ?_⟩
    rw [ht, setAdd_append]
    simp only [List.foldlM_cons, x1, Out.bind_ok]
    exact Conv.bind_ok (hx s) (hxs _)
theorem atom_lefts : ∀ {r : DAtom} {i p : Nat} {nd : Node Dsl}, r.WF → Spot tree src i p (r.tree p) r.text → tree.getNode i = .ok nd →
    LeftsOf tree src nd r.lefts
  | .plain m, i, p, nd', hr, h, hi => by
    unfold DAtom.WF at hr
    obtain ⟨nd, k, h1, h2, hk, h7⟩ := h.plain
    cases h1.symm.trans hi
    unfold DAtom.lefts
    obtain ⟨s, kk, ht⟩ := m.tree_rule p
    obtain ⟨ndk, g1, g2, _⟩ := At.rule (ht ▸ h7.at_)
    exact .transparent hk g1 (by rw [g2]; rfl) (nuc_lefts hr.1 h7 g1)
  | .pre o m, i, p, nd', hr, h, hi => by
    unfold DAtom.WF at hr
    obtain ⟨nd, k, ndk, j, h1, h2, hk, g1, g2, hj, h7⟩ := h.pre
    cases h1.symm.trans hi
    unfold DAtom.lefts
    obtain ⟨s, kk, ht⟩ := m.tree_rule (p + 1)
    obtain ⟨ndj, j1, j2, _⟩ := At.rule (ht ▸ h7.at_)
    exact .transparent hk g1 (by rw [g2]; cases o <;> rfl) (.transparent hj j1 (by rw [j2]; rfl) (nuc_lefts hr h7 j1))
  | .post .plus m w, i, p, nd', hr, h, hi => by
    unfold DAtom.WF at hr
    obtain ⟨nd, k, ndk, j, h1, h2, hk, g1, g2, hj, h7⟩ := h.post
    cases h1.symm.trans hi
    unfold DAtom.lefts
    obtain ⟨s, kk, ht⟩ := m.tree_rule p
    obtain ⟨ndj, j1, j2, _⟩ := At.rule (ht ▸ h7.at_)
    exact .transparent hk g1 (by rw [g2]; rfl) (.transparent hj j1 (by rw [j2]; rfl) (nuc_lefts hr.1 h7 j1))
  | .post .star m w, i, p, nd', hr, h, hi => by
    obtain ⟨nd, k, ndk, j, h1, h2, hk, g1, g2, hj, h7⟩ := h.post
    cases h1.symm.trans hi
    unfold DAtom.lefts
    exact .opaque hk g1 (by rw [g2]; decide)
  | .post .opt m w, i, p, nd', hr, h, hi => by
    obtain ⟨nd, k, ndk, j, h1, h2, hk, g1, g2, hj, h7⟩ := h.post
    cases h1.symm.trans hi
    unfold DAtom.lefts
    exact .opaque hk g1 (by rw [g2]; decide)
theorem nuc_lefts : ∀ {r : DNuc} {i p : Nat} {nd : Node Dsl}, r.WF → Spot tree src i p (r.tree p) r.text → tree.getNode i = .ok nd →
    LeftsOf tree src nd r.lefts
  | .mk c w, i, p, nd', hr, h, hi => by
    unfold DNuc.WF at hr
    obtain ⟨nd, k, h1, h2, hk, h7⟩ := h.nuc hr.2
    cases h1.symm.trans hi
    unfold DNuc.lefts
    cases c with
    | range w0 w1 lo hi w2 =>
      have h7 := h7.at_
      unfold DCore.tree at h7
      unfold DCore.lefts
      obtain ⟨ndk, g1, g2, _⟩ := At.rule h7
      exact .opaque hk g1 (by rw [g2]; decide)
    | term t =>
      have h7 := h7.at_
      unfold DCore.tree at h7
      unfold DCore.lefts
      obtain ⟨ndk, g1, g2⟩ : ∃ nd, tree.getNode k = .ok nd ∧ nd.rule = .r_terminal := by
        cases t with
        | chr c => obtain ⟨a, b, c, _⟩ := At.rule h7; exact ⟨a, b, c⟩
        | esc c => obtain ⟨a, b, c, _⟩ := At.rule h7; exact ⟨a, b, c⟩
        | eps => obtain ⟨a, b, c, _⟩ := At.rule h7; exact ⟨a, b, c⟩
      exact .opaque hk g1 (by rw [g2]; decide)
    | str s =>
      have h7 := h7.at_
      unfold DCore.tree at h7
      unfold DCore.lefts
      obtain ⟨ndk, g1, g2⟩ : ∃ nd, tree.getNode k = .ok nd ∧ nd.rule = .r_stringterminal := by
        cases s with
        | quoted c => obtain ⟨a, b, c, _⟩ := At.rule h7; exact ⟨a, b, c⟩
        | hex c => obtain ⟨a, b, c, _⟩ := At.rule h7; exact ⟨a, b, c⟩
        | int c => obtain ⟨a, b, c, _⟩ := At.rule h7; exact ⟨a, b, c⟩
      exact .opaque hk g1 (by rw [g2]; decide)
    | ref nm =>
      have hwf := hr.1
      unfold DCore.WF at hwf
      obtain ⟨ndk, g1, g2, g3, g4⟩ := h7.ref hwf
      unfold DCore.lefts
      intro s
      refine Conv.succ lm_zero ((Conv.ok _).congr fun n => ?_)
      rw [lm_succ, hk]
      simp only [leftMostLoop, g1, Out.bind_ok, g2, g4]
      rfl
    | sub r =>
      have hwf := hr.1
      unfold DCore.WF at hwf
      obtain ⟨ndk, j, g1, g2, hj, h8⟩ := h7.sub
      unfold DCore.lefts
      obtain ⟨s, kk, ht⟩ := r.tree_rule (p + 1)
      obtain ⟨ndj, j1, j2, _⟩ := At.rule (ht ▸ h8.at_)
      exact .transparent hk g1 (by rw [g2]; rfl) (.transparent hj j1 (by rw [j2]; rfl) (rhs_lefts hwf h8 j1))
    | hook nm r =>
      have hwf := hr.1
      unfold DCore.WF at hwf
      obtain ⟨ndk, j, g1, g2, hj, h8⟩ := h7.hook
      unfold DCore.lefts
      obtain ⟨s, kk, ht⟩ := r.tree_rule (p + nm.length + 1)
      obtain ⟨ndj, j1, j2, _⟩ := At.rule (ht ▸ h8.at_)
      exact .transparent hk g1 (by rw [g2]; rfl) (.transparent hj j1 (by rw [j2]; rfl) (rhs_lefts hwf.2 h8 j1))
end

end
end PP.Gen
