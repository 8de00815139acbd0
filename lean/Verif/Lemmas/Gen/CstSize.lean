import Verif.Spec.Cst
import Verif.Lemmas.Pack

/-! # A written grammar has at most eight tree nodes per byte -/
namespace PP.Gen
open Tree.size (sizeL)

theorem sizeL_leaves (r : Dsl) (p n : Nat) : sizeL (leaves r p n) = n := by
  induction n generalizing p with
  | zero => rfl
  | succ n ih => simp [leaves, sizeL, Tree.size, ih]; omega

theorem size_node (r : Dsl) (s : Option (Nat × Nat)) (ks : List (Tree Dsl)) : (Tree.node r s ks).size = 1 + sizeL ks := by
  rw [Tree.size]
theorem sizeL_nil' : sizeL ([] : List (Tree Dsl)) = 0 := rfl
theorem sizeL_cons' (t : Tree Dsl) (ts : List (Tree Dsl)) : sizeL (t :: ts) = t.size + sizeL ts := rfl

theorem hex_size (p : Nat) (ds : Bytes) : (hexTree p ds).size = 1 + ds.length := by
  simp [hexTree, size_node, sizeL_leaves]
theorem int_size (p : Nat) {ds : Bytes} (h : IsInt ds) : (intTree p ds).size = 1 + ds.length ∧ 1 ≤ ds.length := by
  cases ds with
  | nil => exact absurd h (by simp [IsInt])
  | cons c cs => simp [intTree, size_node, sizeL_leaves, sizeL_cons', sizeL_nil']; omega
theorem term_size (p : Nat) (t : DTerm) : (t.tree p).size ≤ t.text.length + 1 ∧ 2 ≤ t.text.length := by
  cases t <;> simp [DTerm.tree, DTerm.text, size_node, sizeL_leaves, sizeL_cons', sizeL_nil', Tree.sizeL_append]
theorem bound_size (p : Nat) {b : DBound} (h : b.WF) : (b.tree p).size ≤ b.text.length + 1 := by
  cases b with
  | term t => exact (term_size p t).1
  | int ds => have := int_size p (ds := ds) h; simp [DBound.tree, DBound.text]; omega
  | hex ds => simp [DBound.tree, DBound.text, hexText, hex_size]; omega
theorem str_size (p : Nat) {s : DStr} (h : s.WF) : (s.tree p).size ≤ s.text.length + 2 ∧ 1 ≤ s.text.length := by
  cases s with
  | quoted s => simp [DStr.tree, DStr.text, size_node, sizeL_leaves]; omega
  | hex ds => simp [DStr.tree, DStr.text, hexText, size_node, sizeL_cons', sizeL_nil', hex_size]; omega
  | int ds =>
    have := int_size p (ds := ds) h
    simp [DStr.tree, DStr.text, size_node, sizeL_cons', sizeL_nil']; omega

mutual
theorem rhs_size : ∀ (r : DRhs), r.WF → ∀ p, (r.tree p).size ≤ 8 * r.text.length
  | .atom w a, h, p => by
    have := atom_size a h.2 (p + w.length)
    simp only [DRhs.tree, DRhs.text, size_node, sizeL_cons', sizeL_nil', List.length_append]; omega
  | .chain o w a as, h, p => by
    have h1 := atom_size a h.2.1 (p + w.length)
    have h2 := atoms_size as h.2.2 o (p + w.length + a.text.length)
    simp only [DRhs.tree, DRhs.text, size_node, sizeL_cons', sizeL_nil', List.length_append]; omega
theorem atoms_size : ∀ (as : DAtoms), as.WF → ∀ o p, sizeL (as.trees o p) ≤ 8 * (as.text o).length
  | .one w a, h, o, p => by
    have := atom_size a h.2 (p + 1 + w.length)
    simp only [DAtoms.trees, DAtoms.text, sizeL_cons', sizeL_nil', List.length_append, List.length_cons]; omega
  | .cons w a as, h, o, p => by
    have h1 := atom_size a h.2.1 (p + 1 + w.length)
    have h2 := atoms_size as h.2.2 o (p + 1 + w.length + a.text.length)
    simp only [DAtoms.trees, DAtoms.text, sizeL_cons', List.length_append, List.length_cons]; omega
theorem atom_size : ∀ (a : DAtom), a.WF → ∀ p, (a.tree p).size + 2 ≤ 8 * a.text.length
  | .plain n, h, p => by
    have := nuc_size n h.1 p
    simp only [DAtom.tree, DAtom.text, size_node, sizeL_cons', sizeL_nil']; omega
  | .pre o n, h, p => by
    have := nuc_size n h (p + 1)
    simp only [DAtom.tree, DAtom.text, size_node, sizeL_cons', sizeL_nil', List.length_cons]; omega
  | .post o n w, h, p => by
    have := nuc_size n h.1 p
    simp only [DAtom.tree, DAtom.text, size_node, sizeL_cons', sizeL_nil', List.length_cons, List.length_append]; omega
theorem nuc_size : ∀ (n : DNuc), n.WF → ∀ p, (n.tree p).size + 4 ≤ 8 * n.text.length
  | .mk c w, h, p => by
    have := core_size c h.1 p w
    simp only [DNuc.tree, DNuc.text, size_node, sizeL_cons', sizeL_nil', List.length_append]; omega
theorem core_size : ∀ (c : DCore), c.WF → ∀ p w, (c.tree p w).size + 5 ≤ 8 * c.text.length
  | .range w0 w1 lo hi w2, h, p, w => by
    have h1 := bound_size (p + w0.length + 1 + w1.length) h.2.2.1
    have h2 := bound_size (p + w0.length + 1 + w1.length + lo.text.length + 2) h.2.2.2.1
    simp only [DCore.tree, DCore.text, size_node, sizeL_cons', sizeL_nil', List.length_append, List.length_cons]; omega
  | .hook name r, h, p, w => by
    have := rhs_size r h.2 (p + name.length + 1)
    simp only [DCore.tree, DCore.text, size_node, sizeL_cons', sizeL_nil', List.length_append, List.length_cons]; omega
  | .sub r, h, p, w => by
    have := rhs_size r h (p + 1)
    simp only [DCore.tree, DCore.text, size_node, sizeL_cons', sizeL_nil', List.length_append, List.length_cons]; omega
  | .term t, h, p, w => by
    have := term_size p t
    simp only [DCore.tree, DCore.text]; omega
  | .str s, h, p, w => by
    have := str_size p (s := s) h
    simp only [DCore.tree, DCore.text]; omega
  | .ref name, h, p, w => by
    simp only [DCore.tree, DCore.text, size_node, sizeL_nil', List.length_append, List.length_cons]; omega
end

theorem comments_size (cs : List DComment) (p : Nat) : sizeL (commentsTree p cs) ≤ (commentsText cs).length := by
  induction cs generalizing p with
  | nil => simp [commentsTree, sizeL_nil']
  | cons c cs ih =>
    have := ih (p + c.text.length)
    simp only [commentsTree, commentsText, sizeL_cons', List.length_append, DComment.tree, size_node, sizeL_leaves]
    simp only [DComment.text, List.length_cons, List.length_append] at this ⊢
    omega

theorem strip_size (r : DRhs) (h : r.WF) (p : Nat) : (r.strip.tree p).size ≤ 8 * r.text.length := by
  cases r with
  | atom w a =>
    have := rhs_size (.atom [] a) ⟨by simp [IsWs], h.2⟩ p
    simp only [DRhs.text, List.length_append, DRhs.strip] at this ⊢; simp at this; omega
  | chain o w a as =>
    have := rhs_size (.chain o [] a as) ⟨by simp [IsWs], h.2⟩ p
    simp only [DRhs.text, List.length_append, DRhs.strip] at this ⊢; simp at this; omega

theorem rule_size {r : DRule} (h : r.WF) (p : Nat) : (r.tree p).size ≤ 8 * r.text.length := by
  have h1 := strip_size r.rhs h.2.2.1 (r.rhsStart p)
  have h2 := comments_size r.comments (r.rhsStart p + r.rhs.strip.text.length + 1 + r.w.length)
  have h3 : (r.lhsTree p).size ≤ 4 := by
    unfold DRule.lhsTree
    split <;> simp [size_node, sizeL_cons', sizeL_nil']
  simp only [DRule.tree, size_node, sizeL_cons', DRule.text, List.length_cons, List.length_append]
  omega

theorem trees_size {g : DGrammar} (h : g.WF) (p : Nat) : sizeL (g.trees p) ≤ 8 * g.text.length := by
  induction g generalizing p with
  | nil => simp [DGrammar.trees, sizeL_nil']
  | cons r g ih =>
    have h1 := rule_size (h r (by simp)) p
    have h2 := ih (fun x hx => h x (by simp [hx])) (p + r.text.length)
    simp only [DGrammar.trees, DGrammar.text, sizeL_cons', List.length_append]
    omega

end PP.Gen
