import Verif.Spec.Rs.LowHex
import Verif.Lemmas.Layout
import Verif.Lemmas.Gen.CompAll
import Verif.Lemmas.Gen.CstSize

/-! # The nodes of the tree of a grammar: positions, widths, strings -/
namespace PP.Gen
open Tree.size (sizeL)

/-- A property of all nodes of a forest. -/
def AllL (P : Dsl → Option (Nat × Nat) → List (Tree Dsl) → Prop) : List (Tree Dsl) → Prop
  | [] => True
  | .node r s kids :: ts => P r s kids ∧ AllL P kids ∧ AllL P ts

section
variable {P : Dsl → Option (Nat × Nat) → List (Tree Dsl) → Prop}

theorem AllL.nil : AllL P [] := by simp only [AllL]
theorem AllL.append {ts us : List (Tree Dsl)} (h : AllL P ts) (h' : AllL P us) : AllL P (ts ++ us) := by
  induction ts with
  | nil => exact h'
  | cons t ts ih =>
    obtain ⟨r, s, k⟩ := t
    simp only [AllL, List.cons_append] at h ⊢
    exact ⟨h.1, h.2.1, ih h.2.2⟩
theorem AllL.cons {t : Tree Dsl} {ts : List (Tree Dsl)} (h : AllL P [t]) (h' : AllL P ts) : AllL P (t :: ts) := AllL.append (ts := [t]) h h'
theorem AllL.one {r s kids} (h : P r s kids) (h' : AllL P kids) : AllL P [.node r s kids] := by
  simp only [AllL]; exact ⟨h, h', trivial⟩
end

/-! ## The table of nodes of a forest -/

theorem spanOf_layout (k : Nat) (r : Dsl) (s : Option (Nat × Nat)) (cs : List Nat) : (⟨k, r, (s.getD (0, 0)).1, (s.getD (0, 0)).2, s.isSome, cs⟩ : Node Dsl).spanOf = s := by
  cases s <;> rfl

theorem layout_unf {nodes : List (Node Dsl)} (k : Nat) (ts : List (Tree Dsl)) (h : ∀ i nd, (Tree.layout k ts)[i]? = some nd → nodes[k + i]? = some nd) :
    UnfL nodes (Tree.roots k ts) ts := by
  induction k, ts using Tree.layout.induct with
  | case1 k => exact .nil
  | case2 k r s kids ts ih1 ih2 =>
    have l1 := Tree.layout_length (k + 1) kids
    rw [Tree.layout] at h
    have e0 := h 0 _ rfl
    have u1 := ih1 fun i nd hi => by
      have := h (i + 1) nd (by
        rw [List.getElem?_cons_succ, List.getElem?_append_left (by have := List.getElem?_eq_some_iff.1 hi; obtain ⟨q, _⟩ := this; exact q)]; exact hi)
      rw [show k + 1 + i = k + (i + 1) by omega]; exact this
    have u2 := ih2 fun i nd hi => by
      have := h (i + sizeL kids + 1) nd (by
        rw [List.getElem?_cons_succ, List.getElem?_append_right (by omega), l1, Nat.add_sub_cancel]; exact hi)
      rw [show k + 1 + sizeL kids + i = k + (i + sizeL kids + 1) by omega]; exact this
    rw [Tree.roots]
    have := UnfL.cons (nodes := nodes) (k := k) e0 u1 (ts := ts) (ks := Tree.roots (k + (Tree.node r s kids).size) ts) (by
      rw [Tree.size]; rw [show k + (1 + sizeL kids) = k + 1 + sizeL kids by omega]; exact u2)
    rw [spanOf_layout] at this
    exact this

theorem length_le_sizeL (kids : List (Tree Dsl)) : kids.length ≤ sizeL kids := by
  induction kids with
  | nil => simp
  | cons t ts ih => obtain ⟨r, s, c⟩ := t; rw [sizeL_cons', Tree.size, List.length_cons]; omega

theorem layout_all {P} {nodes : List (Node Dsl)} (k : Nat) (ts : List (Tree Dsl)) (h : ∀ i nd, (Tree.layout k ts)[i]? = some nd → nodes[k + i]? = some nd)
    (hP : AllL P ts) : ∀ nd ∈ Tree.layout k ts, ∃ kids, P nd.rule nd.spanOf kids ∧ UnfL nodes nd.children kids ∧ nd.children.length ≤ sizeL ts ∧ (nd.spanOf = none → nd.start = 0) := by
  induction k, ts using Tree.layout.induct with
  | case1 k => intro nd h; simp [Tree.layout] at h
  | case2 k r s kids ts ih1 ih2 =>
    have l1 := Tree.layout_length (k + 1) kids
    rw [Tree.layout] at h
    simp only [AllL] at hP
    have h1 : ∀ i nd, (Tree.layout (k + 1) kids)[i]? = some nd → nodes[k + 1 + i]? = some nd := fun i nd hi => by
      have := h (i + 1) nd (by
        rw [List.getElem?_cons_succ, List.getElem?_append_left (by have := List.getElem?_eq_some_iff.1 hi; obtain ⟨q, _⟩ := this; exact q)]; exact hi)
      rw [show k + 1 + i = k + (i + 1) by omega]; exact this
    have h2 : ∀ i nd, (Tree.layout (k + 1 + sizeL kids) ts)[i]? = some nd → nodes[k + 1 + sizeL kids + i]? = some nd := fun i nd hi => by
      have := h (i + sizeL kids + 1) nd (by
        rw [List.getElem?_cons_succ, List.getElem?_append_right (by omega), l1, Nat.add_sub_cancel]; exact hi)
      rw [show k + 1 + sizeL kids + i = k + (i + sizeL kids + 1) by omega]; exact this
    intro nd hnd
    rw [Tree.layout, List.mem_cons, List.mem_append] at hnd
    rw [sizeL_cons', Tree.size]
    rcases hnd with rfl | hnd | hnd
    · refine ⟨kids, ?_, layout_unf _ _ h1, ?_, ?_⟩
      · rw [spanOf_layout]; exact hP.1
      · show (Tree.roots (k + 1) kids).length ≤ _
        rw [Tree.roots_length]
        have := length_le_sizeL kids
        omega
      · rw [spanOf_layout]; rintro rfl; rfl
    · obtain ⟨c, a, b, d, f⟩ := ih1 h1 hP.2.1 nd hnd
      exact ⟨c, a, b, by omega, f⟩
    · obtain ⟨c, a, b, d, f⟩ := ih2 h2 hP.2.2 nd hnd
      exact ⟨c, a, b, by omega, f⟩

/-! ## The trees of a grammar -/

/-- A node starts inside of the text, and a string terminal is one of the grammar. -/
def Inside (src : Bytes) (r : Dsl) (s : Option (Nat × Nat)) (kids : List (Tree Dsl)) : Prop :=
  (∃ a b, s = some (a, b) ∧ a ≤ src.length) ∧
    (r = .r_stringterminal → ∃ a d, d.WF ∧ DStr.Low d ∧ Tree.node r s kids = d.tree a ∧ Cut ⟨src⟩ a (a + d.text.length) d.text)

section
variable {src : Bytes}

theorem inside {r : Dsl} {a b : Nat} {kids : List (Tree Dsl)} (ha : a ≤ src.length) (hr : r ≠ .r_stringterminal) : Inside src r (some (a, b)) kids :=
  ⟨⟨a, b, rfl, ha⟩, fun h => absurd h hr⟩

theorem cut_le {p q : Nat} {s : Bytes} (h : Cut ⟨src⟩ p q s) : p + s.length ≤ src.length := by
  obtain ⟨t, _, rfl, h⟩ := h; exact h

theorem all_leaves {r : Dsl} (hr : r ≠ .r_stringterminal) (n p : Nat) (h : p + n ≤ src.length) : AllL (Inside src) (leaves r p n) := by
  induction n generalizing p with
  | zero => exact AllL.nil
  | succ n ih => exact .cons (.one (inside (by omega) hr) AllL.nil) (ih (p + 1) (by omega))

theorem all_hex {p : Nat} {ds : Bytes} (h : p + 2 + ds.length ≤ src.length) : AllL (Inside src) [hexTree p ds] :=
  .one (inside (by omega) (by decide)) (all_leaves (by decide) _ _ h)
theorem all_int {p : Nat} {ds : Bytes} (hi : IsInt ds) (h : p + ds.length ≤ src.length) : AllL (Inside src) [intTree p ds] := by
  cases ds with
  | nil => exact absurd hi (by simp [IsInt])
  | cons c cs =>
    simp only [List.length_cons] at h
    exact .one (inside (by omega) (by decide)) (.cons (.one (inside (by omega) (by decide)) AllL.nil) (all_leaves (by decide) _ _ (by simp; omega)))
theorem all_term {p : Nat} {t : DTerm} (h : p + t.text.length ≤ src.length) : AllL (Inside src) [t.tree p] := by
  cases t <;> simp only [DTerm.text, List.length_cons, List.length_nil] at h <;> refine .one (inside (by omega) (by decide)) ?_
  · exact all_leaves (by decide) _ _ (by omega)
  · exact all_leaves (by decide) _ _ (by omega)
  · exact .append (all_leaves (by decide) _ _ (by omega)) (.one (inside (by omega) (by decide)) AllL.nil)
theorem all_bound {p : Nat} {b : DBound} (hb : b.WF) (h : p + b.text.length ≤ src.length) : AllL (Inside src) [b.tree p] := by
  cases b with
  | term t => exact all_term h
  | int ds => exact all_int hb h
  | hex ds =>
    simp only [DBound.text, hexText, List.length_cons] at h
    exact all_hex (by omega)
theorem all_str {p q : Nat} {d : DStr} (hd : d.WF) (hl : d.Low) (h : Cut ⟨src⟩ p q d.text) : AllL (Inside src) [d.tree p] := by
  have hle := cut_le h
  have hc : Cut ⟨src⟩ p (p + d.text.length) d.text := by rw [← h.end]; exact h
  cases d with
  | quoted s =>
    simp only [DStr.text, List.length_cons, List.length_append, List.length_nil] at hle
    exact .one ⟨⟨_, _, rfl, by omega⟩, fun _ => ⟨p, _, hd, hl, rfl, hc⟩⟩ (all_leaves (by decide) _ _ (by omega))
  | hex ds =>
    simp only [DStr.text, hexText, List.length_cons] at hle
    exact .one ⟨⟨_, _, rfl, by omega⟩, fun _ => ⟨p, _, hd, hl, rfl, hc⟩⟩ (all_hex (by omega))
  | int ds =>
    simp only [DStr.text] at hle
    exact .one ⟨⟨_, _, rfl, by omega⟩, fun _ => ⟨p, _, hd, hl, rfl, hc⟩⟩ (all_int hd hle)

theorem ChainOp.rule_ne (o : ChainOp) : o.rule ≠ .r_stringterminal := by cases o <;> decide
theorem PreOp.rule_ne (o : PreOp) : o.rule ≠ .r_stringterminal := by cases o <;> decide
theorem PostOp.rule_ne (o : PostOp) : o.rule ≠ .r_stringterminal := by cases o <;> decide

mutual
theorem all_rhs : ∀ (r : DRhs), r.WF → r.Low → ∀ {p q}, Cut ⟨src⟩ p q r.text → AllL (Inside src) [r.tree p]
  | .atom w a, h, hl, p, q, hc => by
    unfold DRhs.WF at h
    unfold DRhs.Low at hl
    unfold DRhs.tree
    have hle := cut_le hc
    unfold DRhs.text at hc
    exact .one (inside (by omega) (by decide)) (all_atom a h.2 hl hc.split.2)
  | .chain o w a as, h, hl, p, q, hc => by
    unfold DRhs.WF at h
    unfold DRhs.Low at hl
    unfold DRhs.tree
    have hle := cut_le hc
    unfold DRhs.text at hc hle
    simp only [List.length_append] at hle
    exact .one (inside (by omega) (by decide)) (.one (inside (by omega) o.rule_ne)
      (.cons (all_atom a h.2.1 hl.1 hc.split.2.split.1) (all_atoms as h.2.2 hl.2 o hc.split.2.split.2)))
theorem all_atoms : ∀ (as : DAtoms), as.WF → as.Low → ∀ o {p q}, Cut ⟨src⟩ p q (as.text o) → AllL (Inside src) (as.trees o p)
  | .one w a, h, hl, o, p, q, hc => by
    unfold DAtoms.WF at h
    unfold DAtoms.Low at hl
    unfold DAtoms.trees
    unfold DAtoms.text at hc
    exact all_atom a h.2 hl hc.uncons.2.split.2
  | .cons w a as, h, hl, o, p, q, hc => by
    unfold DAtoms.WF at h
    unfold DAtoms.Low at hl
    unfold DAtoms.trees
    unfold DAtoms.text at hc
    exact .cons (all_atom a h.2.1 hl.1 hc.uncons.2.split.2.split.1) (all_atoms as h.2.2 hl.2 o hc.uncons.2.split.2.split.2)
theorem all_atom : ∀ (a : DAtom), a.WF → a.Low → ∀ {p q}, Cut ⟨src⟩ p q a.text → AllL (Inside src) [a.tree p]
  | .plain n, h, hl, p, q, hc => by
    unfold DAtom.WF at h
    unfold DAtom.Low at hl
    unfold DAtom.tree
    have hle := cut_le hc
    unfold DAtom.text at hc
    exact .one (inside (by omega) (by decide)) (all_nuc n h.1 hl hc)
  | .pre o n, h, hl, p, q, hc => by
    unfold DAtom.WF at h
    unfold DAtom.Low at hl
    unfold DAtom.tree
    have hle := cut_le hc
    unfold DAtom.text at hc
    exact .one (inside (by omega) (by decide)) (.one (inside (by omega) o.rule_ne) (all_nuc n h hl hc.uncons.2))
  | .post o n w, h, hl, p, q, hc => by
    unfold DAtom.WF at h
    unfold DAtom.Low at hl
    unfold DAtom.tree
    have hle := cut_le hc
    unfold DAtom.text at hc
    exact .one (inside (by omega) (by decide)) (.one (inside (by omega) o.rule_ne) (all_nuc n h.1 hl hc.split.1))
theorem all_nuc : ∀ (n : DNuc), n.WF → n.Low → ∀ {p q}, Cut ⟨src⟩ p q n.text → AllL (Inside src) [n.tree p]
  | .mk c w, h, hl, p, q, hc => by
    unfold DNuc.WF at h
    unfold DNuc.Low at hl
    unfold DNuc.tree
    have hle := cut_le hc
    unfold DNuc.text at hc
    exact .one (inside (by omega) (by decide)) (all_core c h.1 hl hc.split.1)
theorem all_core : ∀ (c : DCore), c.WF → c.Low → ∀ {p q w}, Cut ⟨src⟩ p q c.text → AllL (Inside src) [c.tree p w]
  | .range w0 w1 lo hi w2, h, hl, p, q, w, hc => by
    unfold DCore.WF at h
    unfold DCore.tree
    have hle := cut_le hc
    unfold DCore.text at hle
    simp only [List.length_append, List.length_cons] at hle
    exact .one (inside (by omega) (by decide)) (.cons (all_bound h.2.2.1 (by omega)) (all_bound h.2.2.2.1 (by omega)))
  | .hook name r, h, hl, p, q, w, hc => by
    unfold DCore.WF at h
    unfold DCore.Low at hl
    unfold DCore.tree
    have hle := cut_le hc
    unfold DCore.text at hc
    exact .one (inside (by omega) (by decide)) (all_rhs r h.2 hl hc.split.2.uncons.2.split.1)
  | .sub r, h, hl, p, q, w, hc => by
    unfold DCore.WF at h
    unfold DCore.Low at hl
    unfold DCore.tree
    have hle := cut_le hc
    unfold DCore.text at hc
    exact .one (inside (by omega) (by decide)) (all_rhs r h hl hc.uncons.2.split.1)
  | .term t, h, hl, p, q, w, hc => by
    unfold DCore.tree
    have hle := cut_le hc
    unfold DCore.text at hle
    exact all_term hle
  | .str s, h, hl, p, q, w, hc => by
    unfold DCore.WF at h
    unfold DCore.Low at hl
    unfold DCore.tree
    unfold DCore.text at hc
    exact all_str h hl hc
  | .ref name, h, hl, p, q, w, hc => by
    unfold DCore.tree
    have hle := cut_le hc
    exact .one (inside (by omega) (by decide)) AllL.nil
end

theorem all_comments (cs : List DComment) : ∀ {p q}, Cut ⟨src⟩ p q (commentsText cs) → AllL (Inside src) (commentsTree p cs) := by
  induction cs with
  | nil => intro p q _; exact AllL.nil
  | cons c cs ih =>
    intro p q hc
    have hle := cut_le hc
    rw [commentsText] at hc hle
    simp only [List.length_append, DComment.text, List.length_cons] at hle
    exact .cons (.one (inside (by omega) (by decide)) (all_leaves (by decide) _ _ (by omega))) (ih hc.split.2)

theorem strip_text (r : DRhs) : r.text = r.lead ++ r.strip.text := by
  cases r <;> simp [DRhs.text, DRhs.lead, DRhs.strip]
theorem strip_wf {r : DRhs} (h : r.WF) : r.strip.WF := by
  cases r <;> unfold DRhs.WF at h <;> unfold DRhs.strip DRhs.WF <;> exact ⟨by simp [IsWs], h.2⟩
theorem strip_low {r : DRhs} (h : r.Low) : r.strip.Low := by
  cases r <;> unfold DRhs.Low at h <;> unfold DRhs.strip DRhs.Low <;> exact h

/-- Where the right hand side of a rule stands. -/
theorem cut_strip {r : DRule} {p q : Nat} (hc : Cut ⟨src⟩ p q r.text) : ∃ e, Cut ⟨src⟩ (r.rhsStart p) e r.rhs.strip.text ∧
    e = r.rhsStart p + r.rhs.strip.text.length ∧ ∃ q', Cut ⟨src⟩ (r.rhsStart p + r.rhs.strip.text.length + 1 + r.w.length) q' (commentsText r.comments) := by
  unfold DRule.text at hc
  rw [strip_text r.rhs] at hc
  have h1 := hc.uncons.2.split.2.uncons.2.split.2.uncons.2
  rw [List.append_assoc] at h1
  have h2 := h1.split.2
  have e : p + 1 + r.name.length + 1 + r.sep.text.length + 1 + r.rhs.lead.length = r.rhsStart p := by unfold DRule.rhsStart; omega
  rw [e] at h2
  exact ⟨_, h2.split.1, rfl, _, h2.split.2.uncons.2.split.2⟩

theorem all_rule {r : DRule} (h : r.WF) (hl : r.rhs.Low) {p q : Nat} (hc : Cut ⟨src⟩ p q r.text) : AllL (Inside src) [r.tree p] := by
  have hle := cut_le hc
  obtain ⟨e, h1, rfl, q', h2⟩ := cut_strip hc
  unfold DRule.tree
  refine .one (inside (by omega) (by decide)) (.cons ?_ (.cons (all_rhs _ (strip_wf h.2.2.1) (strip_low hl) h1) (all_comments _ h2)))
  unfold DRule.text at hle
  simp only [List.length_cons, List.length_append] at hle
  unfold DRule.lhsTree
  split
  · exact .one (inside (by omega) (by decide)) (.one (inside (by omega) (by decide)) AllL.nil)
  · rename_i w w' hs
    rw [hs] at hle
    simp only [DSep.text, List.length_append] at hle
    exact .one (inside (by omega) (by decide)) (.cons (.one (inside (by omega) (by decide)) AllL.nil)
      (.one (inside (by omega) (by decide)) (.one (inside (by omega) (by decide)) AllL.nil)))

theorem all_trees {g : DGrammar} (hw : g.WF) (hl : g.Low) {p q : Nat} (hc : Cut ⟨src⟩ p q g.text) : AllL (Inside src) (g.trees p) := by
  induction g generalizing p with
  | nil => exact AllL.nil
  | cons r g ih =>
    rw [DGrammar.text] at hc
    exact .cons (all_rule (hw r (by simp)) (hl r (by simp)) hc.split.1) (ih (fun x hx => hw x (by simp [hx])) (fun x hx => hl x (by simp [hx])) hc.split.2)
end

end PP.Gen
