import Verif.Lemmas.Rs.GramTree
import Verif.Lemmas.Rs.Detector
import Verif.Lemmas.Gen.Front
import Verif.Lemmas.Rs.Generate

/-! # The arguments of the constructor that come from a grammar file meet `Given` -/
namespace PP.Gen

/-! ## Sizes of output trees -/

mutual
theorem rhs_nodes : ∀ (r : DRhs), r.WF → ∀ {c L P}, r.comp c L = .ok P → P.nodes.length ≤ 2 * r.text.length
  | .atom w a, h, c, L, P, hc => by
    unfold DRhs.WF at h
    unfold DRhs.comp at hc
    have := atom_nodes a h.2 hc
    simp only [DRhs.text, List.length_append]; omega
  | .chain o w a as, h, c, L, P, hc => by
    unfold DRhs.WF at h
    unfold DRhs.comp at hc
    obtain ⟨Q, hq, hc⟩ := Rs.bind_oks hc
    have h1 := atom_nodes a h.2.1 hq
    have h2 := atoms_nodes as h.2.2 hc
    simp only [DRhs.text, List.length_append]; omega
theorem atoms_nodes : ∀ (as : DAtoms), as.WF → ∀ {c o L Q P}, as.comp c o L Q = .ok P → P.nodes.length ≤ Q.nodes.length + 2 * (as.text o).length
  | .one w a, h, c, o, L, Q, P, hc => by
    unfold DAtoms.WF at h
    unfold DAtoms.comp at hc
    obtain ⟨R, hr, hc⟩ := Rs.bind_oks hc
    have := atom_nodes a h.2 hr
    cases hc
    simp only [DAtoms.text, Piece.snoc, List.length_append, List.length_cons, List.length_nil]; omega
  | .cons w a as, h, c, o, L, Q, P, hc => by
    unfold DAtoms.WF at h
    unfold DAtoms.comp at hc
    obtain ⟨R, hr, hc⟩ := Rs.bind_oks hc
    have h1 := atom_nodes a h.2.1 hr
    have h2 := atoms_nodes as h.2.2 hc
    simp only [Piece.snoc, List.length_append, List.length_cons, List.length_nil] at h2
    simp only [DAtoms.text, List.length_append, List.length_cons]; omega
theorem atom_nodes : ∀ (a : DAtom), a.WF → ∀ {c L P}, a.comp c L = .ok P → P.nodes.length ≤ 2 * a.text.length
  | .plain n, h, c, L, P, hc => by
    unfold DAtom.WF at h
    unfold DAtom.comp at hc
    have := nuc_nodes n h.1 hc
    simp only [DAtom.text]; omega
  | .pre o n, h, c, L, P, hc => by
    unfold DAtom.WF at h
    unfold DAtom.comp at hc
    obtain ⟨Q, hq, hc⟩ := Rs.bind_oks hc
    have := nuc_nodes n h hq
    cases hc
    simp only [DAtom.text, Piece.snoc, List.length_append, List.length_cons, List.length_nil]; omega
  | .post o n w, h, c, L, P, hc => by
    unfold DAtom.WF at h
    unfold DAtom.comp at hc
    obtain ⟨Q, hq, hc⟩ := Rs.bind_oks hc
    have := nuc_nodes n h.1 hq
    cases hc
    simp only [DAtom.text, Piece.snoc, List.length_append, List.length_cons, List.length_nil]; omega
theorem nuc_nodes : ∀ (n : DNuc), n.WF → ∀ {c L P}, n.comp c L = .ok P → P.nodes.length ≤ 2 * n.text.length
  | .mk k w, h, c, L, P, hc => by
    unfold DNuc.WF at h
    unfold DNuc.comp at hc
    have := core_nodes k h.1 hc
    simp only [DNuc.text, List.length_append]; omega
theorem core_nodes : ∀ (k : DCore), k.WF → ∀ {c L P}, k.comp c L = .ok P → P.nodes.length ≤ 2 * k.text.length
  | .range w0 w1 lo hi w2, h, c, L, P, hc => by
    unfold DCore.comp at hc
    obtain ⟨x, _, hc⟩ := Rs.bind_oks hc
    obtain ⟨y, _, hc⟩ := Rs.bind_oks hc
    cases hc
    simp only [DCore.text, leafP, List.length_append, List.length_cons, List.length_nil]; omega
  | .hook name r, h, c, L, P, hc => by
    unfold DCore.WF at h
    unfold DCore.comp at hc
    obtain ⟨Q, hq, hc⟩ := Rs.bind_oks hc
    have := rhs_nodes r h.2 hq
    cases hc
    simp only [DCore.text, Piece.snoc, List.length_append, List.length_cons, List.length_nil]; omega
  | .sub r, h, c, L, P, hc => by
    unfold DCore.WF at h
    unfold DCore.comp at hc
    obtain ⟨Q, hq, hc⟩ := Rs.bind_oks hc
    have := rhs_nodes r h hq
    cases hc
    simp only [DCore.text, Piece.snoc, List.length_append, List.length_cons, List.length_nil]; omega
  | .term t, h, c, L, P, hc => by
    cases t <;> unfold DCore.comp at hc
    · split at hc
      · cases hc
      · cases hc; simp [leafP, DCore.text, DTerm.text]
    · cases hc; simp [leafP, DCore.text, DTerm.text]
    · cases hc; simp [DCore.text, DTerm.text]
  | .str s, h, c, L, P, hc => by
    unfold DCore.comp at hc
    obtain ⟨Q, hq, hc⟩ := Rs.bind_oks hc
    cases hc
    unfold DCore.WF at h
    have h1 := (str_size 0 h).2
    have : (strPiece L Q).nodes.length = 1 := by unfold strPiece; split <;> rfl
    rw [this]
    simp only [DCore.text]; omega
  | .ref name, h, c, L, P, hc => by
    unfold DCore.comp at hc
    have : P.nodes.length = 1 := by
      split at hc
      · cases hc; rfl
      · split at hc <;> cases hc <;> rfl
    rw [this]
    simp only [DCore.text, List.length_cons, List.length_append, List.length_nil]; omega
end

end PP.Gen

namespace PP.Rs
open PP.Gen

/-- The value of a string terminal. -/
theorem string_low {e : Gen.Env} (hs : ascii e.src = true) {ks : List Nat} {a : Nat} {d : DStr} (hd : d.WF) (hl : d.Low) {r s kids} (ht : Tree.node r s kids = d.tree a)
    (hu : UnfL e.tree.nodes ks kids) (hc : Cut ⟨e.src⟩ a (a + d.text.length) d.text) {data : List Nat} (h : stringTerminalData e ks = .ok data) : data.all (· < 128) = true := by
  have hle := cut_le hc
  cases d with
  | quoted t =>
    cases ht
    have hc : Cut ⟨e.src⟩ a (a + (DStr.quoted t).text.length) (34 :: (t ++ [34])) := hc
    have hc := hc.uncons.2.split.1
    rw [stringData_quoted hu hc] at h
    cases h
    rw [List.all_eq_true]
    intro x hx
    obtain ⟨b, hb, rfl⟩ := List.mem_map.1 hx
    obtain ⟨u, he, _⟩ := hc
    have : b ∈ e.src := List.mem_of_mem_drop (by rw [show e.src.drop (a + 1) = _ from he]; exact List.mem_append_left _ hb)
    have := List.all_eq_true.1 hs b this
    simpa [UInt8.lt_iff_toNat_lt] using this
  | int ds =>
    cases ht
    obtain ⟨k, ks', rfl, a1, h6⟩ := UnfL.inv_cons hu
    obtain ⟨nd', g1, g2, _, g4, g5, _⟩ := At.inv a1
    simp [stringTerminalData, g1, g2] at h
  | hex ds =>
    cases ht
    obtain ⟨k, ks', rfl, a1, h6⟩ := UnfL.inv_cons hu
    have := UnfL.inv_nil h6
    subst this
    obtain ⟨nd', g1, g2, _, g4, g5, _⟩ := At.inv a1
    have hc' : Cut ⟨e.src⟩ a (a + (ds.length + 2)) (48 :: 120 :: ds) := by
      simpa [DStr.text, hexText] using hc
    simp only [DStr.text, hexText, List.length_cons] at hle
    have hs : Source.strSlice e.src (a + 2) (a + 2 + ds.length) = .ok ds := by
      have hcc := hc'.uncons.2.uncons.2
      rw [show a + (ds.length + 2) = a + 2 + ds.length by omega] at hcc
      exact Cut.strSlice (src := ⟨e.src⟩) hcc (boundary_ascii hs (by omega)).2 (boundary_ascii hs (by omega)).2
    simp only [stringTerminalData, g1, g2, g4, g5, Out.bind_ok, reduceCtorEq, if_false, if_true, hs] at h
    cases hv : fromHex ds with
    | none => rw [hv] at h; cases h
    | some v =>
      rw [hv] at h
      have := hl v hv
      have hch : charFromU32 v = some v := by unfold charFromU32; rw [if_pos (.inl (by omega))]
      simp only [hch, Out.ofOption_some, Out.bind_ok] at h
      cases h
      simpa using this

section
variable {g : DGrammar} {tree : Publisher Dsl}

/-- The table of nodes that `clear_false` makes for a grammar. -/
def IsTable (g : DGrammar) (tree : Publisher Dsl) : Prop :=
  ∃ o : Node Dsl, o.start = 0 ∧ o.rule = .r_grammar ∧ o.children = [] ∧ tree.nodes = ⟨0, .r_grammar, 0, 0, true, Tree.roots 2 (g.trees 0)⟩ :: o :: Tree.layout 2 (g.trees 0)

theorem IsTable.shift {nodes l : List (Node Dsl)} {a b : Node Dsl} (h : nodes = a :: b :: l) : ∀ i nd, l[i]? = some nd → nodes[2 + i]? = some nd := by
  intro i nd hi
  rw [h, show 2 + i = i + 1 + 1 by omega]; simpa using hi

theorem table_unf (h : IsTable g tree) : UnfL tree.nodes (Tree.roots 2 (g.trees 0)) (g.trees 0) := by
  obtain ⟨o, _, _, _, h⟩ := h
  exact layout_unf 2 _ (IsTable.shift h)

theorem table_size (h : IsTable g tree) (hw : g.WF) : tree.nodes.length ≤ 8 * g.text.length + 2 := by
  obtain ⟨o, _, _, _, h⟩ := h
  rw [h]
  have := trees_size hw 0
  simp only [List.length_cons, Tree.layout_length]
  omega

theorem text_cut (g : DGrammar) : Cut ⟨g.text⟩ 0 (0 + g.text.length) g.text := ⟨[], by simp, rfl, by simp⟩

theorem table_nodes (h : IsTable g tree) (hw : g.WF) (hl : g.Low) : ∀ nd ∈ tree.nodes, nd.start ≤ g.text.length ∧ nd.children.length ≤ 8 * g.text.length ∧
    (nd.rule = .r_stringterminal → ∃ kids, Inside g.text nd.rule nd.spanOf kids ∧ UnfL tree.nodes nd.children kids) := by
  obtain ⟨o, h0, h1, h2, h⟩ := h
  have hsz := trees_size hw 0
  intro nd hnd
  have hall := layout_all (P := Inside g.text) 2 (g.trees 0) (IsTable.shift h) (all_trees hw hl (text_cut g))
  rw [h, List.mem_cons, List.mem_cons] at hnd
  rcases hnd with rfl | rfl | hnd
  · refine ⟨Nat.zero_le _, ?_, fun h => by cases h⟩
    show (Tree.roots 2 _).length ≤ _
    rw [Tree.roots_length]
    exact Nat.le_trans (length_le_sizeL _) hsz
  · exact ⟨by omega, by rw [h2]; exact Nat.zero_le _, fun h => by rw [h1] at h; cases h⟩
  · obtain ⟨kids, hP, hu, hw, _⟩ := hall nd hnd
    refine ⟨?_, by omega, fun _ => ⟨kids, hP, hu⟩⟩
    obtain ⟨⟨a, b, hs, ha⟩, -⟩ := hP
    unfold Node.spanOf at hs
    split at hs
    · cases hs; exact ha
    · cases hs

theorem name_sub : ∀ {g : DGrammar} {r}, r ∈ g → ∀ b ∈ r.name, b ∈ g.text
  | r' :: g, r, h, b, hb => by
    rw [DGrammar.text, List.mem_append]
    rcases List.mem_cons.1 h with rfl | h
    · left; simp [DRule.text, hb]
    · exact .inr (name_sub h b hb)

theorem rules_le : ∀ (g : DGrammar), g.length ≤ g.text.length
  | [] => Nat.zero_le _
  | r :: g => by
    have := rules_le g
    simp only [DGrammar.text, List.length_append, List.length_cons, DRule.text]; omega

theorem comment_rule {t : Publisher Dsl} (cs : List DComment) : ∀ {ks : List Nat} {p b : Nat} {bd : Node Dsl}, UnfL t.nodes ks (commentsTree p cs) → b ∈ ks →
    t.getNode b = .ok bd → bd.rule ≠ .r_rhs := by
  induction cs with
  | nil =>
    intro ks p b bd h hb
    have := UnfL.inv_nil h
    subst this
    cases hb
  | cons c cs ih =>
    intro ks p b bd h hb hbd
    rw [commentsTree] at h
    obtain ⟨k3, ks3, rfl, l3, h⟩ := UnfL.inv_cons h
    rcases List.mem_cons.1 hb with rfl | hb
    · obtain ⟨nd', g1, g2, _⟩ := At.inv l3
      rw [hbd] at g1; cases g1; rw [g2]; decide
    · exact ih h hb hbd

theorem rhs_at {e : Gen.Env} : ∀ {g : DGrammar} {p q : Nat} {ks : List Nat}, g.WF → UnfL e.tree.nodes ks (g.trees p) → Cut ⟨e.src⟩ p q g.text → ascii e.src = true →
    ∀ i ∈ ks, ∀ nd, e.tree.getNode i = .ok nd → ∀ b ∈ nd.children, ∀ bd, e.tree.getNode b = .ok bd → bd.rule = .r_rhs →
      ∃ (p : Nat) (r : DRhs), r.WF ∧ Here e b p (r.tree p) r.text
  | [], p, q, ks, _, h, _, _ => by
    intro i hi
    have := UnfL.inv_nil h
    subst this
    cases hi
  | r :: g, p, q, ks, hw, h, hc, hs => by
    intro i hi nd hn b hb bd hbd hr
    rw [DGrammar.text] at hc
    obtain ⟨k, ks', rfl, a1, h⟩ := UnfL.inv_cons h
    rcases List.mem_cons.1 hi with rfl | hi
    · obtain ⟨nd', g1, g2, _, g4, g5, g6⟩ := At.inv a1
      rw [hn] at g1
      cases g1
      obtain ⟨k1, ks1, hk1, l1, g6⟩ := UnfL.inv_cons g6
      obtain ⟨k2, ks2, rfl, l2, g6⟩ := UnfL.inv_cons g6
      rw [hk1] at hb
      rcases List.mem_cons.1 hb with rfl | hb
      · exfalso
        unfold DRule.lhsTree at l1
        split at l1 <;> (obtain ⟨nd', g1, g2, _⟩ := At.inv l1; rw [hbd] at g1; cases g1; rw [hr] at g2; cases g2)
      · rcases List.mem_cons.1 hb with rfl | hb
        · obtain ⟨q', c1, rfl, _⟩ := cut_strip hc.split.1
          exact ⟨_, _, strip_wf (hw r (by simp)).2.2.1, l2, c1, (boundary_ascii hs (by have := cut_le c1; omega)).2⟩
        · exfalso
          exact comment_rule _ g6 hb hbd hr
    · exact rhs_at (fun x hx => hw x (by simp [hx])) h hc.split.2 hs i hi nd hn b hb bd hbd hr

theorem given_of (hw : g.WF) (hsm : g.text.length < 82000000) (hs : ascii g.text = true) (hl : g.Low) (ht : IsTable g tree) {ord : List Val → List Val}
    (hord : ∀ l, (ord l).Perm l) {o : HashOrd} {n : Nat} {t : RuleCallTree} (hb : RuleCallTree.build tree g.text o n = .ok t) (hm : LRTable g t.involved) :
    Given ord { tree := tree, src := g.text, sym := g.symbols, lr := t.involved, ord := o } (encDetector t) (8 * g.text.length) where
  input := ⟨fun nd h => by have := (table_nodes ht hw hl nd h).1; omega, hs⟩
  fits := ⟨fun nd h => by have := (table_nodes ht hw hl nd h).1; omega, fun nd h => (table_nodes ht hw hl nd h).2.1, by omega⟩
  perm := hord
  sets := sets_detector hs hb
  strings := by
    intro nd h hr data hd
    obtain ⟨kids, ⟨-, hP⟩, hu⟩ := (table_nodes ht hw hl nd h).2.2 hr
    obtain ⟨a, d, d1, d2, d3, d4⟩ := hP hr
    exact string_low hs d1 d2 d3 hu d4 hd
  sized := by
    have hn : Gen.Env.Named { tree := tree, src := g.text, sym := g.symbols, lr := t.involved, ord := o } := by
      intro nm inv hi x hx
      obtain ⟨r, hr, rfl⟩ := (((hm.mem nm inv hi x).mp hx).1).declared
      exact hw.name_ne hr
    intro root h0 i hi nd hnd b hb bd hbd hr n hs' k t' hs'' h
    have hroot : root.children = Tree.roots 2 (g.trees 0) := by
      obtain ⟨o, _, _, _, e⟩ := ht
      have : tree.getNode 0 = .ok ⟨0, .r_grammar, 0, 0, true, Tree.roots 2 (g.trees 0)⟩ := by simp [Publisher.getNode, e]
      rw [show Publisher.getNode _ 0 = _ from this] at h0
      cases h0
      rfl
    rw [hroot] at hi
    obtain ⟨p, r, rw_, hh⟩ := rhs_at (e := { tree := tree, src := g.text, sym := g.symbols, lr := t.involved, ord := o }) hw (table_unf ht) (text_cut g) hs i hi nd hnd b hb bd hbd hr
    have hc := rhs_conv hn (a := (BTree.new, hs')) rw_ hh
    have := hc.eq (n := n) (by rw [h]; simp)
    rw [h] at this
    cases hP : r.comp (Gen.Env.ctx { tree := tree, src := g.text, sym := g.symbols, lr := t.involved, ord := o }) (BTree.new, hs').1.length with
    | oof => rw [hP] at this; cases this
    | panic q => rw [hP] at this; cases this
    | ok P =>
      rw [hP] at this
      cases this
      have h1 := rhs_nodes r rw_ hP
      have h2 := cut_le hh.cut
      have h2 : p + r.text.length ≤ g.text.length := h2
      have h3 : BTree.new.length = 1 := rfl
      simp only [List.length_append, h3]
      omega
  names := by
    intro x hx
    obtain ⟨r, hr, rfl⟩ := (symbols_mem g).mp hx
    exact List.all_eq_true.2 fun b hb => List.all_eq_true.1 hs b (name_sub hr b hb)
  count := by
    have h1 : g.symbols.names.length ≤ (g.map DRule.name).length :=
      nodup_length_le (symbols_names_sorted g).nodup fun x hx => by
        obtain ⟨r, hr, rfl⟩ := (symbols_mem g).mp hx
        exact List.mem_map_of_mem hr
    have h2 := rules_le g
    rw [List.length_map] at h1
    show g.symbols.names.length < _
    omega

end
end PP.Rs
