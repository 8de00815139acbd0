import Verif.Lemmas.ParseSpec
import Verif.Lemmas.Pack

/-! # `clear_false` allocates one node per node of the pruned tree -/
set_option linter.unusedSectionVars false
namespace PP
variable {R U : Type} [DecidableEq R]

theorem addNode_len {p p' : Publisher R} {r : R} {a b : Nat} {x : Bool} {k : Nat} (h : p.addNode r a b x = .ok (k, p')) :
    p'.nodes.length = p.nodes.length + 1 ∧ p'.nodes.length ≤ 4294967296 := by
  unfold Publisher.addNode at h
  split at h
  · simp only [Out.ok.injEq, Prod.mk.injEq] at h
    obtain ⟨_, rfl⟩ := h
    simp; omega
  · cases h

theorem connect_len {p p' : Publisher R} {a b : Nat} (h : p.connect a b = .ok p') : p'.nodes.length = p.nodes.length := by
  unfold Publisher.connect Publisher.modify at h
  split at h
  · cases h
  · split at h
    · cases h
    · simp only [Out.ok.injEq] at h; subst h; simp

theorem clear_len (self : Publisher R) {ks ts} (h : UnfL self.nodes ks ts) : ∀ n (nt nt' : Publisher R) (parent : Nat),
    ks.foldlM (fun t i => Publisher.clearFalseKernel self n t parent i) nt = .ok nt' →
    nt'.nodes.length = nt.nodes.length + Tree.size.sizeL (Tree.prune.pruneL ts) ∧
    (nt.nodes.length ≤ 4294967296 → nt'.nodes.length ≤ 4294967296) := by
  induction h with
  | nil =>
    intro n nt nt' parent h
    simp at h; subst h
    simp [Tree.prune.pruneL, Tree.size.sizeL]
  | @cons k nd cs ks ts h1 h2 h3 ih1 ih2 =>
    intro n nt nt' parent h
    rw [List.foldlM_cons, Out.bind_eq_ok] at h
    obtain ⟨nt1, hk, h⟩ := h
    have first : nt1.nodes.length = nt.nodes.length + Tree.size.sizeL (Tree.prune (.node nd.rule nd.spanOf cs)) ∧
        (nt.nodes.length ≤ 4294967296 → nt1.nodes.length ≤ 4294967296) := by
      cases n with
      | zero => cases hk
      | succ m =>
        unfold Publisher.clearFalseKernel Publisher.getNode at hk
        rw [h1] at hk
        simp only [Out.ofOption_some, Out.bind_ok] at hk
        by_cases hc : (nd.result && nd.start != nd.stop) = true
        · rw [if_pos hc] at hk
          simp at hc
          have hprune : Tree.prune (.node nd.rule nd.spanOf cs) =
              [.node nd.rule (some (nd.start, nd.stop)) (Tree.prune.pruneL cs)] := by
            have hsp : nd.spanOf = some (nd.start, nd.stop) := by simp [Node.spanOf, hc.1]
            rw [hsp, prune_some, if_neg hc.2]
          rw [hprune]
          rw [Out.bind_eq_ok] at hk
          obtain ⟨⟨ci, nt2⟩, g1, hk⟩ := hk
          dsimp only at hk
          rw [Out.bind_eq_ok] at hk
          obtain ⟨nt3, g2, hk⟩ := hk
          have e1 := addNode_len g1
          have e2 := connect_len g2
          obtain ⟨e3, e4⟩ := ih1 m nt3 nt1 ci hk
          simp only [Tree.size.sizeL, Tree.size]
          omega
        · rw [if_neg hc] at hk
          simp only [Out.ok.injEq] at hk
          subst hk
          have hprune : Tree.prune (.node nd.rule nd.spanOf cs) = [] := by
            simp only [Bool.and_eq_true, bne_iff_ne, ne_eq, not_and, Classical.not_not] at hc
            by_cases hr : nd.result = true
            · have hsp : nd.spanOf = some (nd.start, nd.stop) := by simp [Node.spanOf, hr]
              rw [hsp, prune_some, if_pos (hc hr)]
            · have hsp : nd.spanOf = none := by simp [Node.spanOf, hr]
              rw [hsp, prune_none]
          simp [hprune, Tree.size.sizeL]
    obtain ⟨f1, f2⟩ := first
    obtain ⟨g1, g2⟩ := ih2 n nt1 nt' parent h
    have : Tree.prune.pruneL (.node nd.rule nd.spanOf cs :: ts) =
        Tree.prune (.node nd.rule nd.spanOf cs) ++ Tree.prune.pruneL ts := by rw [Tree.prune.pruneL]
    rw [this, Tree.sizeL_append]
    exact ⟨by omega, fun h => g2 (f2 h)⟩

variable {lr : Prop}

/-- Size of the tree `parse` returns: the root, its orphan copy, and the pruned invocation forest. -/
theorem parse_len (P : Parser R U) (src : Source) (hh : P.HooksOK src) (hbody : ∀ r, lr ∨ (P.body r).LRFree)
    {n : Nat} {b q} {t : Publisher R} (h : parse P src n = .ok (b, q, t)) :
    ∃ ts, Run lr P.body src (.varName P.grammar) 0 b q ts ∧
      t.nodes.length = 2 + Tree.size.sizeL (Tree.prune.pruneL ts) ∧ t.nodes.length ≤ 4294967296 := by
  unfold parse at h
  rw [Out.bind_eq_ok] at h
  obtain ⟨⟨b', q', st⟩, h1, h2⟩ := h
  simp only at h2
  rw [Out.bind_eq_ok] at h2
  obtain ⟨t', h3, h4⟩ := h2
  injection h4 with h4
  obtain ⟨rfl, rfl, rfl⟩ : b' = b ∧ q' = q ∧ t' = t := by simpa using h4
  obtain ⟨ks, ts, hr, h0, hu⟩ := eval_new_root P src hh hbody (e := .varName P.grammar) (Or.inr trivial) h1
  refine ⟨ts, hr, ?_⟩
  have hred : st.pub.clearFalse P.grammar n = ks.foldlM (fun t i => Publisher.clearFalseKernel st.pub n t 0 i)
      { nodes := [⟨0, P.grammar, 0, 0, true, []⟩, ⟨1, P.grammar, 0, 0, true, []⟩] } := by
    simp [Publisher.clearFalse, Publisher.getNode, h0, Publisher.addNode, Publisher.new]
  rw [hred] at h3
  have := clear_len st.pub hu n _ _ 0 h3
  exact ⟨this.1, this.2 (by simp)⟩

end PP
