import Verif.Lemmas.ClearLen
import Verif.Lemmas.Depth

/-! # `clear_false` runs out of keys only if the pruned tree is too large -/
set_option linter.unusedSectionVars false
namespace PP
variable {R U : Type} [DecidableEq R]

theorem Out.bind_eq_panic {α β : Type} {x : Out α} {f : α → Out β} {p : Panic} :
    (x >>= f) = .panic p ↔ x = .panic p ∨ ∃ a, x = .ok a ∧ f a = .panic p := by
  cases x with
  | ok a => simp
  | panic q => constructor
               · intro h; left; simpa using h
               · rintro (h | ⟨a, h, _⟩)
                 · simpa using h
                 · cases h
  | oof => constructor
           · intro h; cases h
           · rintro (h | ⟨a, h, _⟩) <;> cases h

theorem clear_fits (self : Publisher R) {ks ts} (h : UnfL self.nodes ks ts) : ∀ n (nt : Publisher R) (parent : Nat),
    nt.nodes.length + Tree.size.sizeL (Tree.prune.pruneL ts) ≤ 4294967296 →
    (ks.foldlM (fun t i => Publisher.clearFalseKernel self n t parent i) nt : Out _) ≠ .panic .keyOverflow := by
  induction h with
  | nil =>
    intro n nt parent _ h
    simp at h
  | @cons k nd cs ks ts h1 h2 h3 ih1 ih2 =>
    intro n nt parent hle h
    rw [Tree.prune.pruneL, Tree.sizeL_append] at hle
    have hall : UnfL self.nodes [k] [.node nd.rule nd.spanOf cs] := .cons h1 h2 .nil
    rw [List.foldlM_cons, Out.bind_eq_panic] at h
    rcases h with h | ⟨nt1, hk, h⟩
    · cases n with
      | zero => cases h
      | succ m =>
        unfold Publisher.clearFalseKernel Publisher.getNode at h
        rw [h1] at h
        simp only [Out.ofOption_some, Out.bind_ok] at h
        by_cases hc : (nd.result && nd.start != nd.stop) = true
        · rw [if_pos hc] at h
          simp at hc
          have hprune : Tree.prune (.node nd.rule nd.spanOf cs) =
              [.node nd.rule (some (nd.start, nd.stop)) (Tree.prune.pruneL cs)] := by
            have hsp : nd.spanOf = some (nd.start, nd.stop) := by simp [Node.spanOf, hc.1]
            rw [hsp, prune_some, if_neg hc.2]
          rw [hprune] at hle
          simp only [Tree.size.sizeL, Tree.size] at hle
          rw [Out.bind_eq_panic] at h
          rcases h with h | ⟨⟨ci, nt2⟩, g1, h⟩
          · unfold Publisher.addNode at h
            rw [if_pos (by omega)] at h
            cases h
          · dsimp only at h
            rw [Out.bind_eq_panic] at h
            have e1 := addNode_len g1
            rcases h with h | ⟨nt3, g2, h⟩
            · unfold Publisher.connect Publisher.modify at h
              split at h
              · cases h
              · split at h <;> cases h
            · have e2 := connect_len g2
              exact ih1 m nt3 ci (by omega) h
        · rw [if_neg hc] at h
          cases h
    · have e := (clear_len self hall n nt nt1 parent (by simp [hk])).1
      rw [show Tree.prune.pruneL [.node nd.rule nd.spanOf cs] = Tree.prune (.node nd.rule nd.spanOf cs) by
        simp [Tree.prune.pruneL]] at e
      exact ih2 n nt1 parent (by omega) h

/-- With enough fuel and keys, `clear_false` returns. -/
theorem clearFalse_total (g : R) (self : Publisher R) {r0 : Node R} {ts} (h0 : self.nodes[0]? = some r0)
    (hr : r0.result = true) (hu : UnfL self.nodes r0.children ts) {n : Nat} (hn : Tree.htL ts ≤ n)
    (hs : 2 + Tree.size.sizeL (Tree.prune.pruneL ts) ≤ 4294967296) :
    ∃ t, self.clearFalse g n = .ok t := by
  have hred : self.clearFalse g n = r0.children.foldlM (fun t i => Publisher.clearFalseKernel self n t 0 i)
      { nodes := [⟨0, g, 0, 0, true, []⟩, ⟨1, r0.rule, r0.start, r0.stop, true, []⟩] } := by
    simp [Publisher.clearFalse, Publisher.getNode, h0, hr, Publisher.addNode, Publisher.new]
  obtain ⟨N, hN⟩ := clearFalse_spec g self h0 hr hu
  have h1 := (hN n).2
  have h2 := clear_depth self hu n hn { nodes := [⟨0, g, 0, 0, true, []⟩, ⟨1, r0.rule, r0.start, r0.stop, true, []⟩] } 0
  have h3 := clear_fits self hu n { nodes := [⟨0, g, 0, 0, true, []⟩, ⟨1, r0.rule, r0.start, r0.stop, true, []⟩] } 0 (by simpa using hs)
  rw [← hred] at h2 h3
  cases hc : self.clearFalse g n with
  | ok t => exact ⟨t, rfl⟩
  | oof => exact absurd hc h2
  | panic p =>
    rw [hc] at h1 h3
    simp only at h1
    rw [h1] at h3
    exact absurd rfl h3

end PP
