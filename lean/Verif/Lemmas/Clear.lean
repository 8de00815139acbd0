import Verif.Lemmas.TreeFacts
import Verif.Lemmas.Ops

/-! # `clear_false` computes the pruned tree -/
set_option linter.unusedSectionVars false
namespace PP
variable {R U : Type}

/-- Effect of a piece of `clear_false` on the new tree. -/
structure CStep (nt nt' : Publisher R) (parent : Nat) (ks : List Nat) : Prop where
  len : nt.nodes.length ≤ nt'.nodes.length
  frame : ∀ k : Nat, k < nt.nodes.length → k ≠ parent → nt'.nodes[k]? = nt.nodes[k]?
  par : ∀ nd : Node R, nt.nodes[parent]? = some nd →
    nt'.nodes[parent]? = some { nd with children := nd.children ++ ks }
  keys : ∀ k ∈ ks, nt.nodes.length ≤ k ∧ k < nt'.nodes.length
  new : ∀ (k : Nat) (nd : Node R), nt.nodes.length ≤ k → nt'.nodes[k]? = some nd →
    nd.index = k ∧ ∀ c ∈ nd.children, k < c ∧ c < nt'.nodes.length

theorem CStep.refl (nt : Publisher R) (parent : Nat) : CStep nt nt parent [] :=
  ⟨Nat.le_refl _, fun _ _ _ => rfl, fun nd e => by simpa using e, by simp,
    fun k nd h e => by have := lt_of_getElem?_some e; omega⟩

theorem CStep.trans {a b c : Publisher R} {parent ks ks'} (hp : parent < a.nodes.length)
    (h1 : CStep a b parent ks) (h2 : CStep b c parent ks') : CStep a c parent (ks ++ ks') :=
  { len := Nat.le_trans h1.len h2.len
    frame := fun k hk hkp => by
      have := h1.len
      rw [h2.frame k (by omega) hkp, h1.frame k hk hkp]
    par := fun nd e => by simpa [List.append_assoc] using h2.par _ (h1.par nd e)
    keys := fun k hk => by
      have := h1.len; have := h2.len
      rcases List.mem_append.mp hk with hk | hk
      · have := h1.keys k hk; omega
      · have := h2.keys k hk; omega
    new := fun k nd hk e => by
      have l1 := h1.len; have l2 := h2.len
      by_cases hb : k < b.nodes.length
      · rw [h2.frame k hb (by omega)] at e
        have := h1.new k nd hk e
        exact ⟨this.1, fun c hc => by have := this.2 c hc; omega⟩
      · have := h2.new k nd (by omega) e
        exact ⟨this.1, fun c hc => this.2 c hc⟩ }

/-- Unfoldings of new keys survive later steps at an old parent. -/
theorem CStep.unf {a b c : Publisher R} {parent ks ks' ks'' ts} (hp : parent < a.nodes.length)
    (h1 : CStep a b parent ks) (h2 : CStep b c parent ks') (hks : ∀ k ∈ ks'', a.nodes.length ≤ k)
    (hu : UnfL b.nodes ks'' ts) : UnfL c.nodes ks'' ts := by
  refine hu.stable (D := fun k => a.nodes.length ≤ k) hks ?_ ?_
  · intro k nd hk e c hc
    have := (h1.new k nd hk e).2 c hc
    omega
  · intro k nd hk e
    exact ⟨nd, by rw [h2.frame k (lt_of_getElem?_some e) (by omega)]; exact e, Sim.refl _⟩

theorem prune_none (r : R) (kids : List (Tree R)) : Tree.prune (.node r none kids) = [] := by
  rw [Tree.prune]

theorem prune_some (r : R) (p q : Nat) (kids : List (Tree R)) : Tree.prune (.node r (some (p, q)) kids) =
    if p = q then [] else [.node r (some (p, q)) (Tree.prune.pruneL kids)] := by
  rw [Tree.prune]

/-- Outcome of a piece of `clear_false` that should append the trees `us`. -/
def CPost (nt : Publisher R) (parent : Nat) (us : List (Tree R)) : Out (Publisher R) → Prop
  | .oof => True
  | .panic p => p = .keyOverflow
  | .ok nt' => ∃ ks, CStep nt nt' parent ks ∧ UnfL nt'.nodes ks us

theorem clear_forest (self : Publisher R) {ks ts} (h : UnfL self.nodes ks ts) : ∃ N, ∀ n,
    ∀ (nt : Publisher R) (parent : Nat), parent < nt.nodes.length →
      (N ≤ n → ks.foldlM (fun t i => Publisher.clearFalseKernel self n t parent i) nt ≠ .oof) ∧
      CPost nt parent (Tree.prune.pruneL ts)
        (ks.foldlM (fun t i => Publisher.clearFalseKernel self n t parent i) nt) := by
  induction h with
  | nil =>
    refine ⟨0, fun n nt parent hp => ⟨by simp, ?_⟩⟩
    simpa [Tree.prune.pruneL] using ⟨[], CStep.refl nt parent, UnfL.nil⟩
  | @cons k nd cs ks ts h1 h2 h3 ih1 ih2 =>
    obtain ⟨N1, ih1⟩ := ih1
    obtain ⟨N2, ih2⟩ := ih2
    refine ⟨N1 + N2 + 1, fun n nt parent hp => ?_⟩
    -- the first key
    have first : (N1 + N2 + 1 ≤ n → Publisher.clearFalseKernel self n nt parent k ≠ .oof) ∧
        CPost nt parent (Tree.prune (.node nd.rule nd.spanOf cs)) (Publisher.clearFalseKernel self n nt parent k) := by
      cases n with
      | zero => exact ⟨fun h => by omega, trivial⟩
      | succ m =>
        unfold Publisher.clearFalseKernel Publisher.getNode
        rw [h1]
        simp only [Out.ofOption_some, Out.bind_ok]
        by_cases hc : (nd.result && nd.start != nd.stop) = true
        · rw [if_pos hc]
          simp at hc
          have hprune : Tree.prune (.node nd.rule nd.spanOf cs) =
              [.node nd.rule (some (nd.start, nd.stop)) (Tree.prune.pruneL cs)] := by
            have hsp : nd.spanOf = some (nd.start, nd.stop) := by simp [Node.spanOf, hc.1]
            rw [hsp, prune_some, if_neg hc.2]
          rw [hprune]
          unfold Publisher.addNode
          split
          · simp only [Out.bind_ok]
            have hne : parent ≠ nt.nodes.length := by omega
            obtain ⟨ndp, hndp⟩ := exists_getElem? hp
            have hndp' : (nt.nodes ++ [⟨nt.nodes.length, nd.rule, nd.start, nd.stop, nd.result, []⟩])[parent]?
                = some ndp := by rw [List.getElem?_append_left hp]; exact hndp
            unfold Publisher.connect
            rw [if_neg hne, Publisher.modify_eq hndp']
            simp only [Out.bind_ok]
            generalize hnt1 : (Publisher.mk (List.set (nt.nodes ++
                [⟨nt.nodes.length, nd.rule, nd.start, nd.stop, nd.result, []⟩]) parent
                { ndp with children := ndp.children ++ [nt.nodes.length] }) : Publisher R) = nt1
            have hlen1 : nt1.nodes.length = nt.nodes.length + 1 := by subst hnt1; simp
            have hself1 : nt1.nodes[nt.nodes.length]? =
                some ⟨nt.nodes.length, nd.rule, nd.start, nd.stop, nd.result, []⟩ := by
              subst hnt1; simp only; rw [List.getElem?_set_ne hne]; simp
            have s1 : CStep nt nt1 parent [nt.nodes.length] :=
              { len := by omega
                frame := fun j hj hjp => by
                  subst hnt1; simp only; rw [List.getElem?_set_ne (Ne.symm hjp), List.getElem?_append_left hj]
                par := fun nd' e => by
                  rw [hndp] at e
                  obtain rfl := Option.some.inj e
                  subst hnt1; simp only
                  rw [List.getElem?_set_self (by simp; omega)]
                keys := by simp; omega
                new := fun j nd' hj e => by
                  have := lt_of_getElem?_some e
                  have hj' : j = nt.nodes.length := by omega
                  subst hj'
                  rw [hself1] at e
                  obtain rfl := Option.some.inj e
                  exact ⟨rfl, by simp⟩ }
            obtain ⟨g1, g2⟩ := ih1 m nt1 nt.nodes.length (by omega)
            refine ⟨fun hm => g1 (by omega), ?_⟩
            generalize (nd.children.foldlM (fun t i => Publisher.clearFalseKernel self m t nt.nodes.length i) nt1) = x at g1 g2
            cases x with
            | oof => trivial
            | panic p => exact g2
            | ok nt2 =>
              obtain ⟨ks2, s2, u2⟩ := g2
              have l1 := s2.len
              refine ⟨[nt.nodes.length], ?_, ?_⟩
              · exact
                { len := by omega
                  frame := fun j hj hjp => by rw [s2.frame j (by omega) (by omega), s1.frame j hj hjp]
                  par := fun nd' e => by rw [s2.frame parent (by omega) hne]; exact s1.par nd' e
                  keys := by simp; omega
                  new := fun j nd' hj e => by
                    by_cases hj2 : j = nt.nodes.length
                    · subst hj2
                      rw [s2.par _ hself1] at e
                      obtain rfl := Option.some.inj e
                      refine ⟨rfl, fun c hc => ?_⟩
                      simp at hc
                      have := s2.keys c hc
                      omega
                    · exact s2.new j nd' (by omega) e }
              · have := UnfL.cons (s2.par _ hself1) (by simpa using u2) UnfL.nil
                simpa [Node.spanOf, hc.1] using this
          · exact ⟨by simp, rfl⟩
        · rw [if_neg hc]
          have hprune : Tree.prune (.node nd.rule nd.spanOf cs) = [] := by
            simp at hc
            cases hr : nd.result with
            | false =>
              have hsp : nd.spanOf = none := by simp [Node.spanOf, hr]
              rw [hsp, prune_none]
            | true =>
              have hsp : nd.spanOf = some (nd.start, nd.stop) := by simp [Node.spanOf, hr]
              rw [hsp, prune_some, if_pos (hc hr)]
          rw [hprune]
          exact ⟨by simp, [], CStep.refl _ _, .nil⟩
    rw [List.foldlM_cons]
    obtain ⟨f1, f2⟩ := first
    generalize Publisher.clearFalseKernel self n nt parent k = x at f1 f2
    cases x with
    | oof => exact ⟨fun h => absurd rfl (f1 h), trivial⟩
    | panic p => exact ⟨by simp, f2⟩
    | ok nt1 =>
      obtain ⟨ks1, s1, u1⟩ := f2
      have l1 := s1.len
      obtain ⟨g1, g2⟩ := ih2 n nt1 parent (by omega)
      simp only [Out.bind_ok]
      refine ⟨fun h => g1 (by omega), ?_⟩
      generalize (ks.foldlM (fun t i => Publisher.clearFalseKernel self n t parent i) nt1) = y at g1 g2
      cases y with
      | oof => trivial
      | panic p => exact g2
      | ok nt2 =>
        obtain ⟨ks2, s2, u2⟩ := g2
        refine ⟨ks1 ++ ks2, s1.trans hp s2, ?_⟩
        simp only [Tree.prune.pruneL]
        exact (s1.unf hp s2 (fun k hk => (s1.keys k hk).1) u1).append u2

/-- Shape of a tree returned by `clear_false`. -/
structure Cleaned (g : R) (t : Publisher R) (ts : List (Tree R)) : Prop where
  root : ∃ ks, t.nodes[0]? = some ⟨0, g, 0, 0, true, ks⟩ ∧ UnfL t.nodes ks ts
  order : ∀ (k : Nat) (nd : Node R), t.nodes[k]? = some nd →
    nd.index = k ∧ ∀ c ∈ nd.children, k < c ∧ c < t.nodes.length

theorem clearFalse_spec (g : R) (self : Publisher R) {r0 : Node R} {ts} (h0 : self.nodes[0]? = some r0)
    (hr : r0.result = true) (hu : UnfL self.nodes r0.children ts) : ∃ N, ∀ n,
    (N ≤ n → self.clearFalse g n ≠ .oof) ∧
    match self.clearFalse g n with
    | .oof => True
    | .panic p => p = .keyOverflow
    | .ok t => Cleaned g t (Tree.prune.pruneL ts) := by
  obtain ⟨N, h⟩ := clear_forest self hu
  refine ⟨N, fun n => ?_⟩
  have hred : self.clearFalse g n = r0.children.foldlM (fun t i => Publisher.clearFalseKernel self n t 0 i)
      { nodes := [⟨0, g, 0, 0, true, []⟩, ⟨1, r0.rule, r0.start, r0.stop, r0.result, []⟩] } := by
    simp [Publisher.clearFalse, Publisher.getNode, h0, hr, Publisher.addNode, Publisher.new]
  rw [hred]
  obtain ⟨g1, g2⟩ := h n { nodes := [⟨0, g, 0, 0, true, []⟩, ⟨1, r0.rule, r0.start, r0.stop, r0.result, []⟩] } 0 (by simp)
  refine ⟨g1, ?_⟩
  generalize r0.children.foldlM (fun t i => Publisher.clearFalseKernel self n t 0 i) _ = x at g2
  cases x with
  | oof => trivial
  | panic p => exact g2
  | ok t =>
    obtain ⟨ks, s, u⟩ := g2
    have l := s.len
    simp at l
    refine ⟨⟨ks, by simpa using s.par ⟨0, g, 0, 0, true, []⟩ rfl, u⟩, ?_⟩
    intro k nd e
    rcases k with _ | _ | k
    · rw [s.par ⟨0, g, 0, 0, true, []⟩ rfl] at e
      obtain rfl := Option.some.inj e
      refine ⟨rfl, fun c hc => ?_⟩
      simp at hc
      have := s.keys c hc
      simp at this; omega
    · rw [s.frame 1 (by simp) (by simp)] at e
      simp at e
      subst e
      exact ⟨rfl, by simp⟩
    · exact s.new (k + 2) nd (by simp) e

end PP
