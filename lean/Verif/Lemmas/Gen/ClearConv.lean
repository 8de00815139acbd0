import Verif.Lemmas.ClearLen
import Verif.Lemmas.Fuel
import Verif.Lemmas.Gen.Conv

/-! # `clear_false` converges, and does not run out of keys on small trees -/
set_option linter.unusedSectionVars false
namespace PP
variable {R : Type} [DecidableEq R]

theorem foldlM_le {α β : Type} {f g : β → α → Out β} (h : ∀ b a, (f b a).le (g b a)) : ∀ (l : List α) (b : β),
    (l.foldlM f b).le (l.foldlM g b) := by
  intro l
  induction l with
  | nil => intro b; exact Out.le_refl _
  | cons a l ih => intro b; rw [List.foldlM_cons, List.foldlM_cons]; exact Out.le_bind (h b a) ih

theorem clearKernel_le (self : Publisher R) : ∀ n m, n ≤ m → ∀ (nt : Publisher R) (parent index : Nat),
    (Publisher.clearFalseKernel self n nt parent index).le (Publisher.clearFalseKernel self m nt parent index) := by
  intro n
  induction n with
  | zero => intro m _ nt parent index; exact Or.inl rfl
  | succ n ih =>
    intro m hm nt parent index
    cases m with
    | zero => omega
    | succ m =>
      unfold Publisher.clearFalseKernel
      refine Out.le_bind (Out.le_refl _) fun node => ?_
      split
      · refine Out.le_bind (Out.le_refl _) fun x => ?_
        refine Out.le_bind (Out.le_refl _) fun y => ?_
        exact foldlM_le (fun t i => ih m (by omega) t _ i) _ _
      · exact Out.le_refl _

theorem clearFalse_le (self : Publisher R) (g : R) {n m : Nat} (h : n ≤ m) : (self.clearFalse g n).le (self.clearFalse g m) := by
  unfold Publisher.clearFalse
  refine Out.le_bind (Out.le_refl _) fun node => ?_
  split
  · refine Out.le_bind (Out.le_refl _) fun x => ?_
    exact foldlM_le (fun t i => clearKernel_le self n m h t 0 i) _ _
  · exact Out.le_refl _

theorem addNode_panic {p : Publisher R} {r : R} {a b : Nat} {x : Bool} {z : Panic} (h : p.addNode r a b x = .panic z) :
    4294967296 ≤ p.nodes.length := by
  unfold Publisher.addNode at h
  split at h
  · cases h
  · omega

theorem clear_panic_len (self : Publisher R) {ks ts} (h : UnfL self.nodes ks ts) : ∀ n (nt : Publisher R) (parent : Nat) (z : Panic),
    parent < nt.nodes.length →
    ks.foldlM (fun t i => Publisher.clearFalseKernel self n t parent i) nt = .panic z →
    4294967296 < nt.nodes.length + Tree.size.sizeL (Tree.prune.pruneL ts) := by
  induction h with
  | nil => intro n nt parent z _ h; simp at h
  | @cons k nd cs ks ts h1 h2 h3 ih1 ih2 =>
    intro n nt parent z hp h
    have happ : Tree.prune.pruneL (.node nd.rule nd.spanOf cs :: ts) =
        Tree.prune (.node nd.rule nd.spanOf cs) ++ Tree.prune.pruneL ts := by rw [Tree.prune.pruneL]
    rw [happ, Tree.sizeL_append]
    have hunf : UnfL self.nodes [k] [.node nd.rule nd.spanOf cs] := .cons h1 h2 .nil
    rw [List.foldlM_cons] at h
    cases hk : Publisher.clearFalseKernel self n nt parent k with
    | oof => rw [hk] at h; cases h
    | ok nt1 =>
      rw [hk] at h
      have hl := clear_len self hunf n nt nt1 parent (by simp [hk])
      simp only [Out.bind_ok] at h
      have : Tree.prune.pruneL [Tree.node nd.rule nd.spanOf cs] = Tree.prune (.node nd.rule nd.spanOf cs) := by
        simp [Tree.prune.pruneL]
      rw [this] at hl
      have := ih2 n nt1 parent z (by omega) h
      omega
    | panic w =>
      suffices 4294967296 < nt.nodes.length + Tree.size.sizeL (Tree.prune (.node nd.rule nd.spanOf cs)) by omega
      cases n with
      | zero => cases hk
      | succ m =>
        unfold Publisher.clearFalseKernel Publisher.getNode at hk
        rw [h1] at hk
        simp only [Out.ofOption_some, Out.bind_ok] at hk
        by_cases hc : (nd.result && nd.start != nd.stop) = true
        · rw [if_pos hc] at hk
          simp at hc
          have hprune : Tree.prune (.node nd.rule nd.spanOf cs) =
              [.node nd.rule (some (nd.start, nd.stop)) (Tree.prune.pruneL cs)] := by
            have hsp : nd.spanOf = some (nd.start, nd.stop) := by simp [Node.spanOf, hc.1]
            rw [hsp, prune_some, if_neg hc.2]
          rw [hprune]
          simp only [Tree.size.sizeL, Tree.size]
          cases ha : nt.addNode nd.rule nd.start nd.stop nd.result with
          | oof => rw [ha] at hk; cases hk
          | panic v => have := addNode_panic ha; omega
          | ok y =>
            obtain ⟨ci, nt2⟩ := y
            rw [ha] at hk
            simp only [Out.bind_ok] at hk
            have e1 := addNode_len ha
            have hci : ci = nt.nodes.length := by
              unfold Publisher.addNode at ha
              split at ha
              · simp only [Out.ok.injEq, Prod.mk.injEq] at ha; exact ha.1.symm
              · cases ha
            cases hcn : nt2.connect parent ci with
            | oof => rw [hcn] at hk; cases hk
            | panic v =>
              exfalso
              unfold Publisher.connect at hcn
              have hpn : nt2.nodes[parent]? = some nt2.nodes[parent] := List.getElem?_eq_getElem (by omega)
              rw [Publisher.modify_eq hpn] at hcn
              rw [if_neg (by omega)] at hcn
              cases hcn
            | ok nt3 =>
              rw [hcn] at hk
              have e2 := connect_len hcn
              have := ih1 m nt3 ci w (by omega) hk
              omega
        · rw [if_neg hc] at hk
          cases hk

theorem sizeL_nil : Tree.size.sizeL ([] : List (Tree R)) = 0 := rfl

theorem clearFalse_conv (g : R) (self : Publisher R) {r0 : Node R} {ts} (h0 : self.nodes[0]? = some r0)
    (hr : r0.result = true) (hu : UnfL self.nodes r0.children ts)
    (hs : 2 + Tree.size.sizeL (Tree.prune.pruneL ts) ≤ 4294967296) :
    ∃ t, Cleaned g t (Tree.prune.pruneL ts) ∧ Gen.Conv (fun n => self.clearFalse g n) (.ok t) := by
  obtain ⟨N, h⟩ := clearFalse_spec g self h0 hr hu
  obtain ⟨h1, h2⟩ := h N
  have h1 := h1 (Nat.le_refl _)
  cases hz : self.clearFalse g N with
  | oof => exact absurd hz h1
  | panic z =>
    exfalso
    have hred : self.clearFalse g N = r0.children.foldlM (fun t i => Publisher.clearFalseKernel self N t 0 i)
        { nodes := [⟨0, g, 0, 0, true, []⟩, ⟨1, r0.rule, r0.start, r0.stop, r0.result, []⟩] } := by
      simp [Publisher.clearFalse, Publisher.getNode, h0, hr, Publisher.addNode, Publisher.new]
    rw [hred] at hz
    have := clear_panic_len self hu N _ 0 z (by simp) hz
    simp at this
    omega
  | ok t =>
    rw [hz] at h2
    exact ⟨t, h2, Gen.Conv.of_mono (fun n m hnm => clearFalse_le self g hnm) hz (by simp)⟩

/-- More fuel does not change the result of `parse`. -/
theorem parse_mono {R U : Type} [DecidableEq R] {P : Parser R U} {src : Source} {n m : Nat} (h : n ≤ m) (hx : parse P src n ≠ .oof) :
    parse P src m = parse P src n := by
  refine Out.le_eq ?_ hx
  unfold parse
  exact Out.le_bind (eval_le P src n m h _ _ _ _) fun x => Out.le_bind (clearFalse_le _ _ h) fun t => Out.le_refl _

end PP
