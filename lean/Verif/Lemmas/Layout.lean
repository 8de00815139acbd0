import Verif.Spec.Layout
import Verif.Lemmas.Depth
import Verif.Lemmas.Clear
import Verif.Spec.Graph

/-! # `clear_false` writes its forest out in pre-order -/
namespace PP
variable {R : Type}

theorem Tree.layout_length (k : Nat) (ts : List (Tree R)) : (layout k ts).length = Tree.size.sizeL ts := by
  induction k, ts using Tree.layout.induct with
  | case1 => simp [layout, Tree.size.sizeL]
  | case2 k r s kids ts ih1 ih2 =>
    simp only [layout, List.length_cons, List.length_append, ih1, ih2, Tree.size.sizeL, Tree.size]; omega

/-- Some more children for a node. -/
def Node.addKids (ks : List Nat) (nd : Node R) : Node R := { nd with children := nd.children ++ ks }

theorem modify_append_left {α : Type} (f : α → α) {l l' : List α} {i : Nat} (h : i < l.length) :
    (l ++ l').modify i f = l.modify i f ++ l' := by
  apply List.ext_getElem?
  intro j
  simp only [List.getElem?_modify, List.getElem?_append, List.length_modify]
  by_cases hj : j < l.length
  · simp [hj]
  · simp [hj, show i ≠ j by omega]

theorem modify_append_at {α : Type} (f : α → α) (l l' : List α) (a : α) :
    (l ++ a :: l').modify l.length f = l ++ f a :: l' := by
  apply List.ext_getElem?
  intro j
  simp only [List.getElem?_modify, List.getElem?_append]
  by_cases hj : j < l.length
  · simp [hj, show l.length ≠ j by omega]
  · obtain ⟨m, rfl⟩ : ∃ m, j = l.length + m := ⟨j - l.length, by omega⟩
    cases m <;> simp

theorem modify_ok {p p' : Publisher R} {k : Nat} {f : Node R → Node R} (h : p.modify k f = .ok p') : p'.nodes = p.nodes.modify k f := by
  unfold Publisher.modify at h
  split at h
  · cases h
  · rename_i nd hnd
    injection h with h
    subst h
    apply List.ext_getElem?
    intro j
    simp only [List.getElem?_modify, List.getElem?_set]
    by_cases hj : k = j
    · subst hj
      have := lt_of_getElem?_some hnd
      rw [if_pos rfl, if_pos this, hnd]; simp
    · simp [hj]

theorem clear_layout (self : Publisher R) {ks : List Nat} {ts : List (Tree R)} (h : UnfL self.nodes ks ts) : ∀ n (nt : Publisher R) parent nt',
    parent < nt.nodes.length → (ks.foldlM (fun t i => Publisher.clearFalseKernel self n t parent i) nt : Out _) = .ok nt' →
    nt'.nodes = nt.nodes.modify parent (Node.addKids (Tree.roots nt.nodes.length (Tree.prune.pruneL ts))) ++
      Tree.layout nt.nodes.length (Tree.prune.pruneL ts) := by
  induction h with
  | nil =>
    intro n nt parent nt' hp hn
    simp only [List.foldlM, pure] at hn
    injection hn with hn
    subst hn
    simp only [Tree.prune.pruneL, Tree.roots, Tree.layout, List.append_nil]
    rw [show (Node.addKids [] : Node R → Node R) = id by funext x; simp [Node.addKids], List.modify_id]
  | @cons k nd cs ks ts h1 h2 h3 ih1 ih2 =>
    intro n nt parent nt' hp hn
    rw [List.foldlM_cons] at hn
    obtain ⟨nt1, hk, hn⟩ := Out.bind_eq_ok.mp hn
    cases n with
    | zero => simp [Publisher.clearFalseKernel] at hk
    | succ n =>
      unfold Publisher.clearFalseKernel at hk
      obtain ⟨nd', hnd, hk⟩ := Out.bind_eq_ok.mp hk
      obtain rfl : nd' = nd := by simpa [Publisher.getNode, h1] using hnd.symm
      have skip : Tree.prune (.node nd'.rule nd'.spanOf cs) = [] → nt = nt1 → nt'.nodes = nt.nodes.modify parent
          (Node.addKids (Tree.roots nt.nodes.length (Tree.prune.pruneL (.node nd'.rule nd'.spanOf cs :: ts)))) ++
          Tree.layout nt.nodes.length (Tree.prune.pruneL (.node nd'.rule nd'.spanOf cs :: ts)) := by
        intro he hnt
        subst hnt
        rw [Tree.prune.pruneL, he, List.nil_append]
        exact ih2 _ _ _ _ hp hn
      cases hres : nd'.result with
      | false =>
        rw [hres] at hk
        refine skip (by rw [show nd'.spanOf = none by simp [Node.spanOf, hres], prune_none]) ?_
        simpa using hk
      | true =>
        by_cases hse : nd'.start = nd'.stop
        · rw [hres, if_neg (by simpa using hse)] at hk
          refine skip (by rw [show nd'.spanOf = some (nd'.start, nd'.stop) by simp [Node.spanOf, hres], prune_some, if_pos hse]) ?_
          simpa using hk
        · rw [hres, if_pos (by simpa using hse)] at hk
          obtain ⟨⟨ci, nt2⟩, ha, hk2⟩ := Out.bind_eq_ok.mp hk
          obtain ⟨nt3, hc, hk3⟩ := Out.bind_eq_ok.mp hk2
          unfold Publisher.addNode at ha
          split at ha
          case isFalse => cases ha
          injection ha with ha
          obtain ⟨rfl, rfl⟩ : nt.nodes.length = ci ∧ _ = nt2 := by simpa using ha
          unfold Publisher.connect at hc
          split at hc
          case isTrue => cases hc
          have hc' := modify_ok hc
          simp only at hc'
          rw [modify_append_left _ hp] at hc'
          have e1 := ih1 n nt3 nt.nodes.length nt1 (by rw [hc']; simp) hk3
          have hl3 : nt3.nodes.length = nt.nodes.length + 1 := by rw [hc']; simp
          rw [hl3, hc'] at e1
          have hlm : (nt.nodes.modify parent fun nd => { nd with children := nd.children ++ [nt.nodes.length] }).length = nt.nodes.length := by simp
          have key := modify_append_at (Node.addKids (Tree.roots (nt.nodes.length + 1) (Tree.prune.pruneL cs)))
            (nt.nodes.modify parent fun nd => { nd with children := nd.children ++ [nt.nodes.length] }) []
            (⟨nt.nodes.length, nd'.rule, nd'.start, nd'.stop, true, []⟩ : Node R)
          rw [hlm] at key
          rw [key] at e1
          have e2 := ih2 (n + 1) nt1 parent nt' (by rw [e1]; simp; omega) hn
          have hl1 : nt1.nodes.length = nt.nodes.length + 1 + Tree.size.sizeL (Tree.prune.pruneL cs) := by
            rw [e1]; simp [Tree.layout_length]; omega
          rw [hl1, e1, List.append_assoc, modify_append_left _ (by simpa using hp), List.modify_modify_eq] at e2
          have hpr : Tree.prune.pruneL (.node nd'.rule nd'.spanOf cs :: ts) =
              .node nd'.rule (some (nd'.start, nd'.stop)) (Tree.prune.pruneL cs) :: Tree.prune.pruneL ts := by
            rw [Tree.prune.pruneL]
            rw [show nd'.spanOf = some (nd'.start, nd'.stop) by simp [Node.spanOf, hres], prune_some, if_neg hse]; rfl
          rw [hpr, e2]
          simp only [Tree.roots, Tree.layout, Tree.size, Node.addKids, List.nil_append, List.append_assoc, List.cons_append,
            Option.getD_some, Option.isSome_some]
          congr 1
          congr 1
          funext x
          simp [Node.addKids, Nat.add_assoc]

/-- The whole store `clear_false` returns. -/
theorem clearFalse_layout (g : R) (self : Publisher R) {r0 : Node R} {ts : List (Tree R)} (h0 : self.nodes[0]? = some r0)
    (hr : r0.result = true) (hu : UnfL self.nodes r0.children ts) {n : Nat} {t : Publisher R} (h : self.clearFalse g n = .ok t) :
    t.nodes = ⟨0, g, 0, 0, true, Tree.roots 2 (Tree.prune.pruneL ts)⟩ :: ⟨1, r0.rule, r0.start, r0.stop, true, []⟩ ::
      Tree.layout 2 (Tree.prune.pruneL ts) := by
  have hred : self.clearFalse g n = r0.children.foldlM (fun t i => Publisher.clearFalseKernel self n t 0 i)
      { nodes := [⟨0, g, 0, 0, true, []⟩, ⟨1, r0.rule, r0.start, r0.stop, true, []⟩] } := by
    simp [Publisher.clearFalse, Publisher.getNode, h0, hr, Publisher.addNode, Publisher.new]
  rw [hred] at h
  have := clear_layout self hu n _ 0 t (by simp) h
  simpa [Node.addKids] using this

/-! ### Printing -/

/-- Every invocation succeeded. -/
def Tree.okL : List (Tree R) → Prop
  | [] => True
  | .node _ s kids :: ts => s.isSome = true ∧ okL kids ∧ okL ts

theorem Tree.okL_append {ts us : List (Tree R)} (h1 : okL ts) (h2 : okL us) : okL (ts ++ us) := by
  induction ts with
  | nil => exact h2
  | cons t ts ih => obtain ⟨r, s, k⟩ := t; simp only [List.cons_append, okL] at h1 ⊢; exact ⟨h1.1, h1.2.1, ih h1.2.2⟩

theorem UnfL.prune_okL {nodes : List (Node R)} {ks : List Nat} {ts : List (Tree R)} (h : UnfL nodes ks ts) : Tree.okL (Tree.prune.pruneL ts) := by
  induction h with
  | nil => simp [Tree.prune.pruneL, Tree.okL]
  | @cons k nd cs ks ts h1 h2 h3 ih1 ih2 =>
    rw [Tree.prune.pruneL]
    refine Tree.okL_append ?_ ih2
    unfold Node.spanOf
    split
    · rw [prune_some]
      split
      · simp [Tree.okL]
      · simp only [Tree.okL]; exact ⟨rfl, ih1, trivial⟩
    · rw [prune_none]; simp [Tree.okL]

theorem Tree.roots_length (k : Nat) (ts : List (Tree R)) : (roots k ts).length = ts.length := by
  induction ts generalizing k with
  | nil => rfl
  | cons t ts ih => simp [roots, ih]

theorem print_layout (p : Publisher R) (k : Nat) (ts : List (Tree R)) : ∀ n d, 0 < k → Tree.okL ts → Tree.htL ts ≤ n →
    (∀ i nd, (Tree.layout k ts)[i]? = some nd → p.nodes[k + i]? = some nd) →
    Publisher.printChildren (fun c => Publisher.printTrue p n c d) (Tree.roots k ts) = .ok (Tree.printout d k ts) := by
  induction k, ts using Tree.layout.induct with
  | case1 k => intro n d _ _ _ _; simp [Tree.roots, Publisher.printChildren, Tree.printout]
  | case2 k r s kids ts ih1 ih2 =>
    intro n d hk hok hht hl
    simp only [Tree.okL] at hok
    simp only [Tree.htL] at hht
    obtain ⟨n, rfl⟩ : ∃ m, n = m + 1 := ⟨n - 1, by omega⟩
    have e0 : p.nodes[k]? = some ⟨k, r, (s.getD (0, 0)).1, (s.getD (0, 0)).2, s.isSome, Tree.roots (k + 1) kids⟩ := hl 0 _ (by simp [Tree.layout])
    have e1 := ih1 n (d + 1) (by omega) hok.2.1 (by omega) (fun i nd h => by
      have h' : (Tree.layout k (.node r s kids :: ts))[i + 1]? = some nd := by
        simp only [Tree.layout, List.getElem?_cons_succ]
        rw [List.getElem?_append_left (lt_of_getElem?_some h)]; exact h
      have := hl _ _ h'
      rwa [show k + (i + 1) = k + 1 + i by omega] at this)
    have e2 := ih2 (n + 1) d (by omega) hok.2.2 (by omega) (fun i nd h => by
      have h' : (Tree.layout k (.node r s kids :: ts))[Tree.size.sizeL kids + i + 1]? = some nd := by
        simp only [Tree.layout, List.getElem?_cons_succ]
        rw [List.getElem?_append_right (by rw [Tree.layout_length]; omega), Tree.layout_length, Nat.add_sub_cancel_left]; exact h
      have := hl _ _ h'
      rwa [show k + (Tree.size.sizeL kids + i + 1) = k + 1 + Tree.size.sizeL kids + i by omega] at this)
    have e3 : Publisher.printTrue p (n + 1) k d = .ok (.node d false k r (s.getD (0, 0)).1 (s.getD (0, 0)).2 s.isSome kids.length ::
        Tree.printout (d + 1) (k + 1) kids) := by
      unfold Publisher.printTrue
      simp only [Publisher.getNode, e0, Out.ofOption, Out.bind_ok, hok.1, Bool.not_true, Bool.false_eq_true, if_false, e1,
        Publisher.nodeLine, Tree.roots_length]
    simp only [Tree.roots, Publisher.printChildren, if_neg (show ¬ k = 0 by omega), e3, Out.bind_ok, Tree.size]
    rw [show k + (1 + Tree.size.sizeL kids) = k + 1 + Tree.size.sizeL kids by omega, e2]
    simp [Tree.printout]

theorem Publisher.Unfolds.det {p : Publisher R} {k : Nat} {t u : Tree R} (h : p.Unfolds k t) (h' : p.Unfolds k u) : t = u := by
  induction h generalizing u with
  | @mk k nd kids h1 h2 h3 ih =>
    cases h' with
    | @mk _ nd' kids' h1' h2' h3' =>
      rw [h1] at h1'
      injection h1' with h1'
      subst h1'
      congr 1
      apply List.ext_getElem?
      intro i
      by_cases hi : i < nd.children.length
      · have a1 : kids[i]? = some kids[i] := List.getElem?_eq_getElem (by omega)
        have a2 : kids'[i]? = some kids'[i] := List.getElem?_eq_getElem (by omega)
        have a3 : nd.children[i]? = some nd.children[i] := List.getElem?_eq_getElem (by omega)
        rw [a1, a2, ih i _ _ a3 a1 (h3' i _ _ a3 a2)]
      · rw [List.getElem?_eq_none (by omega), List.getElem?_eq_none (by omega)]

end PP
