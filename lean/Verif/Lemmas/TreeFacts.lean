import Verif.Lemmas.EvalCtr
import Verif.Spec.Graph

/-! # Facts about run trees and their pruning -/
set_option linter.unusedSectionVars false
namespace PP
variable {R U : Type} {lr : Prop} {body : R → Expr R} {src : Source}

/-- Every successful node of the tree starts at or after `p`, has a span inside the source derivable from its rule, and
its descendants start at or after its own start. -/
inductive GoodT (body : R → Expr R) (src : Source) : Nat → Tree R → Prop where
  | ok {p a b r kids} : p ≤ a → (a = b ∨ (a < b ∧ b ≤ src.len)) → Derives body (body r) (src.slice a b) →
      (∀ c ∈ kids, GoodT body src a c) → GoodT body src p (.node r (some (a, b)) kids)
  | fail {p r kids} : (∀ c ∈ kids, GoodT body src p c) → GoodT body src p (.node r none kids)

theorem GoodT.mono {p p' : Nat} {t : Tree R} (h : GoodT body src p t) (hp : p' ≤ p) : GoodT body src p' t := by
  induction h generalizing p' with
  | ok h1 h2 h3 h4 => exact .ok (by omega) h2 h3 h4
  | fail h ih => exact .fail fun c hc => ih c hc hp

theorem GoodT.mk {r : R} {p : Nat} {b : Bool} {q : Nat} {ts} (hr : Run lr body src (body r) p b q ts)
    (h : ∀ t ∈ ts, GoodT body src p t) : GoodT body src p (Tree.mk r p b q ts) := by
  cases b with
  | true =>
    have := hr.pos.2
    exact .ok (Nat.le_refl _) (by omega) (hr.derives rfl) h
  | false => exact .fail h

theorem Run.good {e : Expr R} {p b q ts} (h : Run lr body src e p b q ts) : ∀ t ∈ ts, GoodT body src p t := by
  have seed : ∀ (p : Nat) (r : R), ∀ t ∈ [Tree.mk r p false p []], GoodT body src p t := by
    intro p r t ht
    obtain rfl := List.mem_singleton.mp ht
    exact .fail (by simp)
  induction h with
  | seq_ok h1 _ ih1 ih2 | seq_fail2 h1 _ ih1 ih2 | star_step h1 _ ih1 ih2 | plus_ok h1 _ ih1 ih2 =>
    intro t ht
    rcases List.mem_append.mp ht with ht | ht
    · exact ih1 t ht
    · exact (ih2 t ht).mono h1.le
  | choice_right _ _ ih1 ih2 | choice_fail _ _ ih1 ih2 =>
    intro t ht
    rcases List.mem_append.mp ht with ht | ht
    · exact ih1 t ht
    · exact ih2 t ht
  | ref h ih | lr_node _ h ih =>
    intro t ht
    obtain rfl := List.mem_singleton.mp ht
    exact GoodT.mk h ih
  | hook_call hle _ _ ih1 ih2 =>
    intro t ht
    rcases List.mem_append.mp ht with ht | ht
    · exact (ih1 t ht).mono hle
    · exact ih2 t ht
  | hook_ok _ _ ih1 ih2 =>
    intro t ht
    rcases List.mem_append.mp ht with ht | ht
    · exact ih1 t ht
    · exact ih2 t ht
  | ref_seed _ | lr_seed _ => exact seed _ _
  | _ => first | assumption | simp

/-- The pruned trees: only successful non-empty nodes. -/
inductive PrunedT : Tree R → Prop where
  | mk {a b r kids} : a ≠ b → (∀ c ∈ kids, PrunedT c) → PrunedT (.node r (some (a, b)) kids)

mutual
theorem prune_pruned : ∀ (t : Tree R), ∀ s ∈ t.prune, PrunedT s
  | .node _ none _ => by simp [Tree.prune]
  | .node r (some (p, q)) kids => by
    intro s hs
    unfold Tree.prune at hs
    split at hs
    · cases hs
    · next h =>
      obtain rfl := List.mem_singleton.mp hs
      exact .mk h (pruneL_pruned kids)
theorem pruneL_pruned : ∀ (ts : List (Tree R)), ∀ s ∈ Tree.prune.pruneL ts, PrunedT s
  | [] => by simp [Tree.prune.pruneL]
  | t :: ts => by
    intro s hs
    unfold Tree.prune.pruneL at hs
    rcases List.mem_append.mp hs with hs | hs
    · exact prune_pruned t s hs
    · exact pruneL_pruned ts s hs
end

mutual
theorem prune_good : ∀ (t : Tree R) (p : Nat), GoodT body src p t → ∀ s ∈ t.prune, GoodT body src p s
  | .node _ none _, _, _ => by simp [Tree.prune]
  | .node r (some (a, b)) kids, p, hg => by
    intro s hs
    unfold Tree.prune at hs
    split at hs
    · cases hs
    · next h =>
      obtain rfl := List.mem_singleton.mp hs
      cases hg with
      | ok h1 h2 h3 h4 => exact .ok h1 h2 h3 (pruneL_good kids a h4)
theorem pruneL_good : ∀ (ts : List (Tree R)) (p : Nat), (∀ t ∈ ts, GoodT body src p t) →
    ∀ s ∈ Tree.prune.pruneL ts, GoodT body src p s
  | [], _, _ => by simp [Tree.prune.pruneL]
  | t :: ts, p, h => by
    intro s hs
    unfold Tree.prune.pruneL at hs
    rcases List.mem_append.mp hs with hs | hs
    · exact prune_good t p (h t (by simp)) s hs
    · exact pruneL_good ts p (fun t' ht' => h t' (by simp [ht'])) s hs
end

theorem pruneL_append (ts us : List (Tree R)) :
    Tree.prune.pruneL (ts ++ us) = Tree.prune.pruneL ts ++ Tree.prune.pruneL us := by
  induction ts with
  | nil => simp [Tree.prune.pruneL]
  | cons t ts ih => simp [Tree.prune.pruneL, ih]

/-- One node of an unfolding. -/
theorem UnfL.mem {nodes : List (Node R)} {ks ts} (h : UnfL nodes ks ts) : ∀ k ∈ ks, ∃ nd cs,
    nodes[k]? = some nd ∧ UnfL nodes nd.children cs ∧ Tree.node nd.rule nd.spanOf cs ∈ ts := by
  induction h with
  | nil => simp
  | @cons k nd cs ks ts h1 h2 h3 _ ih =>
    intro j hj
    rcases List.mem_cons.mp hj with rfl | hj
    · exact ⟨nd, cs, h1, h2, by simp⟩
    · obtain ⟨nd', cs', e1, e2, e3⟩ := ih j hj
      exact ⟨nd', cs', e1, e2, by simp [e3]⟩

/-- `UnfL` implies the specification's `Unfolds`, pointwise. -/
theorem UnfL.unfolds {p : Publisher R} {ks ts} (h : UnfL p.nodes ks ts) :
    ks.length = ts.length ∧ ∀ (i : Nat) k t, ks[i]? = some k → ts[i]? = some t → p.Unfolds k t := by
  induction h with
  | nil => simp
  | @cons k nd cs ks ts h1 h2 h3 ih1 ih2 =>
    refine ⟨by simp [ih2.1], ?_⟩
    intro i j t hj ht
    cases i with
    | zero =>
      simp at hj ht
      subst hj; subst ht
      exact .mk h1 ih1.1.symm ih1.2
    | succ i => exact ih2.2 i j t (by simpa using hj) (by simpa using ht)

theorem unfolds_unfL_aux {p : Publisher R} : ∀ (ks : List Nat) (ts : List (Tree R)), ts.length = ks.length →
    (∀ (i : Nat) c t, ks[i]? = some c → ts[i]? = some t → UnfL p.nodes [c] [t]) → UnfL p.nodes ks ts
  | [], [], _, _ => .nil
  | k :: ks, t :: ts, hlen, h => by
    have h1 := h 0 k t rfl rfl
    have h2 := unfolds_unfL_aux ks ts (by simpa using hlen) (fun i c s hc hs => h (i + 1) c s (by simpa using hc) (by simpa using hs))
    exact UnfL.append h1 h2

theorem Publisher.Unfolds.unfL {p : Publisher R} {k : Nat} {t : Tree R} (h : p.Unfolds k t) : UnfL p.nodes [k] [t] := by
  induction h with
  | mk h1 h2 _ ih => exact .cons h1 (unfolds_unfL_aux _ _ h2 ih) .nil

/-- Descendants in the graph are nodes of the unfolded tree. -/
theorem UnfL.descend {p : Publisher R} {k nd cs} (hk : p.nodes[k]? = some nd) (hu : UnfL p.nodes nd.children cs) {j : Nat}
    (hb : p.Below k j) : ∃ ndj csj t, t ∈ cs ∧ p.nodes[j]? = some ndj ∧ UnfL p.nodes ndj.children csj ∧
      Tree.Has t (.node ndj.rule ndj.spanOf csj) := by
  induction hb with
  | child h1 h2 =>
    rw [hk] at h1
    obtain rfl := Option.some.inj h1
    obtain ⟨nd', cs', e1, e2, e3⟩ := hu.mem _ h2
    exact ⟨nd', cs', _, e3, e1, e2, .refl _⟩
  | step _ h1 h2 ih =>
    obtain ⟨ndj, csj, t, ht, e1, e2, hh⟩ := ih
    rw [e1] at h1
    obtain rfl := Option.some.inj h1
    obtain ⟨nd', cs', f1, f2, f3⟩ := e2.mem _ h2
    refine ⟨nd', cs', t, ht, f1, f2, ?_⟩
    clear ht
    generalize hs : (Tree.node ndj.rule ndj.spanOf csj) = s at hh
    induction hh with
    | refl => subst hs; exact .step f3 (.refl _)
    | step g1 _ ih => exact .step g1 (ih hs)

theorem PrunedT.has {t s : Tree R} (h : PrunedT t) (hs : Tree.Has t s) : PrunedT s := by
  induction hs with
  | refl => exact h
  | step hc _ ih => cases h with | mk _ hk => exact ih (hk _ hc)

theorem GoodT.has {t s : Tree R} {p : Nat} (h : GoodT body src p t) (hs : Tree.Has t s) :
    ∃ p', p ≤ p' ∧ GoodT body src p' s := by
  induction hs generalizing p with
  | refl => exact ⟨p, Nat.le_refl _, h⟩
  | step hc _ ih =>
    cases h with
    | ok h1 _ _ h4 =>
      obtain ⟨p', h5, h6⟩ := ih (h4 _ hc)
      exact ⟨p', by omega, h6⟩
    | fail h4 => exact ih (h4 _ hc)

end PP
