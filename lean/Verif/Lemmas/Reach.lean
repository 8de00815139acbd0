import Verif.Lemmas.ParseSpec

/-! # Reachable states satisfy the invariant -/
set_option linter.unusedSectionVars false
namespace PP
variable {R U : Type} [DecidableEq R] {lr : Prop}

theorem Reached.inv {P : Parser R U} {src : Source} {ok : Expr R → Prop} (hh : P.HooksOK src)
    (hbody : ∀ r, lr ∨ (P.body r).LRFree) (hok : ∀ e, ok e → lr ∨ e.LRFree) {k : Nat} {st : St R U}
    (h : Reached P src ok k st) : ∃ D, Inv lr P.body src D st ∧ ¬ D k ∧ k < st.pub.nodes.length := by
  induction h with
  | init => exact ⟨_, inv_new _ _, id, by simp [St.new, Publisher.new]⟩
  | @call k st n e p b q st' _ he hc ih =>
    obtain ⟨D, hi, hk, hl⟩ := ih
    have := eval_ctr P src hh hbody n e (hok e he) D st k p hi hk hl
    rw [hc] at this
    obtain ⟨D', ks, ts, h1, h2, h3, h4, h5, h6⟩ := this
    refine ⟨D', h1, fun h => ?_, Nat.lt_of_lt_of_le hl h2.len⟩
    rcases h2.fresh _ h with h | h
    · exact hk h
    · omega
  | @node k st r k' st' _ hc ih =>
    obtain ⟨D, hi, hk, hl⟩ := ih
    rcases reserve_cases st r with h | h
    · rw [h] at hc; cases hc
    · rw [h] at hc
      injection hc with hc
      obtain ⟨rfl, rfl⟩ := Prod.mk.inj hc
      exact ⟨D, hi.reserve r, fun h => by have := hi.bound _ h; omega, by simp⟩

/-- The contract, at a reachable state. -/
theorem Reached.post {P : Parser R U} {src : Source} {ok : Expr R → Prop} (hh : P.HooksOK src)
    (hbody : ∀ r, lr ∨ (P.body r).LRFree) (hok : ∀ e, ok e → lr ∨ e.LRFree) {k : Nat} {st : St R U}
    (h : Reached P src ok k st) (n : Nat) {e : Expr R} (he : lr ∨ e.LRFree) (p : Nat) :
    ∃ D, Inv lr P.body src D st ∧ ¬ D k ∧ k < st.pub.nodes.length ∧
      Post lr P.body src D st k (Run lr P.body src e p) (eval P src n e k p st) := by
  obtain ⟨D, hi, hk, hl⟩ := h.inv hh hbody hok
  exact ⟨D, hi, hk, hl, eval_ctr P src hh hbody n e he D st k p hi hk hl⟩

theorem Reached.run {P : Parser R U} {src : Source} {ok : Expr R → Prop} (hh : P.HooksOK src)
    (hbody : ∀ r, lr ∨ (P.body r).LRFree) (hok : ∀ e, ok e → lr ∨ e.LRFree) {k : Nat} {st : St R U}
    (h : Reached P src ok k st) {n : Nat} {e : Expr R} (he : lr ∨ e.LRFree) {p : Nat} {b q st'}
    (hc : eval P src n e k p st = .ok (b, q, st')) : ∃ ts, Run lr P.body src e p b q ts := by
  obtain ⟨D, _, _, _, hp⟩ := h.post hh hbody hok n he p
  rw [hc] at hp
  obtain ⟨_, _, ts, _, _, _, _, _, hr⟩ := hp
  exact ⟨ts, hr⟩

theorem Tree.size_mem {t : Tree R} {ts : List (Tree R)} (h : t ∈ ts) : t.size ≤ Tree.size.sizeL ts := by
  induction ts with
  | nil => cases h
  | cons a ts ih =>
    unfold Tree.size.sizeL
    rcases List.mem_cons.mp h with rfl | h
    · omega
    · have := ih h; omega

theorem Tree.Has.size_le {t s : Tree R} (h : Tree.Has t s) : s.size ≤ t.size := by
  induction h with
  | refl => exact Nat.le_refl _
  | @step t s c hc _ ih =>
    cases t with
    | node r sp kids =>
      have := Tree.size_mem (show c ∈ kids from hc)
      have h2 : (Tree.node r sp kids).size = 1 + Tree.size.sizeL kids := by rw [Tree.size]
      omega

theorem UnfL.unique {nodes : List (Node R)} {ks ts us} (h : UnfL nodes ks ts) (h' : UnfL nodes ks us) : ts = us := by
  induction h generalizing us with
  | nil => cases h'; rfl
  | cons h1 h2 h3 ih1 ih2 =>
    cases h' with
    | cons g1 g2 g3 =>
      rw [h1] at g1
      obtain rfl := Option.some.inj g1
      rw [ih1 g2, ih2 g3]

/-- No key with a finite unfolding is below itself. -/
theorem UnfL.acyclic {p : Publisher R} {k : Nat} {nd : Node R} {cs} (hk : p.nodes[k]? = some nd)
    (hu : UnfL p.nodes nd.children cs) : ¬ p.Below k k := by
  intro hb
  obtain ⟨ndj, csj, t, ht, e1, e2, hh⟩ := UnfL.descend hk hu hb
  rw [hk] at e1
  obtain rfl := Option.some.inj e1
  obtain rfl := hu.unique e2
  have h1 := hh.size_le
  have h2 := Tree.size_mem ht
  simp only [Tree.size] at h1
  omega

theorem Publisher.Below.mem {p : Publisher R} {k j : Nat} (h : p.Below k j) :
    ∃ (i : Nat) (nd : Node R), p.nodes[i]? = some nd ∧ j ∈ nd.children := by
  cases h with
  | child h1 h2 => exact ⟨_, _, h1, h2⟩
  | step _ h1 h2 => exact ⟨_, _, h1, h2⟩

theorem Inv.acyclic {body : R → Expr R} {src : Source} {D : Nat → Prop} {st : St R U} (hi : Inv lr body src D st)
    (k : Nat) : ¬ st.pub.Below k k := by
  intro hb
  obtain ⟨i, nd, h1, h2⟩ := hb.mem
  obtain ⟨t, ht⟩ := hi.done k (hi.kids i nd h1 k h2)
  cases ht with
  | cons g1 g2 g3 => exact UnfL.acyclic g1 g2 hb

end PP
