import Verif.Lemmas.Reach
import Verif.Lemmas.NoUser
import Verif.Model.Parsers

/-! # Safety properties of every generated parser: C01, C02, C03, C16, C17, C18, C20, C21, C24, C49

All theorems hold for every grammar (left recursive or not, with arbitrary involved sets), every source, every position and
every amount of fuel.  `HooksOK` (Spec/Calls.lean) is the only assumption: user-written hooked calls hand back an answer
of the closure they wrap, or fail in place.  Parsers without hooks satisfy it (`plain_hooksOK`). -/
set_option linter.unusedSectionVars false
namespace PP
variable {R U : Type} [DecidableEq R]

theorem plain_hooksOK (body : R → Expr R) (g : R) (src : Source) : (Parser.plain body g).HooksOK src :=
  fun _ _ _ => .fail
theorem plain_hooksCalm (body : R → Expr R) (g : R) (src : Source) : (Parser.plain body g).HooksCalm src :=
  fun _ _ _ => .ret

/-! ## C01, C02, C24: every completed call -/

/-- C01: a failed match hands back the position it was given. -/
theorem C01_failed_match_consumes_nothing (P : Parser R U) (src : Source) (hh : P.HooksOK src) {k : Nat} {st : St R U}
    (hr : Reached P src Expr.Any k st) {n : Nat} {e : Expr R} {p q : Nat} {st' : St R U}
    (hc : eval P src n e k p st = .ok (false, q, st')) : q = p := by
  obtain ⟨ts, h⟩ := hr.run (lr := True) hh (fun _ => Or.inl trivial) (fun _ _ => Or.inl trivial) (Or.inl trivial) hc
  exact h.pos.1 rfl

/-- C02: positions never go backwards and never beyond the source, and stay in `u32` range. -/
theorem C02_positions_stay_in_source (P : Parser R U) (src : Source) (hh : P.HooksOK src) {k : Nat} {st : St R U}
    (hr : Reached P src Expr.Any k st) {n : Nat} {e : Expr R} {p : Nat} {b : Bool} {q : Nat} {st' : St R U}
    (hc : eval P src n e k p st = .ok (b, q, st')) :
    (q = p ∨ (p < q ∧ q ≤ src.len)) ∧ (p < 2 ^ 32 → q < 2 ^ 32) := by
  obtain ⟨ts, h⟩ := hr.run (lr := True) hh (fun _ => Or.inl trivial) (fun _ _ => Or.inl trivial) (Or.inl trivial) hc
  refine ⟨h.pos.2, fun hp => ?_⟩
  have : src.len < 4294967296 := Nat.mod_lt _ (by decide)
  rcases h.pos.2 with h | h <;> omega

/-- C24: whatever a closure accepts is derivable from it in the underlying context-free grammar. -/
theorem C24_accepted_text_is_derivable (P : Parser R U) (src : Source) (hh : P.HooksOK src) {k : Nat} {st : St R U}
    (hr : Reached P src Expr.Any k st) {n : Nat} {e : Expr R} {p q : Nat} {st' : St R U}
    (hc : eval P src n e k p st = .ok (true, q, st')) : Derives P.body e (src.slice p q) := by
  obtain ⟨ts, h⟩ := hr.run (lr := True) hh (fun _ => Or.inl trivial) (fun _ _ => Or.inl trivial) (Or.inl trivial) hc
  exact h.derives rfl

/-! ## C03: no internal panic -/

/-- C03: the only panics of a call are exhaustion of the 2^32 node keys and panics raised inside a user hook. -/
theorem C03_no_internal_panic (P : Parser R U) (src : Source) (hh : P.HooksOK src) {k : Nat} {st : St R U}
    (hr : Reached P src Expr.Any k st) (n : Nat) (e : Expr R) (p : Nat) {x : Panic}
    (hc : eval P src n e k p st = .panic x) : x = .keyOverflow ∨ x = .user := by
  obtain ⟨D, _, _, _, h⟩ := hr.post (lr := True) hh (fun _ => Or.inl trivial) (fun _ _ => Or.inl trivial) n (e := e)
    (Or.inl trivial) p
  rw [hc] at h
  exact h

/-- C03 for `parse`. -/
theorem C03_parse_no_internal_panic (P : Parser R U) (src : Source) (hh : P.HooksOK src) (n : Nat) {x : Panic}
    (hc : parse P src n = .panic x) : x = .keyOverflow ∨ x = .user :=
  parse_panic (lr := True) P src hh (fun _ => Or.inl trivial) hc

/-- C03, when the hooks (if any) do not panic: the only panic left is exhaustion of the 2^32 node keys. -/
theorem C03_only_key_exhaustion (P : Parser R U) (src : Source) (hh : P.HooksOK src) (hcalm : P.HooksCalm src)
    {k : Nat} {st : St R U} (hr : Reached P src Expr.Any k st) (n : Nat) (e : Expr R) (p : Nat) {x : Panic}
    (hc : eval P src n e k p st = .panic x) : x = .keyOverflow := by
  rcases C03_no_internal_panic P src hh hr n e p hc with h | rfl
  · exact h
  · exact absurd hc (eval_noUser P src hcalm n e k p st)

/-! ## C16: the node graph -/

/-- C16: in every reachable state child keys are valid, the graph is acyclic, and the root is nobody's child. -/
theorem C16_node_graph_is_a_forest (P : Parser R U) (src : Source) (hh : P.HooksOK src) {k : Nat} {st : St R U}
    (hr : Reached P src Expr.Any k st) :
    (∀ (i : Nat) (nd : Node R), st.pub.nodes[i]? = some nd → ∀ c ∈ nd.children, 0 < c ∧ c < st.pub.nodes.length) ∧
    (∀ i, ¬ st.pub.Below i i) := by
  obtain ⟨D, hi, _, _⟩ := hr.inv (lr := True) hh (fun _ => Or.inl trivial) (fun _ _ => Or.inl trivial)
  refine ⟨fun i nd h c hc => ?_, hi.acyclic⟩
  have hD := hi.kids i nd h c hc
  refine ⟨Nat.pos_of_ne_zero ?_, hi.bound c hD⟩
  rintro rfl
  exact hi.root hD

theorem Publisher.Below.lt {t : Publisher R} (ho : ∀ (k : Nat) (nd : Node R), t.nodes[k]? = some nd →
    ∀ c ∈ nd.children, k < c) {i j : Nat} (h : t.Below i j) : i < j := by
  induction h with
  | child h1 h2 => exact ho _ _ h1 _ h2
  | step _ h1 h2 ih => exact Nat.lt_trans ih (ho _ _ h1 _ h2)

/-- C16 for the tree handed out by `parse`: moreover parents precede their children. -/
theorem C16_parse_tree_is_a_forest (P : Parser R U) (src : Source) (hh : P.HooksOK src) {n : Nat} {b : Bool} {q : Nat}
    {t : Publisher R} (hc : parse P src n = .ok (b, q, t)) :
    (∀ (i : Nat) (nd : Node R), t.nodes[i]? = some nd → nd.index = i ∧ ∀ c ∈ nd.children, i < c ∧ c < t.nodes.length) ∧
    (∀ i, ¬ t.Below i i) := by
  obtain ⟨ts, _, hcl⟩ := parse_spec (lr := True) P src hh (fun _ => Or.inl trivial) hc
  refine ⟨hcl.order, fun i h => ?_⟩
  have := h.lt (fun k nd e c hc => ((hcl.order k nd e).2 c hc).1)
  omega

/-! ## C17, C18, C20: nodes of the returned tree -/

/-- All facts about a node below the root. -/
theorem parse_node (P : Parser R U) (src : Source) (hh : P.HooksOK src) {n : Nat} {b : Bool} {q : Nat}
    {t : Publisher R} (hc : parse P src n = .ok (b, q, t)) {j : Nat} (hb : t.Below 0 j) :
    ∃ nd cs, t.nodes[j]? = some nd ∧ nd.result = true ∧ nd.start < nd.stop ∧ nd.stop ≤ src.len ∧
      Derives P.body (P.body nd.rule) (src.slice nd.start nd.stop) ∧
      UnfL t.nodes nd.children cs ∧ PrunedT (.node nd.rule nd.spanOf cs) ∧
      ∃ p, GoodT P.body src p (.node nd.rule nd.spanOf cs) := by
  obtain ⟨ts, hr, ⟨ks, h0, hu⟩, ho⟩ := parse_spec (lr := True) P src hh (fun _ => Or.inl trivial) hc
  obtain ⟨nd, cs, t', ht, e1, e2, hh⟩ := UnfL.descend h0 hu hb
  have hp := (pruneL_pruned _ _ ht).has hh
  obtain ⟨p, _, hg⟩ := (pruneL_good _ 0 hr.good _ ht).has hh
  have hres : nd.result = true := by
    cases hres : nd.result with
    | true => rfl
    | false => rw [Node.spanOf, hres] at hp; cases hp
  have hsp : nd.spanOf = some (nd.start, nd.stop) := by simp [Node.spanOf, hres]
  refine ⟨nd, cs, e1, hres, ?_⟩
  rw [hsp] at hp hg
  have hp0 := hp
  have hg0 := hg
  cases hp with
  | mk hne _ =>
    cases hg with
    | ok _ h2 h3 _ =>
      refine ⟨by omega, by omega, h3, e2, ?_, p, ?_⟩
      · rw [hsp]; exact hp0
      · rw [hsp]; exact hg0

/-- C17: below the root there are only successful, non-empty matches inside the source. -/
theorem C17_only_real_matches (P : Parser R U) (src : Source) (hh : P.HooksOK src) {n : Nat} {b : Bool} {q : Nat}
    {t : Publisher R} (hc : parse P src n = .ok (b, q, t)) {j : Nat} {nd : Node R} (hb : t.Below 0 j)
    (hj : t.nodes[j]? = some nd) : nd.result = true ∧ nd.start < nd.stop ∧ nd.stop ≤ src.len := by
  obtain ⟨nd', cs, h1, h2, h3, h4, _⟩ := parse_node P src hh hc hb
  rw [hj] at h1
  obtain rfl := Option.some.inj h1
  exact ⟨h2, h3, h4⟩

/-- C18: the text of every node below the root is derivable from the node's rule. -/
theorem C18_nodes_are_derivations (P : Parser R U) (src : Source) (hh : P.HooksOK src) {n : Nat} {b : Bool} {q : Nat}
    {t : Publisher R} (hc : parse P src n = .ok (b, q, t)) {j : Nat} {nd : Node R} (hb : t.Below 0 j)
    (hj : t.nodes[j]? = some nd) : Derives P.body (P.body nd.rule) (src.slice nd.start nd.stop) := by
  obtain ⟨nd', cs, h1, _, _, _, h5, _⟩ := parse_node P src hh hc hb
  rw [hj] at h1
  obtain rfl := Option.some.inj h1
  exact h5

/-- C20: a child never starts before its parent (this includes children of the root, which starts at 0).  It may end after
it: `C20_child_may_end_after_parent`. -/
theorem C20_children_start_within_parent (P : Parser R U) (src : Source) (hh : P.HooksOK src) {n : Nat}
    {b : Bool} {q : Nat} {t : Publisher R} (hc : parse P src n = .ok (b, q, t)) {i j : Nat} {nd ndj : Node R}
    (hb : t.Below 0 i) (hi : t.nodes[i]? = some nd) (hj : t.nodes[j]? = some ndj) (hij : j ∈ nd.children) :
    nd.start ≤ ndj.start := by
  obtain ⟨nd', cs, h1, h2, _, _, _, h6, _, p, h8⟩ := parse_node P src hh hc hb
  rw [hi] at h1
  obtain rfl := Option.some.inj h1
  obtain ⟨ndj', csj, g1, g2, g3⟩ := h6.mem _ hij
  rw [hj] at g1
  obtain rfl := Option.some.inj g1
  obtain ⟨ndj', _, k1, k2, _⟩ := parse_node P src hh hc (.step hb hi hij)
  rw [hj] at k1
  obtain rfl := Option.some.inj k1
  rw [show nd.spanOf = some (nd.start, nd.stop) by simp [Node.spanOf, h2]] at h8
  cases h8 with
  | ok _ _ _ h4 =>
    have := h4 _ g3
    rw [show ndj.spanOf = some (ndj.start, ndj.stop) by simp [Node.spanOf, k2]] at this
    cases this with
    | ok h _ _ _ => exact h

/-- Witness grammar for C20: `<A> = 'x', 'y'; <Grammar> = &<A>, 'x';` -/
inductive LookW where
  | A | G
  deriving DecidableEq
def lookW : Parser LookW Unit :=
  .plain (fun
    | .A => .sequence (.terminal 120) (.terminal 121)
    | .G => .sequence (.andPredicate (.varName .A)) (.terminal 120)) .G

/-- C20 is false for the end: parsing "xy" gives a node 0..1 whose child spans 0..2. -/
theorem C20_child_may_end_after_parent : ∃ t, parse lookW ⟨[120, 121]⟩ 20 = .ok (true, 1, t) ∧
    ∃ i j nd ndj, t.Below 0 i ∧ t.nodes[i]? = some nd ∧ t.nodes[j]? = some ndj ∧ j ∈ nd.children ∧
      nd.stop < ndj.stop := by
  refine ⟨⟨[⟨0, .G, 0, 0, true, [2]⟩, ⟨1, .G, 0, 0, true, []⟩, ⟨2, .G, 0, 1, true, [3]⟩, ⟨3, .A, 0, 2, true, []⟩]⟩,
    by decide +kernel, 2, 3, ⟨2, .G, 0, 1, true, [3]⟩, ⟨3, .A, 0, 2, true, []⟩, ?_, rfl, rfl, by simp, by simp⟩
  exact .child rfl (by simp)

/-- Witness grammar for duplicated siblings: `<A> = 'x'; <Grammar> = (<A>, 'y') / <A>;` -/
def dupW : Parser LookW Unit :=
  .plain (fun
    | .A => .terminal 120
    | .G => .orderedChoice (.subexpression (.sequence (.varName .A) (.terminal 121))) (.varName .A)) .G

/-- C20, second refutation: the child matched by the failed first alternative stays, so on "x" the start rule, which
references `A` once in the alternative that succeeded, has two `A` children over the same text. -/
theorem C20_failed_alternative_leaves_duplicate_child : ∃ t, parse dupW ⟨[120]⟩ 20 = .ok (true, 1, t) ∧
    ∃ i nd a b, t.Below 0 i ∧ t.nodes[i]? = some nd ∧ nd.rule = .G ∧ nd.children = [a, b] ∧
      (t.nodes[a]?.map Node.data) = some (.A, 0, 1, true) ∧ (t.nodes[b]?.map Node.data) = some (.A, 0, 1, true) := by
  refine ⟨⟨[⟨0, .G, 0, 0, true, [2]⟩, ⟨1, .G, 0, 0, true, []⟩, ⟨2, .G, 0, 1, true, [3, 4]⟩, ⟨3, .A, 0, 1, true, []⟩,
    ⟨4, .A, 0, 1, true, []⟩]⟩,
    by decide +kernel, 2, ⟨2, .G, 0, 1, true, [3, 4]⟩, 3, 4, ?_, rfl, rfl, rfl, rfl, rfl⟩
  exact .child rfl (by simp)

/-! ## C49: what `parse` returns as a whole -/

/-- C49: key 0 is the root `(Grammar, 0, 0, true)`.  If the parse failed it stops at 0 and the root has no child; if it
succeeded on the empty prefix the root has no child either; otherwise the root's only child is the start rule's node,
spanning exactly `0..q`. -/
theorem C49_parse_result_consistent (P : Parser R U) (src : Source) (hh : P.HooksOK src) {n : Nat} {b : Bool} {q : Nat}
    {t : Publisher R} (hc : parse P src n = .ok (b, q, t)) :
    ∃ ks, t.nodes[0]? = some ⟨0, P.grammar, 0, 0, true, ks⟩ ∧
      (b = false → q = 0 ∧ ks = []) ∧
      (b = true → q = 0 → ks = []) ∧
      (b = true → 0 < q → ∃ c nd, ks = [c] ∧ t.nodes[c]? = some nd ∧ nd.data = (P.grammar, 0, q, true)) := by
  obtain ⟨ts, hr, ⟨ks, h0, hu⟩, ho⟩ := parse_spec (lr := True) P src hh (fun _ => Or.inl trivial) hc
  refine ⟨ks, h0, ?_⟩
  have hb0 : b = false → q = 0 := hr.pos.1
  have key : ∃ kids, ts = [Tree.mk P.grammar 0 b q kids] := by
    cases hr with
    | ref h => exact ⟨_, rfl⟩
    | ref_seed _ => exact ⟨_, rfl⟩
  obtain ⟨kids, rfl⟩ := key
  cases b with
  | false =>
    refine ⟨fun _ => ⟨hb0 rfl, ?_⟩, by simp, by simp⟩
    have : Tree.prune.pruneL [Tree.mk P.grammar 0 false q kids] = [] := by
      simp [Tree.prune.pruneL, Tree.mk, prune_none]
    rw [this] at hu
    cases hu; rfl
  | true =>
    refine ⟨by simp, fun _ hq => ?_, fun _ hq => ?_⟩
    · have : Tree.prune.pruneL [Tree.mk P.grammar 0 true q kids] = [] := by
        simp [Tree.prune.pruneL, Tree.mk, prune_some, hq]
      rw [this] at hu
      cases hu; rfl
    · have : Tree.prune.pruneL [Tree.mk P.grammar 0 true q kids] =
          [.node P.grammar (some (0, q)) (Tree.prune.pruneL kids)] := by
        have hne : (0 : Nat) ≠ q := by omega
        simp [Tree.prune.pruneL, Tree.mk, prune_some, hne]
      rw [this] at hu
      generalize hs : [Tree.node P.grammar (some (0, q)) (Tree.prune.pruneL kids)] = us at hu
      cases hu with
      | nil => cases hs
      | @cons k nd cs ks' ts' h1 h2 h3 =>
        injection hs with hs1 hs2
        subst hs2
        cases h3
        injection hs1 with g1 g2 g3
        refine ⟨k, nd, rfl, h1, ?_⟩
        have hres : nd.result = true := by
          cases hres : nd.result with
          | true => rfl
          | false => rw [Node.spanOf, hres] at g2; cases g2
        rw [Node.spanOf, hres] at g2
        simp at g2
        simp [Node.data, hres, ← g2.1, ← g2.2, g1]

/-! ## C21: asking again -/

theorem varName_memo {P : Parser R U} {src : Source} {n : Nat} {r : R} {k p : Nat} {st st' : St R U} {b q}
    (h : eval P src n (.varName r) k p st = .ok (b, q, st')) : ∃ mk, st'.cache.memo r p = some (b, q, mk) := by
  cases n with
  | zero => cases h
  | succ n =>
    simp only [eval, varNameKernel, Cache.check] at h
    split at h
    · next mb stop mk hm =>
      unfold memoizedBehaviour at h
      rw [Out.bind_eq_ok] at h
      obtain ⟨st1, h1, h2⟩ := h
      unfold St.connect at h1
      rw [Out.bind_eq_ok] at h1
      obtain ⟨pb, _, h3⟩ := h1
      cases h2; cases h3
      exact ⟨mk, hm⟩
    · unfold defaultBehaviour at h
      rw [Out.bind_eq_ok] at h
      obtain ⟨⟨ck, st1⟩, _, h⟩ := h
      rw [Out.bind_eq_ok] at h
      obtain ⟨⟨b', q', st2⟩, _, h⟩ := h
      dsimp only at h
      rw [Out.bind_eq_ok] at h
      obtain ⟨st3, h3, h⟩ := h
      rw [Out.bind_eq_ok] at h
      obtain ⟨st4, h4, h⟩ := h
      cases h
      refine ⟨ck, ?_⟩
      unfold St.updateEntry at h3
      rw [Out.bind_eq_ok] at h3
      obtain ⟨p1, _, h3⟩ := h3
      rw [Out.bind_eq_ok] at h3
      obtain ⟨p2, _, h3⟩ := h3
      rw [Out.bind_eq_ok] at h3
      obtain ⟨p3, _, h3⟩ := h3
      cases h3
      unfold St.connect at h4
      rw [Out.bind_eq_ok] at h4
      obtain ⟨p4, _, h4⟩ := h4
      cases h4
      simp [St.createCacheEntry, Cache.insert]

theorem varName_hit {P : Parser R U} {src : Source} {lr : Prop} {D : Nat → Prop} {n : Nat} {r : R} {k p : Nat}
    {st : St R U} {b q mk} (hi : Inv lr P.body src D st) (hk : ¬ D k) (hl : k < st.pub.nodes.length)
    (hm : st.cache.memo r p = some (b, q, mk)) :
    ∃ st', eval P src (n + 1) (.varName r) k p st = .ok (b, q, st') ∧ st'.cache = st.cache ∧ st'.user = st.user := by
  obtain ⟨nd, hnd⟩ := exists_getElem? hl
  have hD := (hi.memo _ _ _ _ _ hm).1
  have hne : k ≠ mk := by rintro rfl; exact hk hD
  refine ⟨st.connected k nd mk, ?_, rfl, rfl⟩
  simp only [eval, varNameKernel, Cache.check, hm, memoizedBehaviour]
  rw [connect_eq hnd hne]
  rfl

/-- C21: repeating a completed call of a rule at the same position gives the same answer at once (fuel 1: no rule body is
run again) and changes neither memo table nor left-recursion bookkeeping nor user state. -/
theorem C21_asking_again_same_answer (P : Parser R U) (src : Source) (hh : P.HooksOK src) {k : Nat} {st : St R U}
    (hr : Reached P src Expr.Any k st) {n : Nat} {r : R} {p : Nat} {b : Bool} {q : Nat} {st' : St R U}
    (hc : eval P src n (.varName r) k p st = .ok (b, q, st')) :
    ∃ st'', eval P src 1 (.varName r) k p st' = .ok (b, q, st'') ∧ st''.cache = st'.cache ∧ st''.user = st'.user := by
  obtain ⟨mk, hm⟩ := varName_memo hc
  obtain ⟨D, hi, hk, hl⟩ := (Reached.call hr trivial hc).inv (lr := True) hh (fun _ => Or.inl trivial)
    (fun _ _ => Or.inl trivial)
  exact varName_hit hi hk hl hm

/-- Any further history of calls at the same parent. -/
inductive Later (P : Parser R U) (src : Source) (ok : Expr R → Prop) (k : Nat) : St R U → St R U → Prop where
  | refl {st} : Later P src ok k st st
  | call {st st1 st2 n e p b q} : Later P src ok k st st1 → ok e → eval P src n e k p st1 = .ok (b, q, st2) →
      Later P src ok k st st2

/-- C21 over histories: in a grammar without left recursion the answer stays the same after any further calls. -/
theorem C21_answer_is_stable (P : Parser R U) (src : Source) (hh : P.HooksOK src) (hlr : ∀ r, (P.body r).LRFree)
    {k : Nat} {st : St R U} (hr : Reached P src Expr.LRFree k st) {n : Nat} {r : R} {p : Nat} {b : Bool} {q : Nat}
    {st1 st2 : St R U} (hc : eval P src n (.varName r) k p st = .ok (b, q, st1))
    (hl : Later P src Expr.LRFree k st1 st2) :
    ∃ st3, eval P src 1 (.varName r) k p st2 = .ok (b, q, st3) ∧ st3.cache = st2.cache := by
  have hr1 : Reached P src Expr.LRFree k st1 := .call hr (by simp [Expr.LRFree]) hc
  have hbody : ∀ r, False ∨ (P.body r).LRFree := fun r => Or.inr (hlr r)
  have hok : ∀ e : Expr R, e.LRFree → False ∨ e.LRFree := fun _ h => Or.inr h
  have : Reached P src Expr.LRFree k st2 ∧ ∃ mk, st2.cache.memo r p = some (b, q, mk) := by
    induction hl with
    | refl => exact ⟨hr1, varName_memo hc⟩
    | @call sta stb n' e p' b' q' _ he hcall ih =>
      obtain ⟨ihr, mk, hm⟩ := ih
      refine ⟨.call ihr he hcall, ?_⟩
      obtain ⟨D, _, _, _, hp⟩ := ihr.post hh hbody hok n' (Or.inr he) p'
      rw [hcall] at hp
      obtain ⟨_, _, _, _, hs, _⟩ := hp
      obtain ⟨v, hv, e⟩ := hs.memo _ _ _ hm
      exact ⟨mk, by rw [hv, e id]⟩
  obtain ⟨hr2, mk, hm⟩ := this
  obtain ⟨D, hi, hk, hl⟩ := hr2.inv hh hbody hok
  obtain ⟨st3, h1, h2, _⟩ := varName_hit (n := 0) hi hk hl hm
  exact ⟨st3, h1, h2⟩

/-! ## The hypotheses are met: a left-recursive parse of "1-2-" by example 5, and a rule run twice by example 10 -/

example : ex5Parser.HooksOK ⟨[49, 45, 50, 45]⟩ ∧ ex5Parser.HooksCalm ⟨[49, 45, 50, 45]⟩ :=
  ⟨plain_hooksOK _ _ _, plain_hooksCalm _ _ _⟩

/-- A state after a successful call and one after a failed one (C01, C02, C03, C16, C24 apply to both). -/
example : ∃ st st', Reached ex5Parser ⟨[49, 45, 50, 45]⟩ Expr.Any 0 st ∧
    eval ex5Parser ⟨[49, 45, 50, 45]⟩ 20 (.varName .r_num) 0 1 st = .ok (false, 1, st') := by
  have h : (eval ex5Parser ⟨[49, 45, 50, 45]⟩ 30 (.varName .r_grammar) 0 0 (St.new .r_grammar ()) >>= fun r =>
      eval ex5Parser ⟨[49, 45, 50, 45]⟩ 20 (.varName .r_num) 0 1 r.2.2).view = some (false, 1) := by decide +kernel
  obtain ⟨st', h⟩ := Out.view_eq h
  rw [Out.bind_eq_ok] at h
  obtain ⟨⟨b, q, st⟩, h1, h2⟩ := h
  exact ⟨st, st', .call .init trivial h1, h2⟩

/-- A parse whose tree has nested nodes below the root (C17, C18, C20, C49). -/
example : ∃ t, parse ex5Parser ⟨[49, 45, 50, 45]⟩ 40 = .ok (true, 3, t) ∧ t.Below 0 2 ∧ t.Below 0 5 := by
  refine ⟨⟨[⟨0, .r_grammar, 0, 0, true, [2]⟩, ⟨1, .r_grammar, 0, 0, true, []⟩, ⟨2, .r_grammar, 0, 3, true, [3]⟩,
    ⟨3, .r_expr, 0, 3, true, [4, 6]⟩, ⟨4, .r_expr, 0, 1, true, [5]⟩, ⟨5, .r_num, 0, 1, true, []⟩,
    ⟨6, .r_num, 2, 3, true, []⟩]⟩, by decide +kernel, .child rfl (by simp), ?_⟩
  exact .step (.step (.step (.child (c := 2) rfl (by simp)) (c := 3) rfl (by simp)) (c := 4) rfl (by simp)) rfl (by simp)

end PP
