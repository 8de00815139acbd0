import Verif.Lemmas.Inv

/-! # Effect of the context operations on the invariant -/
set_option linter.unusedSectionVars false
set_option linter.unusedVariables false
namespace PP
variable {R U : Type} [DecidableEq R] {lr : Prop} {body : R → Expr R} {src : Source}

section
omit [DecidableEq R]

theorem getElem?_append_one {α : Type} {l : List α} {x : α} {k : Nat} {y : α} (h : (l ++ [x])[k]? = some y) :
    l[k]? = some y ∨ (k = l.length ∧ y = x) := by
  rcases Nat.lt_trichotomy k l.length with hk | hk | hk
  · left; rwa [List.getElem?_append_left hk] at h
  · right; subst hk; simp at h; exact ⟨rfl, h.symm⟩
  · rw [List.getElem?_append_right (by omega)] at h
    have : k - l.length ≠ 0 := by omega
    simp [List.getElem?_cons] at h; omega

theorem lt_of_getElem?_some {α : Type} {l : List α} {k : Nat} {y : α} (h : l[k]? = some y) : k < l.length := by
  obtain ⟨h, _⟩ := List.getElem?_eq_some_iff.mp h; exact h

theorem exists_getElem? {α : Type} {l : List α} {k : Nat} (h : k < l.length) : ∃ y, l[k]? = some y :=
  ⟨l[k], List.getElem?_eq_getElem h⟩

/-- The node `reserve_publisher_entry` creates. -/
def blank (k : Nat) (r : R) : Node R := ⟨k, r, 0, 0, false, []⟩

theorem reserve_cases (st : St R U) (r : R) :
    st.reserve r = .panic .keyOverflow ∨
    st.reserve r = .ok (st.pub.nodes.length,
      { st with pub := { nodes := st.pub.nodes ++ [blank st.pub.nodes.length r] } }) := by
  unfold St.reserve Publisher.addNode blank
  split
  · right; rfl
  · left; rfl

theorem Inv.reserve {D : Nat → Prop} {st : St R U} (hi : Inv lr body src D st) (r : R) :
    Inv lr body src D { st with pub := { nodes := st.pub.nodes ++ [blank st.pub.nodes.length r] } } := by
  have hst : ∀ (ks : List Nat) ts, (∀ k ∈ ks, D k) → UnfL st.pub.nodes ks ts →
      UnfL (st.pub.nodes ++ [blank st.pub.nodes.length r]) ks ts := by
    intro ks ts hk hu
    refine hu.stable hk hi.closed ?_
    intro k nd _ e
    exact ⟨nd, by rw [List.getElem?_append_left (lt_of_getElem?_some e)]; exact e, Sim.refl _⟩
  refine
  { pos := by simp
    root := hi.root
    bound := fun k h => by have := hi.bound k h; simp; omega
    kids := ?_
    idx := ?_
    done := ?_
    memo := ?_
    active := hi.active }
  · intro k nd e c hc
    rcases getElem?_append_one e with e | ⟨_, rfl⟩
    · exact hi.kids k nd e c hc
    · simp [blank] at hc
  · intro k nd e
    rcases getElem?_append_one e with e | ⟨rfl, rfl⟩
    · exact hi.idx k nd e
    · rfl
  · intro k hk
    obtain ⟨t, ht⟩ := hi.done k hk
    exact ⟨t, hst _ _ (by simpa using hk) ht⟩
  · intro r' p b q k e
    obtain ⟨h1, t, h2, h3⟩ := hi.memo r' p b q k e
    exact ⟨h1, t, hst _ _ (by simpa using h1) h2, h3⟩

theorem Step.reserve {D : Nat → Prop} {st : St R U} {parent : Nat} (hi : Inv lr body src D st) (r : R)
    (hl : parent < st.pub.nodes.length) :
    Step lr D st D { st with pub := { nodes := st.pub.nodes ++ [blank st.pub.nodes.length r] } } parent [] :=
  { mono := fun _ h => h
    fresh := fun _ h => Or.inl h
    len := by simp
    done := fun k nd h e => ⟨nd, by
      simp only
      rw [List.getElem?_append_left (hi.bound k h)]; exact e, Sim.refl _⟩
    frame := fun k h _ _ => by simp only; rw [List.getElem?_append_left h]
    par := fun nd e => by simp only; rw [List.getElem?_append_left hl, e]; simp
    memo := fun r p v e => ⟨v, e, fun _ => rfl⟩ }

/-- The state after `update_publisher_entry`. -/
def St.updated (st : St R U) (k : Nat) (nd : Node R) (b : Bool) (p q : Nat) : St R U :=
  { st with pub := { nodes := st.pub.nodes.set k { nd with result := b, start := p, stop := q } } }

theorem updateEntry_eq {st : St R U} {k : Nat} {nd : Node R} (h : st.pub.nodes[k]? = some nd) (b : Bool) (p q : Nat) :
    st.updateEntry k b p q = .ok (st.updated k nd b p q) := by
  have hk := lt_of_getElem?_some h
  unfold St.updateEntry Publisher.setNodeResult Publisher.setNodeStart Publisher.setNodeStop
  rw [Publisher.modify_eq h]
  simp only [Out.bind_ok]
  rw [Publisher.modify_eq (nd := { nd with result := b }) (by simp [List.getElem?_set_self hk])]
  simp only [Out.bind_ok]
  rw [Publisher.modify_eq (nd := { nd with result := b, start := p }) (by simp [List.getElem?_set_self hk])]
  simp [St.updated]

/-- Finishing a pending node. -/
theorem Inv.finish {D : Nat → Prop} {st : St R U} {k : Nat} {nd : Node R} {ts} (hi : Inv lr body src D st)
    (hk : ¬ D k) (h0 : k ≠ 0) (h : st.pub.nodes[k]? = some nd) (hu : UnfL st.pub.nodes nd.children ts)
    (b : Bool) (p q : Nat) :
    Inv lr body src (fun j => D j ∨ j = k) (st.updated k nd b p q) ∧
    UnfL (st.updated k nd b p q).pub.nodes [k] [Tree.mk nd.rule p b q ts] ∧
    (∀ (ks : List Nat) us, (∀ j ∈ ks, D j) → UnfL st.pub.nodes ks us →
      UnfL (st.updated k nd b p q).pub.nodes ks us) := by
  have hlt := lt_of_getElem?_some h
  have hst : ∀ (ks : List Nat) us, (∀ j ∈ ks, D j) → UnfL st.pub.nodes ks us →
      UnfL (st.updated k nd b p q).pub.nodes ks us := by
    intro ks us hks hu'
    refine hu'.stable hks hi.closed ?_
    intro j nd' hj e
    refine ⟨nd', ?_, Sim.refl _⟩
    have : k ≠ j := fun h' => hk (h' ▸ hj)
    simp only [St.updated]
    rw [List.getElem?_set_ne this]; exact e
  have hnew : UnfL (st.updated k nd b p q).pub.nodes [k] [Tree.mk nd.rule p b q ts] := by
    have he : (st.updated k nd b p q).pub.nodes[k]? = some { nd with result := b, start := p, stop := q } := by
      simp [St.updated, List.getElem?_set_self hlt]
    have := UnfL.cons he (hst _ _ (hi.kids k nd h) hu) UnfL.nil
    simpa [Tree.mk, Node.spanOf] using this
  refine ⟨?_, hnew, hst⟩
  refine
  { pos := by simp [St.updated]; exact hi.pos
    root := by
      rintro (h' | h')
      · exact hi.root h'
      · exact h0 h'.symm
    bound := ?_
    kids := ?_
    idx := ?_
    done := ?_
    memo := ?_
    active := hi.active }
  · rintro j (hj | rfl)
    · simpa [St.updated] using hi.bound j hj
    · simpa [St.updated] using hlt
  · intro j nd' e c hc
    left
    simp only [St.updated] at e
    by_cases hjk : k = j
    · subst hjk
      rw [List.getElem?_set_self hlt] at e
      obtain rfl := Option.some.inj e
      exact hi.kids k nd h c hc
    · rw [List.getElem?_set_ne hjk] at e
      exact hi.kids j nd' e c hc
  · intro j nd' e
    simp only [St.updated] at e
    by_cases hjk : k = j
    · subst hjk
      rw [List.getElem?_set_self hlt] at e
      obtain rfl := Option.some.inj e
      exact hi.idx k nd h
    · rw [List.getElem?_set_ne hjk] at e
      exact hi.idx j nd' e
  · rintro j (hj | rfl)
    · obtain ⟨t, ht⟩ := hi.done j hj
      exact ⟨t, hst _ _ (by simpa using hj) ht⟩
    · exact ⟨_, hnew⟩
  · intro r' p' b' q' j e
    obtain ⟨h1, t, h2, h3⟩ := hi.memo r' p' b' q' j e
    exact ⟨Or.inl h1, t, hst _ _ (by simpa using h1) h2, h3⟩

theorem Step.finish {D D1 : Nat → Prop} {st st1 : St R U} {parent k : Nat} {ks : List Nat} {nd : Node R}
    (h : Step lr D st D1 st1 parent ks) (hb : ∀ k, D k → k < st.pub.nodes.length)
    (hk : st.pub.nodes.length ≤ k) (hp : parent < st.pub.nodes.length)
    (b : Bool) (p q : Nat) :
    Step lr D st (fun j => D1 j ∨ j = k) (st1.updated k nd b p q) parent ks :=
  { mono := fun j hj => Or.inl (h.mono j hj)
    fresh := by
      rintro j (hj | rfl)
      · exact h.fresh j hj
      · exact Or.inr hk
    len := by simpa [St.updated] using h.len
    done := fun j nd' hj e => by
      obtain ⟨nd1, e1, s⟩ := h.done j nd' hj e
      have := hb j hj
      exact ⟨nd1, by simp only [St.updated]; rw [List.getElem?_set_ne (by omega)]; exact e1, s⟩
    frame := fun j hj hD hjp => by
      simp only [St.updated]; rw [List.getElem?_set_ne (by omega)]; exact h.frame j hj hD hjp
    par := fun nd' e => by
      simp only [St.updated]; rw [List.getElem?_set_ne (by omega)]; exact h.par nd' e
    memo := h.memo }

/-- Going from the nested parent `k` back to the outer parent. -/
theorem Step.outer {D0 D D1 : Nat → Prop} {st st0 st1 : St R U} {parent k : Nat} {ks ks0 : List Nat}
    (h0 : Step lr D0 st D st0 parent ks0) (h : Step lr D st0 D1 st1 k ks) (hk : st.pub.nodes.length ≤ k)
    (hp : ¬ D0 parent) (hl : parent < st.pub.nodes.length) :
    Step lr D0 st D1 st1 parent ks0 :=
  have hnot : ∀ j, j < st.pub.nodes.length → ¬ D0 j → ¬ D j := fun j hj hD h' => by
    rcases h0.fresh j h' with h' | h'
    · exact hD h'
    · omega
  { mono := fun j hj => h.mono j (h0.mono j hj)
    fresh := fun j hj => by
      rcases h.fresh j hj with hj | hj
      · exact h0.fresh j hj
      · exact Or.inr (Nat.le_trans h0.len hj)
    len := Nat.le_trans h0.len h.len
    done := fun j nd hj e => by
      obtain ⟨nd1, e1, s1⟩ := h0.done j nd hj e
      obtain ⟨nd2, e2, s2⟩ := h.done j nd1 (h0.mono j hj) e1
      exact ⟨nd2, e2, s1.trans s2⟩
    frame := fun j hj hD hjp => by
      rw [h.frame j (Nat.lt_of_lt_of_le hj h0.len) (hnot j hj hD) (by omega), h0.frame j hj hD hjp]
    par := fun nd e => by
      rw [h.frame parent (Nat.lt_of_lt_of_le hl h0.len) (hnot parent hl hp) (by omega), h0.par nd e]
    memo := fun r p v e => by
      obtain ⟨v1, e1, i1⟩ := h0.memo r p v e
      obtain ⟨v2, e2, i2⟩ := h.memo r p v1 e1
      exact ⟨v2, e2, fun h => (i2 h).trans (i1 h)⟩ }

/-- Rewriting a finished node with the outcome it already has. -/
theorem Inv.rewrite {D : Nat → Prop} {st : St R U} {k : Nat} {nd : Node R} (hi : Inv lr body src D st)
    (h : st.pub.nodes[k]? = some nd) {b : Bool} {p q : Nat}
    (hsp : nd.spanOf = if b then some (p, q) else none) :
    Inv lr body src D (st.updated k nd b p q) ∧
    (∀ (ks : List Nat) us, UnfL st.pub.nodes ks us → UnfL (st.updated k nd b p q).pub.nodes ks us) ∧
    (∀ (j : Nat) (ndj : Node R), st.pub.nodes[j]? = some ndj →
      ∃ ndj', (st.updated k nd b p q).pub.nodes[j]? = some ndj' ∧ Sim ndj ndj') := by
  have hlt := lt_of_getElem?_some h
  have hsim : ∀ (j : Nat) (ndj : Node R), st.pub.nodes[j]? = some ndj →
      ∃ ndj', (st.updated k nd b p q).pub.nodes[j]? = some ndj' ∧ Sim ndj ndj' := by
    intro j ndj e
    simp only [St.updated]
    by_cases hjk : k = j
    · subst hjk
      rw [h] at e
      obtain rfl := Option.some.inj e
      refine ⟨_, List.getElem?_set_self hlt, rfl, rfl, rfl, ?_⟩
      rw [hsp]; simp [Node.spanOf]
    · exact ⟨ndj, by rw [List.getElem?_set_ne hjk]; exact e, Sim.refl _⟩
  have hst : ∀ (ks : List Nat) us, UnfL st.pub.nodes ks us → UnfL (st.updated k nd b p q).pub.nodes ks us :=
    fun ks us hu => hu.stable (D := fun _ => True) (fun _ _ => trivial) (fun _ _ _ _ _ _ => trivial)
      (fun j ndj _ e => hsim j ndj e)
  have hback : ∀ (j : Nat) (nd' : Node R), (st.updated k nd b p q).pub.nodes[j]? = some nd' →
      ∃ nd0, st.pub.nodes[j]? = some nd0 ∧ nd'.children = nd0.children ∧ nd'.index = nd0.index := by
    intro j nd' e
    simp only [St.updated] at e
    by_cases hjk : k = j
    · subst hjk
      rw [List.getElem?_set_self hlt] at e
      obtain rfl := Option.some.inj e
      exact ⟨nd, h, rfl, rfl⟩
    · rw [List.getElem?_set_ne hjk] at e
      exact ⟨nd', e, rfl, rfl⟩
  refine ⟨?_, hst, hsim⟩
  exact
  { pos := by simp [St.updated]; exact hi.pos
    root := hi.root
    bound := fun j hj => by simpa [St.updated] using hi.bound j hj
    kids := fun j nd' e c hc => by
      obtain ⟨nd0, e0, hc0, _⟩ := hback j nd' e
      exact hi.kids j nd0 e0 c (hc0 ▸ hc)
    idx := fun j nd' e => by
      obtain ⟨nd0, e0, _, hi0⟩ := hback j nd' e
      rw [hi0]; exact hi.idx j nd0 e0
    done := fun j hj => by
      obtain ⟨t, ht⟩ := hi.done j hj
      exact ⟨t, hst _ _ ht⟩
    memo := fun r' p' b' q' j e => by
      obtain ⟨h1, t, h2, h3⟩ := hi.memo r' p' b' q' j e
      exact ⟨h1, t, hst _ _ h2, h3⟩
    active := hi.active }

theorem Step.rewrite {D D1 : Nat → Prop} {st st1 : St R U} {parent k : Nat} {ks : List Nat} {nd : Node R}
    (hs : Step lr D st D1 st1 parent ks) (h : st1.pub.nodes[k]? = some nd) {b : Bool} {p q : Nat} (hk : D1 k)
    (hp : ¬ D parent) (hl : parent < st.pub.nodes.length)
    (hsim : ∀ (j : Nat) (ndj : Node R), st1.pub.nodes[j]? = some ndj →
      ∃ ndj', (st1.updated k nd b p q).pub.nodes[j]? = some ndj' ∧ Sim ndj ndj') :
    Step lr D st D1 (st1.updated k nd b p q) parent ks :=
  have hne : ∀ j, j < st.pub.nodes.length → ¬ D j → k ≠ j := fun j hj hD h' => by
    subst h'
    rcases hs.fresh k hk with h' | h'
    · exact hD h'
    · omega
  { mono := hs.mono
    fresh := hs.fresh
    len := by simpa [St.updated] using hs.len
    done := fun j nd' hj e => by
      obtain ⟨nd1, e1, s⟩ := hs.done j nd' hj e
      obtain ⟨nd2, e2, s2⟩ := hsim j nd1 e1
      exact ⟨nd2, e2, s.trans s2⟩
    frame := fun j hj hD hjp => by
      simp only [St.updated]; rw [List.getElem?_set_ne (hne j hj hD)]; exact hs.frame j hj hD hjp
    par := fun nd' e => by
      simp only [St.updated]; rw [List.getElem?_set_ne (hne parent hl hp)]; exact hs.par nd' e
    memo := hs.memo }

/-- Connecting a finished node to a pending parent. -/
def St.connected (st : St R U) (parent : Nat) (nd : Node R) (child : Nat) : St R U :=
  { st with pub := { nodes := st.pub.nodes.set parent { nd with children := nd.children ++ [child] } } }

theorem connect_eq {st : St R U} {parent child : Nat} {nd : Node R} (h : st.pub.nodes[parent]? = some nd)
    (hne : parent ≠ child) : st.connect parent child = .ok (st.connected parent nd child) := by
  unfold St.connect Publisher.connect
  rw [if_neg hne, Publisher.modify_eq h]
  rfl

theorem connectIf_eq {st : St R U} {parent child : Nat} {nd : Node R} (h : st.pub.nodes[parent]? = some nd) :
    st.connectIfNotConnected parent child =
      .ok (if nd.children.contains child then st else st.connected parent nd child) := by
  unfold St.connectIfNotConnected Publisher.connectIfNotConnected
  rw [Publisher.modify_eq h]
  by_cases hc : child ∈ nd.children
  · have : st.pub.nodes.set parent nd = st.pub.nodes := by
      obtain ⟨hlt, rfl⟩ := List.getElem?_eq_some_iff.mp h
      exact List.set_getElem_self hlt
    simp [hc, this]
  · simp [hc, St.connected]

theorem Inv.connected {D : Nat → Prop} {st : St R U} {parent child : Nat} {nd : Node R} (hi : Inv lr body src D st)
    (hp : ¬ D parent) (h : st.pub.nodes[parent]? = some nd) (hc : D child) :
    Inv lr body src D (st.connected parent nd child) ∧ Step lr D st D (st.connected parent nd child) parent [child] := by
  have hlt := lt_of_getElem?_some h
  have hst : ∀ (ks : List Nat) us, (∀ j ∈ ks, D j) → UnfL st.pub.nodes ks us →
      UnfL (st.connected parent nd child).pub.nodes ks us := by
    intro ks us hks hu'
    refine hu'.stable hks hi.closed ?_
    intro j nd' hj e
    refine ⟨nd', ?_, Sim.refl _⟩
    have : parent ≠ j := fun h' => hp (h' ▸ hj)
    simp only [St.connected]
    rw [List.getElem?_set_ne this]; exact e
  constructor
  · refine
    { pos := by simp [St.connected]; exact hi.pos
      root := hi.root
      bound := fun j hj => by simpa [St.connected] using hi.bound j hj
      kids := ?_
      idx := ?_
      done := fun j hj => by
        obtain ⟨t, ht⟩ := hi.done j hj
        exact ⟨t, hst _ _ (by simpa using hj) ht⟩
      memo := fun r' p' b' q' j e => by
        obtain ⟨h1, t, h2, h3⟩ := hi.memo r' p' b' q' j e
        exact ⟨h1, t, hst _ _ (by simpa using h1) h2, h3⟩
      active := hi.active }
    · intro j nd' e c hcm
      simp only [St.connected] at e
      by_cases hjk : parent = j
      · subst hjk
        rw [List.getElem?_set_self hlt] at e
        obtain rfl := Option.some.inj e
        rcases List.mem_append.mp hcm with hcm | hcm
        · exact hi.kids parent nd h c hcm
        · simp at hcm; exact hcm ▸ hc
      · rw [List.getElem?_set_ne hjk] at e
        exact hi.kids j nd' e c hcm
    · intro j nd' e
      simp only [St.connected] at e
      by_cases hjk : parent = j
      · subst hjk
        rw [List.getElem?_set_self hlt] at e
        obtain rfl := Option.some.inj e
        exact hi.idx parent nd h
      · rw [List.getElem?_set_ne hjk] at e
        exact hi.idx j nd' e
  · exact
    { mono := fun _ h => h
      fresh := fun _ h => Or.inl h
      len := by simp [St.connected]
      done := fun j nd' hj e => ⟨nd', by
        have : parent ≠ j := fun h' => hp (h' ▸ hj)
        simp only [St.connected]
        rw [List.getElem?_set_ne this]; exact e, Sim.refl _⟩
      frame := fun j hj hD hjp => by
        simp only [St.connected]
        rw [List.getElem?_set_ne (Ne.symm hjp)]
      par := fun nd' e => by
        simp only [St.connected]
        rw [h] at e
        obtain rfl := Option.some.inj e
        rw [List.getElem?_set_self hlt]
      memo := fun r p v e => ⟨v, e, fun _ => rfl⟩ }

end

/-- Changing only the left-recursion bookkeeping. -/
theorem Inv.setCache {D : Nat → Prop} {st : St R U} (hi : Inv lr body src D st) (c : Cache R)
    (hm : c.memo = st.cache.memo) (ha : ∀ r p, c.active = some (r, p) → ∃ h, c.heads r p = some h) :
    Inv lr body src D { st with cache := c } :=
  { pos := hi.pos, root := hi.root, bound := hi.bound, kids := hi.kids, idx := hi.idx, done := hi.done
    memo := fun r p b q k e => hi.memo r p b q k (by rw [← hm]; exact e)
    active := ha }

theorem Step.setCache {D D1 : Nat → Prop} {st st1 : St R U} {parent : Nat} {ks : List Nat}
    (h : Step lr D st D1 st1 parent ks) (c : Cache R) (hm : c.memo = st1.cache.memo) :
    Step lr D st D1 { st1 with cache := c } parent ks :=
  { mono := h.mono, fresh := h.fresh, len := h.len, done := h.done, frame := h.frame, par := h.par
    memo := fun r p v e => by simp only [hm]; exact h.memo r p v e }

/-- Recording a finished result in the memo table. -/
theorem Inv.insert {D : Nat → Prop} {st : St R U} {r : R} {p : Nat} {b : Bool} {q k : Nat} {t : Tree R}
    (hi : Inv lr body src D st) (hk : D k) (hu : UnfL st.pub.nodes [k] [t]) (hm : MemoOK lr body src r p b q t) :
    Inv lr body src D (st.createCacheEntry r b p q k) :=
  { pos := hi.pos
    root := hi.root
    bound := hi.bound
    kids := hi.kids
    idx := hi.idx
    done := hi.done
    memo := fun r' p' b' q' k' e => by
      simp only [St.createCacheEntry, Cache.insert] at e
      split at e
      · next h =>
        obtain ⟨rfl, rfl⟩ := h
        simp only [Option.some.injEq, Prod.mk.injEq] at e
        obtain ⟨rfl, rfl, rfl⟩ := e
        exact ⟨hk, t, hu, hm⟩
      · exact hi.memo r' p' b' q' k' e
    active := hi.active }

theorem Step.insert {D D1 : Nat → Prop} {st st1 : St R U} {parent : Nat} {ks : List Nat} {r : R} {p : Nat} {b : Bool}
    {q k : Nat} (h : Step lr D st D1 st1 parent ks) (hn : lr ∨ st.cache.memo r p = none) :
    Step lr D st D1 (st1.createCacheEntry r b p q k) parent ks :=
  { mono := h.mono
    fresh := h.fresh
    len := h.len
    done := h.done
    frame := h.frame
    par := h.par
    memo := fun r' p' v e => by
      simp only [St.createCacheEntry, Cache.insert]
      split
      · next h' =>
        obtain ⟨rfl, rfl⟩ := h'
        rcases hn with hn | hn
        · exact ⟨_, rfl, fun h => absurd hn h⟩
        · rw [hn] at e; cases e
      · exact h.memo r' p' v e }

end PP
