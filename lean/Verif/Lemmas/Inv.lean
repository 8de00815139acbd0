import Verif.Lemmas.Unfold
import Verif.Lemmas.RunFacts

/-! # The invariant of a parse and the contract of every closure -/
namespace PP
variable {R U : Type} {lr : Prop} {body : R → Expr R} {src : Source}

/-- What a memo entry `(r, p) ↦ (b, q, k)` with `k` unfolding to `t` means. -/
def MemoOK (lr : Prop) (body : R → Expr R) (src : Source) (r : R) (p : Nat) (b : Bool) (q : Nat) (t : Tree R) : Prop :=
  (∃ ts, Run lr body src (body r) p b q ts ∧ t = Tree.mk r p b q ts) ∨
  (lr ∧ b = false ∧ q = p ∧ t = Tree.mk r p false p [])

/-- Invariant; `D` is the set of finished node keys. -/
structure Inv (lr : Prop) (body : R → Expr R) (src : Source) (D : Nat → Prop) (st : St R U) : Prop where
  pos : 0 < st.pub.nodes.length
  root : ¬ D 0
  bound : ∀ k, D k → k < st.pub.nodes.length
  kids : ∀ (k : Nat) (nd : Node R), st.pub.nodes[k]? = some nd → ∀ c ∈ nd.children, D c
  idx : ∀ (k : Nat) (nd : Node R), st.pub.nodes[k]? = some nd → nd.index = k
  done : ∀ k, D k → ∃ t, UnfL st.pub.nodes [k] [t]
  memo : ∀ r p b q k, st.cache.memo r p = some (b, q, k) →
    D k ∧ ∃ t, UnfL st.pub.nodes [k] [t] ∧ MemoOK lr body src r p b q t
  active : ∀ r p, st.cache.active = some (r, p) → ∃ h, st.cache.heads r p = some h

/-- Effect of a call on the node store and memo table; `ks` = keys appended to the parent. -/
structure Step (lr : Prop) (D : Nat → Prop) (st : St R U) (D' : Nat → Prop) (st' : St R U) (parent : Nat)
    (ks : List Nat) : Prop where
  mono : ∀ k, D k → D' k
  fresh : ∀ k, D' k → D k ∨ st.pub.nodes.length ≤ k
  len : st.pub.nodes.length ≤ st'.pub.nodes.length
  done : ∀ (k : Nat) (nd : Node R), D k → st.pub.nodes[k]? = some nd → ∃ nd', st'.pub.nodes[k]? = some nd' ∧ Sim nd nd'
  frame : ∀ k : Nat, k < st.pub.nodes.length → ¬ D k → k ≠ parent → st'.pub.nodes[k]? = st.pub.nodes[k]?
  par : ∀ nd : Node R, st.pub.nodes[parent]? = some nd →
    st'.pub.nodes[parent]? = some { nd with children := nd.children ++ ks }
  memo : ∀ r p v, st.cache.memo r p = some v → ∃ v', st'.cache.memo r p = some v' ∧ (¬ lr → v' = v)

/-- Effect of a call on the left-recursion bookkeeping. -/
structure Keep (st st' : St R U) : Prop where
  active : st'.cache.active = st.cache.active
  heads : ∀ r p h, st.cache.heads r p = some h → ∃ h', st'.cache.heads r p = some h' ∧
    (st.cache.active ≠ none → h'.involved = h.involved ∧ h'.evalSet.Sublist h.evalSet)

theorem Keep.refl (st : St R U) : Keep st st := ⟨rfl, fun _ _ h e => ⟨h, e, fun _ => ⟨rfl, List.Sublist.refl _⟩⟩⟩

theorem Keep.trans {a b c : St R U} (h1 : Keep a b) (h2 : Keep b c) : Keep a c := by
  refine ⟨h2.active.trans h1.active, fun r p h e => ?_⟩
  obtain ⟨h', e', i⟩ := h1.heads r p h e
  obtain ⟨h'', e'', i'⟩ := h2.heads r p h' e'
  refine ⟨h'', e'', fun ha => ?_⟩
  have h3 := i ha
  have h4 := i' (by rw [h1.active]; exact ha)
  exact ⟨h4.1.trans h3.1, h4.2.trans h3.2⟩

theorem Step.refl {D : Nat → Prop} {st : St R U} {parent : Nat} : Step lr D st D st parent [] :=
  { mono := fun _ h => h
    fresh := fun _ h => Or.inl h
    len := Nat.le_refl _
    done := fun k nd _ e => ⟨nd, e, Sim.refl _⟩
    frame := fun _ _ _ _ => rfl
    par := fun nd e => by simpa using e
    memo := fun r p v e => ⟨v, e, fun _ => rfl⟩ }

theorem Step.trans {D D1 D2 : Nat → Prop} {st st1 st2 : St R U} {parent ks1 ks2}
    (h1 : Step lr D st D1 st1 parent ks1) (h2 : Step lr D1 st1 D2 st2 parent ks2) :
    Step lr D st D2 st2 parent (ks1 ++ ks2) :=
  { mono := fun k h => h2.mono k (h1.mono k h)
    fresh := fun k h => by
      rcases h2.fresh k h with h | h
      · exact h1.fresh k h
      · exact Or.inr (Nat.le_trans h1.len h)
    len := Nat.le_trans h1.len h2.len
    done := fun k nd hD e => by
      obtain ⟨nd1, e1, s1⟩ := h1.done k nd hD e
      obtain ⟨nd2, e2, s2⟩ := h2.done k nd1 (h1.mono k hD) e1
      exact ⟨nd2, e2, s1.trans s2⟩
    frame := fun k hk hD hp => by
      rw [h2.frame k (Nat.lt_of_lt_of_le hk h1.len) (fun h => ?_) hp, h1.frame k hk hD hp]
      rcases h1.fresh k h with h | h
      · exact hD h
      · omega
    par := fun nd e => by
      have e1 := h1.par nd e
      have e2 := h2.par _ e1
      simpa [List.append_assoc] using e2
    memo := fun r p v e => by
      obtain ⟨v1, e1, i1⟩ := h1.memo r p v e
      obtain ⟨v2, e2, i2⟩ := h2.memo r p v1 e1
      exact ⟨v2, e2, fun h => (i2 h).trans (i1 h)⟩ }

theorem Inv.closed {D : Nat → Prop} {st : St R U} (h : Inv lr body src D st) :
    ∀ k nd, D k → st.pub.nodes[k]? = some nd → ∀ c ∈ nd.children, D c := fun k nd _ e => h.kids k nd e

theorem Step.unf {D D' : Nat → Prop} {st st' : St R U} {parent ks ks' ts} (h : Step lr D st D' st' parent ks')
    (hi : Inv lr body src D st) (hk : ∀ k ∈ ks, D k) (hu : UnfL st.pub.nodes ks ts) :
    UnfL st'.pub.nodes ks ts :=
  hu.stable hk hi.closed h.done

/-- Postcondition of a call. -/
def Post (lr : Prop) (body : R → Expr R) (src : Source) (D : Nat → Prop) (st : St R U) (parent : Nat)
    (S : Bool → Nat → List (Tree R) → Prop) : Out (Bool × Nat × St R U) → Prop
  | .oof => True
  | .panic p => p = .keyOverflow ∨ p = .user
  | .ok (b, q, st') => ∃ D' ks ts, Inv lr body src D' st' ∧ Step lr D st D' st' parent ks ∧ Keep st st' ∧
      (∀ k ∈ ks, D' k) ∧ UnfL st'.pub.nodes ks ts ∧ S b q ts

/-- The contract: `S pos b q ts` relates start, outcome and appended trees. -/
def Ctr (lr : Prop) (body : R → Expr R) (src : Source) (f : PFn R U)
    (S : Nat → Bool → Nat → List (Tree R) → Prop) : Prop :=
  ∀ D st parent pos, Inv lr body src D st → ¬ D parent → parent < st.pub.nodes.length →
    Post lr body src D st parent (S pos) (f parent pos st)

theorem Post.ret {D : Nat → Prop} {st : St R U} {parent} {S : Bool → Nat → List (Tree R) → Prop} {b q}
    (hi : Inv lr body src D st) (hs : S b q []) : Post lr body src D st parent S (.ok (b, q, st)) :=
  ⟨D, [], [], hi, .refl, .refl _, by simp, .nil, hs⟩

theorem Post.mono {D : Nat → Prop} {st : St R U} {parent} {S S' : Bool → Nat → List (Tree R) → Prop} {x}
    (h : Post lr body src D st parent S x) (hs : ∀ b q ts, S b q ts → S' b q ts) :
    Post lr body src D st parent S' x := by
  cases x with
  | oof => trivial
  | panic p => exact h
  | ok a =>
    obtain ⟨b, q, st'⟩ := a
    obtain ⟨D', ks, ts, h1, h2, h3, h4, h5, h6⟩ := h
    exact ⟨D', ks, ts, h1, h2, h3, h4, h5, hs _ _ _ h6⟩

theorem Post.bind {D : Nat → Prop} {st : St R U} {parent} {S S' : Bool → Nat → List (Tree R) → Prop}
    {x : Out (Bool × Nat × St R U)} {f : Bool × Nat × St R U → Out (Bool × Nat × St R U)}
    (hp : ¬ D parent) (hl : parent < st.pub.nodes.length)
    (h : Post lr body src D st parent S x)
    (hf : ∀ b q st' D' ts, S b q ts → Inv lr body src D' st' → ¬ D' parent → parent < st'.pub.nodes.length →
      Post lr body src D' st' parent (fun b' q' us => S' b' q' (ts ++ us)) (f (b, q, st'))) :
    Post lr body src D st parent S' (x >>= f) := by
  cases x with
  | oof => trivial
  | panic p => exact h
  | ok a =>
    obtain ⟨b, q, st1⟩ := a
    obtain ⟨D1, ks, ts, h1, h2, h3, h4, h5, h6⟩ := h
    have hp1 : ¬ D1 parent := fun hd => by
      rcases h2.fresh _ hd with hd | hd
      · exact hp hd
      · omega
    have hx := hf b q st1 D1 ts h6 h1 hp1 (Nat.lt_of_lt_of_le hl h2.len)
    simp only [Out.bind_ok]
    generalize hy : f (b, q, st1) = y at hx
    cases y with
    | oof => trivial
    | panic p => exact hx
    | ok a =>
      obtain ⟨b2, q2, st2⟩ := a
      obtain ⟨D2, ks2, us, g1, g2, g3, g4, g5, g6⟩ := hx
      refine ⟨D2, ks ++ ks2, ts ++ us, g1, h2.trans g2, h3.trans g3, ?_, ?_, g6⟩
      · intro k hk
        rcases List.mem_append.mp hk with hk | hk
        · exact g2.mono k (h4 k hk)
        · exact g4 k hk
      · exact (g2.unf h1 h4 h5).append g5

end PP
