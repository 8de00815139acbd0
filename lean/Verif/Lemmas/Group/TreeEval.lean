import Verif.Lemmas.VarNameCtr
import Verif.Lemmas.Pack
import Verif.Spec.Group

/-! # Execution over trees

`TEv` is the behaviour of `eval` with the node store abstracted to a map from finished keys to the trees they unfold to; the
keys appended to the parent are an explicit result.  `tev_of_eval`: every returning `eval` is such a run. -/
set_option linter.unusedSectionVars false
namespace PP
variable {R U : Type} [DecidableEq R]

structure TSt (R : Type) where
  cache : Cache R
  tree : Nat → Tree R
  next : Nat

namespace TSt

def setTree (s : TSt R) (k : Nat) (t : Tree R) : TSt R := { s with tree := fun j => if j = k then t else s.tree j }

/-- node `k` is finished and recorded in the memo table -/
def put (s : TSt R) (r : R) (p : Nat) (b : Bool) (q k : Nat) (ks : List Nat) : TSt R :=
  { s.setTree k (Tree.mk r p b q (ks.map s.tree)) with cache := s.cache.insert r b p q k }

/-- the start of a growth -/
def startGrowth (s : TSt R) (inv : List R) (r : R) (p : Nat) : TSt R :=
  { s.setTree s.next (.node r none []) with
    next := s.next + 2
    cache := (s.cache.setActive (some (r, p))).setHead p r (toBTreeSet inv) }

/-- the end of a growth -/
def endGrowth (s : TSt R) (prev : Option (R × Nat)) (r : R) (p : Nat) (last : Bool × Nat) (lk : Nat) : TSt R :=
  { s with cache := (s.cache.setActive prev).insert r last.1 p last.2 lk }

end TSt

/-- The outcome of one round: the memo table overrides the body's result. -/
inductive TPick (r : R) (p ck : Nat) (b0 : Bool) (q0 : Nat) (ks : List Nat) (s : TSt R) : Nat → Bool → Nat → TSt R → Prop where
  | own : s.cache.memo r p = none → TPick r p ck b0 q0 ks s ck b0 q0 (s.setTree ck (Tree.mk r p b0 q0 (ks.map s.tree)))
  | memo {b q k} : s.cache.memo r p = some (b, q, k) → TPick r p ck b0 q0 ks s k b q s

mutual
/-- `TEv n e pre p s b q ks s'`: with the keys `pre` already below the parent, `e` at `p` returns `(b, q)` and appends `ks`.
`n` bounds the height of the derivation. -/
inductive TEv (body : R → Expr R) (src : Source) :
    Nat → Expr R → List Nat → Nat → TSt R → Bool → Nat → List Nat → TSt R → Prop where
  | terminal {n c pre p s b q} : terminalKernel src p c = (b, q) → TEv body src n (.terminal c) pre p s b q [] s
  | string {n d pre p s b q} : stringTerminalKernel src p d = (b, q) → TEv body src n (.stringTerminal d) pre p s b q [] s
  | range {n lo hi pre p s b q} : matchRangeKernel src p lo hi = (b, q) → TEv body src n (.matchRange lo hi) pre p s b q [] s
  | andP {n m e pre p s b q ks s'} : m < n → TEv body src m e pre p s b q ks s' →
      TEv body src n (.andPredicate e) pre p s b p ks s'
  | notP {n m e pre p s b q ks s'} : m < n → TEv body src m e pre p s b q ks s' →
      TEv body src n (.notPredicate e) pre p s (!b) p ks s'
  | opt_some {n m e pre p s q ks s'} : m < n → TEv body src m e pre p s true q ks s' →
      TEv body src n (.optional e) pre p s true q ks s'
  | opt_none {n m e pre p s q ks s'} : m < n → TEv body src m e pre p s false q ks s' →
      TEv body src n (.optional e) pre p s true p ks s'
  | sub_ok {n m e pre p s q ks s'} : m < n → TEv body src m e pre p s true q ks s' →
      TEv body src n (.subexpression e) pre p s true q ks s'
  | sub_fail {n m e pre p s q ks s'} : m < n → TEv body src m e pre p s false q ks s' →
      TEv body src n (.subexpression e) pre p s false p ks s'
  | seq_fail1 {n m a c pre p s q ks s'} : m < n → TEv body src m a pre p s false q ks s' →
      TEv body src n (.sequence a c) pre p s false p ks s'
  | seq_fail2 {n m1 m2 a c pre p s q q' ks ks' s1 s'} : m1 < n → m2 < n → TEv body src m1 a pre p s true q ks s1 →
      TEv body src m2 c (pre ++ ks) q s1 false q' ks' s' → TEv body src n (.sequence a c) pre p s false p (ks ++ ks') s'
  | seq_ok {n m1 m2 a c pre p s q q' ks ks' s1 s'} : m1 < n → m2 < n → TEv body src m1 a pre p s true q ks s1 →
      TEv body src m2 c (pre ++ ks) q s1 true q' ks' s' → TEv body src n (.sequence a c) pre p s true q' (ks ++ ks') s'
  | choice_left {n m a c pre p s q ks s'} : m < n → TEv body src m a pre p s true q ks s' →
      TEv body src n (.orderedChoice a c) pre p s true q ks s'
  | choice_right {n m1 m2 a c pre p s q q' ks ks' s1 s'} : m1 < n → m2 < n → TEv body src m1 a pre p s false q ks s1 →
      TEv body src m2 c (pre ++ ks) p s1 true q' ks' s' → TEv body src n (.orderedChoice a c) pre p s true q' (ks ++ ks') s'
  | choice_fail {n m1 m2 a c pre p s q q' ks ks' s1 s'} : m1 < n → m2 < n → TEv body src m1 a pre p s false q ks s1 →
      TEv body src m2 c (pre ++ ks) p s1 false q' ks' s' → TEv body src n (.orderedChoice a c) pre p s false p (ks ++ ks') s'
  | star_stop {n m e pre p s q ks s'} : m < n → TEv body src m e pre p s false q ks s' →
      TEv body src n (.zeroOrMore e) pre p s true p ks s'
  | star_step {n m1 m2 e pre p s q q' b ks ks' s1 s'} : m1 < n → m2 < n → TEv body src m1 e pre p s true q ks s1 →
      TEv body src m2 (.zeroOrMore e) (pre ++ ks) q s1 b q' ks' s' → TEv body src n (.zeroOrMore e) pre p s b q' (ks ++ ks') s'
  | plus_fail {n m e pre p s q ks s'} : m < n → TEv body src m e pre p s false q ks s' →
      TEv body src n (.oneOrMore e) pre p s false p ks s'
  | plus_ok {n m1 m2 e pre p s q q' b ks ks' s1 s'} : m1 < n → m2 < n → TEv body src m1 e pre p s true q ks s1 →
      TEv body src m2 (.zeroOrMore e) (pre ++ ks) q s1 b q' ks' s' → TEv body src n (.oneOrMore e) pre p s b q' (ks ++ ks') s'
  | inl {n m r pre p s b q ks s'} : m < n → TEv body src m (body r) pre p s b q ks s' →
      TEv body src n (.inlined r) pre p s b q ks s'
  | ref_hit {n r pre p s b q k} : s.cache.memo r p = some (b, q, k) → TEv body src n (.varName r) pre p s b q [k] s
  | ref_miss {n m r pre p s b q ks s'} : m < n → s.cache.memo r p = none →
      TEv body src m (body r) [] p { s with next := s.next + 1 } b q ks s' →
      TEv body src n (.varName r) pre p s b q [s.next] (s'.put r p b q s.next ks)
  | lr_eval {n m inv r A pa h pre p s b q ks s'} : m < n → s.cache.active = some (A, pa) → s.cache.heads A pa = some h →
      (s.cache.heads r p ≠ none ∨ r ∈ h.involved) → r ∈ h.evalSet →
      TEv body src m (body r) [] p
        { s with next := s.next + 1, cache := s.cache.putHead A pa { h with evalSet := h.evalSet.filter (· ≠ r) } } b q ks s' →
      TEv body src n (.varNameLR inv r) pre p s b q [s.next] (s'.put r p b q s.next ks)
  | lr_memo {n inv r A pa h pre p s b q k} : s.cache.active = some (A, pa) → s.cache.heads A pa = some h →
      (s.cache.heads r p ≠ none ∨ r ∈ h.involved) → r ∉ h.evalSet → s.cache.memo r p = some (b, q, k) →
      TEv body src n (.varNameLR inv r) pre p s b q (if k ∈ pre then [] else [k]) s
  | lr_none {n inv r A pa h pre p s} : s.cache.active = some (A, pa) → s.cache.heads A pa = some h →
      (s.cache.heads r p ≠ none ∨ r ∈ h.involved) → r ∉ h.evalSet → s.cache.memo r p = none →
      TEv body src n (.varNameLR inv r) pre p s false p [] s
  | lr_grow {n m inv r pre p s b q k s'} : m < n →
      (∀ A pa, s.cache.active = some (A, pa) →
        s.cache.heads r p = none ∧ ∃ h, s.cache.heads A pa = some h ∧ r ∉ h.involved) →
      TGrow body src m r p s.cache.active (false, p) s.next (s.next + 1) (s.startGrowth inv r p) b q k s' →
      TEv body src n (.varNameLR inv r) pre p s b q [k] s'
/-- `TGrow n r p prev last lk ck s b q k s'`: the growth loop at `(r, p)` returns `(b, q)` and the key `k`. -/
inductive TGrow (body : R → Expr R) (src : Source) :
    Nat → R → Nat → Option (R × Nat) → Bool × Nat → Nat → Nat → TSt R → Bool → Nat → Nat → TSt R → Prop where
  | stop {n m r p prev last lk ck s h b0 q0 ks s1 ck' b q s2} : m < n → s.cache.heads r p = some h →
      TEv body src m (body r) [] p { s with cache := s.cache.putHead r p { h with evalSet := h.involved } } b0 q0 ks s1 →
      TPick r p ck b0 q0 ks s1 ck' b q s2 → (b = false ∨ q ≤ last.2) →
      TGrow body src n r p prev last lk ck s last.1 last.2 lk (s2.endGrowth prev r p last lk)
  | step {n m1 m2 r p prev last lk ck s h b0 q0 ks s1 ck' q s2 b' q' k' s'} : m1 < n → m2 < n → s.cache.heads r p = some h →
      TEv body src m1 (body r) [] p { s with cache := s.cache.putHead r p { h with evalSet := h.involved } } b0 q0 ks s1 →
      TPick r p ck b0 q0 ks s1 ck' true q s2 → last.2 < q →
      TGrow body src m2 r p prev (true, q) ck' s2.next { s2 with next := s2.next + 1 } b' q' k' s' →
      TGrow body src n r p prev last lk ck s b' q' k' s'
end

section
variable {body : R → Expr R} {src : Source}

/-- The tree state abstracts the real one. -/
structure TRel (D : Nat → Prop) (st : St R U) (s : TSt R) : Prop where
  cache : s.cache = st.cache
  next : s.next = st.pub.nodes.length
  tree : ∀ k, D k → UnfL st.pub.nodes [k] [s.tree k]

theorem unfL_map {nodes : List (Node R)} {f : Nat → Tree R} : ∀ (ks : List Nat), (∀ k ∈ ks, UnfL nodes [k] [f k]) →
    UnfL nodes ks (ks.map f)
  | [], _ => .nil
  | k :: ks, h => by
    have h1 := h k (by simp)
    have h2 := unfL_map ks (fun j hj => h j (by simp [hj]))
    exact h1.append h2

/-- What a call does to state and trees. -/
structure TRes (body : R → Expr R) (src : Source) (D : Nat → Prop) (st : St R U) (parent : Nat) (s : TSt R)
    (D' : Nat → Prop) (st' : St R U) (ks : List Nat) (s' : TSt R) : Prop where
  inv : Inv True body src D' st'
  step : Step True D st D' st' parent ks
  keep : Keep st st'
  keys : ∀ k ∈ ks, D' k
  rel : TRel D' st' s'
  old : ∀ k, D k → s'.tree k = s.tree k

theorem TRes.trans {D D1 D2 : Nat → Prop} {st st1 st2 : St R U} {parent : Nat} {s s1 s2 : TSt R} {ks ks' : List Nat}
    (h : TRes body src D st parent s D1 st1 ks s1) (h' : TRes body src D1 st1 parent s1 D2 st2 ks' s2) :
    TRes body src D st parent s D2 st2 (ks ++ ks') s2 :=
  ⟨h'.inv, h.step.trans h'.step, h.keep.trans h'.keep, fun k hk => by
    rcases List.mem_append.mp hk with hk | hk
    · exact h'.step.mono k (h.keys k hk)
    · exact h'.keys k hk, h'.rel, fun k hk => (h'.old k (h.step.mono k hk)).trans (h.old k hk)⟩

theorem TRes.map_append {D D1 D2 : Nat → Prop} {st st1 st2 : St R U} {parent : Nat} {s s1 s2 : TSt R} {ks ks' : List Nat}
    (h : TRes body src D st parent s D1 st1 ks s1) (h' : TRes body src D1 st1 parent s1 D2 st2 ks' s2) :
    (ks ++ ks').map s2.tree = ks.map s1.tree ++ ks'.map s2.tree := by
  rw [List.map_append]
  congr 1
  exact List.map_congr_left fun k hk => h'.old k (h.keys k hk)

theorem TRes.notD {D D1 : Nat → Prop} {st st1 : St R U} {parent : Nat} {s s1 : TSt R} {ks : List Nat}
    (h : TRes body src D st parent s D1 st1 ks s1) {k : Nat} (hp : ¬ D k) (hl : k < st.pub.nodes.length) : ¬ D1 k :=
  fun h' => by
    rcases h.step.fresh _ h' with h' | h'
    · exact hp h'
    · omega

theorem TRes.par {D D1 : Nat → Prop} {st st1 : St R U} {parent : Nat} {s s1 : TSt R} {ks : List Nat} {nd : Node R}
    (h : TRes body src D st parent s D1 st1 ks s1) (hnd : st.pub.nodes[parent]? = some nd) :
    st1.pub.nodes[parent]? = some { nd with children := nd.children ++ ks } := h.step.par nd hnd

theorem TRes.ret {D : Nat → Prop} {st : St R U} {parent : Nat} {s : TSt R} (hi : Inv True body src D st)
    (hr : TRel D st s) : TRes body src D st parent s D st [] s :=
  ⟨hi, .refl, .refl _, by simp, hr, fun _ _ => rfl⟩

/-- A closure behaves as `TEv` says of `e`. -/
def TCtr (body : R → Expr R) (src : Source) (f : PFn R U) (e : Expr R) : Prop :=
  ∀ (D : Nat → Prop) (st : St R U) (parent pos : Nat) (nd : Node R) (s : TSt R) (b : Bool) (q : Nat) (st' : St R U),
    Inv True body src D st → ¬ D parent → st.pub.nodes[parent]? = some nd → TRel D st s →
    f parent pos st = .ok (b, q, st') →
    ∃ D' ks s' N, TEv body src N e nd.children pos s b q ks s' ∧ TRes body src D st parent s D' st' ks s' ∧
      Run True body src e pos b q (ks.map s'.tree)

section
variable {f g : PFn R U} {a c e : Expr R}

theorem tctr_and (h : TCtr body src f e) : TCtr body src (andPredicateKernel f) (.andPredicate e) := by
  intro D st parent pos nd s b q st' hi hp hnd hr he
  unfold andPredicateKernel at he
  rw [Out.bind_eq_ok] at he
  obtain ⟨⟨b1, q1, st1⟩, h1, h2⟩ := he
  obtain ⟨D', ks, s', N, i1, i2, i3⟩ := h D st parent pos nd s b1 q1 st1 hi hp hnd hr h1
  dsimp only at h2
  refine ⟨D', ks, s', N + 1, ?_⟩
  cases b1 <;> simp at h2 <;> obtain ⟨rfl, rfl, rfl⟩ := h2
  · exact ⟨.andP (Nat.lt_succ_self _) i1, i2, .and_fail i3⟩
  · exact ⟨.andP (Nat.lt_succ_self _) i1, i2, .and_ok i3⟩

theorem tctr_not (h : TCtr body src f e) : TCtr body src (notPredicateKernel f) (.notPredicate e) := by
  intro D st parent pos nd s b q st' hi hp hnd hr he
  unfold notPredicateKernel at he
  rw [Out.bind_eq_ok] at he
  obtain ⟨⟨b1, q1, st1⟩, h1, h2⟩ := he
  obtain ⟨D', ks, s', N, i1, i2, i3⟩ := h D st parent pos nd s b1 q1 st1 hi hp hnd hr h1
  dsimp only at h2
  refine ⟨D', ks, s', N + 1, ?_⟩
  cases b1 <;> simp at h2 <;> obtain ⟨rfl, rfl, rfl⟩ := h2
  · exact ⟨.notP (Nat.lt_succ_self _) i1, i2, .not_ok i3⟩
  · exact ⟨.notP (Nat.lt_succ_self _) i1, i2, .not_fail i3⟩

theorem tctr_opt (h : TCtr body src f e) : TCtr body src (optionalKernel f) (.optional e) := by
  intro D st parent pos nd s b q st' hi hp hnd hr he
  unfold optionalKernel at he
  rw [Out.bind_eq_ok] at he
  obtain ⟨⟨b1, q1, st1⟩, h1, h2⟩ := he
  obtain ⟨D', ks, s', N, i1, i2, i3⟩ := h D st parent pos nd s b1 q1 st1 hi hp hnd hr h1
  dsimp only at h2
  refine ⟨D', ks, s', N + 1, ?_⟩
  cases b1 <;> simp at h2 <;> obtain ⟨rfl, rfl, rfl⟩ := h2
  · exact ⟨.opt_none (Nat.lt_succ_self _) i1, i2, .opt_none i3⟩
  · exact ⟨.opt_some (Nat.lt_succ_self _) i1, i2, .opt_some i3⟩

theorem tctr_sub (h : TCtr body src f e) : TCtr body src (subexpressionKernel f) (.subexpression e) := by
  intro D st parent pos nd s b q st' hi hp hnd hr he
  unfold subexpressionKernel at he
  rw [Out.bind_eq_ok] at he
  obtain ⟨⟨b1, q1, st1⟩, h1, h2⟩ := he
  obtain ⟨D', ks, s', N, i1, i2, i3⟩ := h D st parent pos nd s b1 q1 st1 hi hp hnd hr h1
  dsimp only at h2
  refine ⟨D', ks, s', N + 1, ?_⟩
  cases b1 <;> simp at h2 <;> obtain ⟨rfl, rfl, rfl⟩ := h2
  · exact ⟨.sub_fail (Nat.lt_succ_self _) i1, i2, .sub_fail i3⟩
  · exact ⟨.sub_ok (Nat.lt_succ_self _) i1, i2, .sub_ok i3⟩

theorem lt_max1 (a b : Nat) : a < max a b + 1 := by omega
theorem lt_max2 (a b : Nat) : b < max a b + 1 := by omega

theorem tctr_seq (ha : TCtr body src f a) (hc : TCtr body src g c) :
    TCtr body src (sequenceKernel f g) (.sequence a c) := by
  intro D st parent pos nd s b q st' hi hp hnd hr he
  unfold sequenceKernel at he
  rw [Out.bind_eq_ok] at he
  obtain ⟨⟨b1, q1, st1⟩, h1, h2⟩ := he
  obtain ⟨D1, ks, s1, N, i1, i2, i3⟩ := ha D st parent pos nd s b1 q1 st1 hi hp hnd hr h1
  dsimp only at h2
  cases b1 with
  | false =>
    simp at h2
    obtain ⟨rfl, rfl, rfl⟩ := h2
    exact ⟨D1, ks, s1, N + 1, .seq_fail1 (Nat.lt_succ_self _) i1, i2, .seq_fail1 i3⟩
  | true =>
    simp only [if_true] at h2
    rw [Out.bind_eq_ok] at h2
    obtain ⟨⟨b2, q2, st2⟩, h3, h4⟩ := h2
    obtain ⟨D2, ks', s2, N', j1, j2, j3⟩ := hc D1 st1 parent q1 _ s1 b2 q2 st2 i2.inv
      (i2.notD hp (lt_of_getElem?_some hnd)) (i2.par hnd) i2.rel h3
    dsimp only at h4
    refine ⟨D2, ks ++ ks', s2, max N N' + 1, ?_⟩
    rw [i2.map_append j2]
    cases b2 <;> simp at h4 <;> obtain ⟨rfl, rfl, rfl⟩ := h4
    · exact ⟨.seq_fail2 (lt_max1 _ _) (lt_max2 _ _) i1 j1, i2.trans j2, .seq_fail2 i3 j3⟩
    · exact ⟨.seq_ok (lt_max1 _ _) (lt_max2 _ _) i1 j1, i2.trans j2, .seq_ok i3 j3⟩

theorem tctr_choice (ha : TCtr body src f a) (hc : TCtr body src g c) :
    TCtr body src (orderedChoiceKernel f g) (.orderedChoice a c) := by
  intro D st parent pos nd s b q st' hi hp hnd hr he
  unfold orderedChoiceKernel at he
  rw [Out.bind_eq_ok] at he
  obtain ⟨⟨b1, q1, st1⟩, h1, h2⟩ := he
  obtain ⟨D1, ks, s1, N, i1, i2, i3⟩ := ha D st parent pos nd s b1 q1 st1 hi hp hnd hr h1
  dsimp only at h2
  cases b1 with
  | true =>
    simp at h2
    obtain ⟨rfl, rfl, rfl⟩ := h2
    exact ⟨D1, ks, s1, N + 1, .choice_left (Nat.lt_succ_self _) i1, i2, .choice_left i3⟩
  | false =>
    simp only [Bool.false_eq_true, if_false] at h2
    rw [Out.bind_eq_ok] at h2
    obtain ⟨⟨b2, q2, st2⟩, h3, h4⟩ := h2
    obtain ⟨D2, ks', s2, N', j1, j2, j3⟩ := hc D1 st1 parent pos _ s1 b2 q2 st2 i2.inv
      (i2.notD hp (lt_of_getElem?_some hnd)) (i2.par hnd) i2.rel h3
    dsimp only at h4
    refine ⟨D2, ks ++ ks', s2, max N N' + 1, ?_⟩
    rw [i2.map_append j2]
    cases b2 <;> simp at h4 <;> obtain ⟨rfl, rfl, rfl⟩ := h4
    · exact ⟨.choice_fail (lt_max1 _ _) (lt_max2 _ _) i1 j1, i2.trans j2, .choice_fail i3 j3⟩
    · exact ⟨.choice_right (lt_max1 _ _) (lt_max2 _ _) i1 j1, i2.trans j2, .choice_right i3 j3⟩

theorem Run.star_true {lr : Prop} {e : Expr R} {p b q ts} (h : Run lr body src (.zeroOrMore e) p b q ts) : b = true := by
  cases h <;> rfl

theorem tctr_loop (h : TCtr body src f e) (n : Nat) :
    TCtr body src (fun parent pos st => repeatLoop f parent n pos st) (.zeroOrMore e) := by
  induction n with
  | zero => intro D st parent pos nd s b q st' hi hp hnd hr he; cases he
  | succ n ih =>
    intro D st parent pos nd s b q st' hi hp hnd hr he
    simp only [repeatLoop] at he
    rw [Out.bind_eq_ok] at he
    obtain ⟨⟨b1, q1, st1⟩, h1, h2⟩ := he
    obtain ⟨D1, ks, s1, N, i1, i2, i3⟩ := h D st parent pos nd s b1 q1 st1 hi hp hnd hr h1
    dsimp only at h2
    cases b1 with
    | false =>
      simp at h2
      obtain ⟨rfl, rfl, rfl⟩ := h2
      exact ⟨D1, ks, s1, N + 1, .star_stop (Nat.lt_succ_self _) i1, i2, .star_stop i3⟩
    | true =>
      simp only [Bool.not_true, Bool.false_eq_true, if_false] at h2
      obtain ⟨D2, ks', s2, N', j1, j2, j3⟩ := ih D1 st1 parent q1 _ s1 b q st' i2.inv
        (i2.notD hp (lt_of_getElem?_some hnd)) (i2.par hnd) i2.rel h2
      refine ⟨D2, ks ++ ks', s2, max N N' + 1, ?_⟩
      rw [i2.map_append j2]
      obtain rfl := j3.star_true
      exact ⟨.star_step (lt_max1 _ _) (lt_max2 _ _) i1 j1, i2.trans j2, .star_step i3 j3⟩

theorem tctr_plus (h : TCtr body src f e) (n : Nat) : TCtr body src (oneOrMoreKernel n f) (.oneOrMore e) := by
  intro D st parent pos nd s b q st' hi hp hnd hr he
  simp only [oneOrMoreKernel] at he
  rw [Out.bind_eq_ok] at he
  obtain ⟨⟨b1, q1, st1⟩, h1, h2⟩ := he
  obtain ⟨D1, ks, s1, N, i1, i2, i3⟩ := h D st parent pos nd s b1 q1 st1 hi hp hnd hr h1
  dsimp only at h2
  cases b1 with
  | false =>
    simp at h2
    obtain ⟨rfl, rfl, rfl⟩ := h2
    exact ⟨D1, ks, s1, N + 1, .plus_fail (Nat.lt_succ_self _) i1, i2, .plus_fail i3⟩
  | true =>
    simp only [Bool.not_true, Bool.false_eq_true, if_false] at h2
    obtain ⟨D2, ks', s2, N', j1, j2, j3⟩ := tctr_loop h n D1 st1 parent q1 _ s1 b q st' i2.inv
      (i2.notD hp (lt_of_getElem?_some hnd)) (i2.par hnd) i2.rel h2
    refine ⟨D2, ks ++ ks', s2, max N N' + 1, ?_⟩
    rw [i2.map_append j2]
    obtain rfl := j3.star_true
    exact ⟨.plus_ok (lt_max1 _ _) (lt_max2 _ _) i1 j1, i2.trans j2, .plus_ok i3 j3⟩

end

theorem tctr_pure {e : Expr R} {k : Nat → Bool × Nat}
    (hev : ∀ n pre p s, TEv body src n e pre p s (k p).1 (k p).2 [] s)
    (hr0 : ∀ p, Run True body src e p (k p).1 (k p).2 []) : TCtr (U := U) body src (liftPure k) e := by
  intro D st parent pos nd s b q st' hi hp hnd hr he
  simp only [liftPure, Out.ok.injEq, Prod.mk.injEq] at he
  obtain ⟨rfl, rfl, rfl⟩ := he
  exact ⟨D, [], s, 0, hev _ _ _ _, .ret hi hr, hr0 pos⟩

theorem TRel.res_connect {D : Nat → Prop} {st : St R U} {s : TSt R} {parent k : Nat} {nd : Node R}
    (hi : Inv True body src D st) (hr : TRel D st s) (hp : ¬ D parent) (hnd : st.pub.nodes[parent]? = some nd) (hk : D k) :
    TRes body src D st parent s D (st.connected parent nd k) [k] s := by
  obtain ⟨h1, h2⟩ := hi.connected hp hnd hk
  refine ⟨h1, h2, ⟨rfl, fun _ _ h e => ⟨h, e, fun _ => ⟨rfl, List.Sublist.refl _⟩⟩⟩, by simpa using hk,
    ⟨hr.cache, by rw [hr.next]; simp [St.connected], fun j hj => h2.unf hi (by simpa using hj) (hr.tree j hj)⟩, fun _ _ => rfl⟩

theorem TRel.memo_run {D : Nat → Prop} {st : St R U} {s : TSt R} {r : R} {p : Nat} {b : Bool} {q k : Nat}
    (hi : Inv True body src D st) (hr : TRel D st s) (hm : st.cache.memo r p = some (b, q, k)) :
    D k ∧ MemoOK True body src r p b q (s.tree k) := by
  obtain ⟨h1, t, h2, h3⟩ := hi.memo r p b q k hm
  have := hr.tree k h1
  have ht : s.tree k = t := by
    have key : ∀ {nodes : List (Node R)} {ks ts ts'}, UnfL nodes ks ts → UnfL nodes ks ts' → ts = ts' := by
      intro nodes ks ts ts' h
      induction h generalizing ts' with
      | nil => intro h'; cases h'; rfl
      | cons e1 _ _ ih1 ih2 =>
        intro h'
        cases h' with
        | cons e1' h1' h2' =>
          rw [e1] at e1'
          cases e1'
          rw [ih1 h1', ih2 h2']
    have := key this h2
    simpa using this
  exact ⟨h1, ht ▸ h3⟩

/-- Reserving a node for a body evaluation. -/
theorem TRel.reserve {D : Nat → Prop} {st : St R U} {s : TSt R} (hi : Inv True body src D st) (hr : TRel D st s) (r : R)
    (c : Cache R) :
    TRel D { st with cache := c, pub := { nodes := st.pub.nodes ++ [blank st.pub.nodes.length r] } }
      { s with next := s.next + 1, cache := c } := by
  refine ⟨rfl, by simp [hr.next], fun k hk => ?_⟩
  have := (Step.reserve (lr := True) (parent := 0) hi r hi.pos).unf hi (ks := [k]) (by simpa using hk) (hr.tree k hk)
  exact this

/-- Finish node `k`, record it, connect it. -/
theorem TRes.close {D D1 : Nat → Prop} {st st1 : St R U} {parent k : Nat} {nd ndp : Node R} {r : R} {pos q : Nat} {b : Bool}
    {s s1 : TSt R} {ks : List Nat}
    (hp : ¬ D parent) (hndp : st.pub.nodes[parent]? = some ndp)
    (hi : Inv True body src D st) (hi1 : Inv True body src D1 st1) (hs : Step True D st D1 st1 parent [])
    (hk : Keep st st1) (hkey : st.pub.nodes.length ≤ k) (hkD : ¬ D1 k) (hnd : st1.pub.nodes[k]? = some nd)
    (hr : nd.rule = r) (hch : nd.children = ks) (hks : ∀ j ∈ ks, D1 j) (hrel : TRel D1 st1 s1)
    (hold : ∀ j, D j → s1.tree j = s.tree j)
    (hrun : Run True body src (body r) pos b q (ks.map s1.tree)) {st' : St R U}
    (he : ((st1.updated k nd b pos q).createCacheEntry r b pos q k).connect parent k = .ok st') :
    TRes body src D st parent s (fun j => D1 j ∨ j = k) st' [k] (s1.put r pos b q k ks) ∧
      (s1.put r pos b q k ks).tree k = Tree.mk r pos b q (ks.map s1.tree) := by
  have hl := lt_of_getElem?_some hndp
  have hpos := hi.pos
  have hp1 : ¬ D1 parent := fun h => by
    rcases hs.fresh _ h with h | h
    · exact hp h
    · omega
  have hu : UnfL st1.pub.nodes nd.children (ks.map s1.tree) := by
    rw [hch]; exact unfL_map ks fun j hj => hrel.tree j (hks j hj)
  obtain ⟨hi2, hu2, hst2⟩ := hi1.finish hkD (by omega) hnd hu b pos q
  have hs2 := hs.finish (nd := nd) hi.bound hkey hl b pos q
  have hi3 := Inv.insert (r := r) (p := pos) (b := b) (q := q) hi2 (Or.inr rfl) hu2 (Or.inl ⟨_, hrun, by rw [hr]⟩)
  have hs3 := Step.insert (r := r) (p := pos) (b := b) (q := q) (k := k) hs2 (Or.inl trivial)
  have htk : (s1.put r pos b q k ks).tree k = Tree.mk r pos b q (ks.map s1.tree) := by simp [TSt.put, TSt.setTree]
  have htj : ∀ j, j ≠ k → (s1.put r pos b q k ks).tree j = s1.tree j := fun j hj => by simp [TSt.put, TSt.setTree, hj]
  have hrel3 : TRel (fun j => D1 j ∨ j = k) ((st1.updated k nd b pos q).createCacheEntry r b pos q k)
      (s1.put r pos b q k ks) := by
    refine ⟨?_, ?_, ?_⟩
    · simp [TSt.put, St.createCacheEntry, St.updated, hrel.cache, TSt.setTree]
    · simp [TSt.put, St.createCacheEntry, St.updated, hrel.next, TSt.setTree]
    · rintro j (hj | rfl)
      · rw [htj j (fun h => hkD (h ▸ hj))]
        exact hst2 [j] _ (by simpa using hj) (hrel.tree j hj)
      · rw [htk, ← hr]; exact hu2
  refine ⟨?_, htk⟩
  have hkp : Keep st ((st1.updated k nd b pos q).createCacheEntry r b pos q k) := ⟨hk.active, hk.heads⟩
  generalize hst3 : (st1.updated k nd b pos q).createCacheEntry r b pos q k = st3 at *
  have hl3 : parent < st3.pub.nodes.length := Nat.lt_of_lt_of_le hl hs3.len
  obtain ⟨ndp', hndp'⟩ := exists_getElem? hl3
  have hp3 : ¬ (D1 parent ∨ parent = k) := by
    rintro (h | h)
    · exact hp1 h
    · omega
  rw [connect_eq hndp' (by omega)] at he
  cases he
  have h4 := TRel.res_connect hi3 hrel3 hp3 hndp' (k := k) (Or.inr rfl)
  have h3 : TRes body src D st parent s (fun j => D1 j ∨ j = k) st3 [] (s1.put r pos b q k ks) :=
    ⟨hi3, hs3, hkp, by simp, hrel3, fun j hj => by
      rw [htj j (fun h => by have := hi.bound j hj; omega), hold j hj]⟩
  exact h3.trans h4

theorem tctr_varName {f : PFn R U} {r : R} (h : TCtr body src f (body r)) :
    TCtr body src (varNameKernel r f) (.varName r) := by
  intro D st parent pos nd s b q st' hi hp hnd hr he
  unfold varNameKernel Cache.check at he
  cases hm : st.cache.memo r pos with
  | some v =>
    obtain ⟨b1, q1, k⟩ := v
    obtain ⟨hk, hok⟩ := hr.memo_run hi hm
    simp only [hm, memoizedBehaviour] at he
    rw [connect_eq hnd (fun h => hp (h ▸ hk))] at he
    simp only [Out.bind_ok, Out.ok.injEq, Prod.mk.injEq] at he
    obtain ⟨rfl, rfl, rfl⟩ := he
    exact ⟨D, [k], s, 0, .ref_hit (by rw [hr.cache]; exact hm), hr.res_connect hi hp hnd hk, memoOK_run hok⟩
  | none =>
    simp only [hm, defaultBehaviour] at he
    have hpos := hi.pos
    have hl := lt_of_getElem?_some hnd
    rcases reserve_cases st r with e | e
    · rw [e] at he; cases he
    rw [e] at he
    simp only [Out.bind_ok] at he
    have hi0 := hi.reserve r
    have hs0 := Step.reserve (parent := parent) hi r hl
    have hr0 := hr.reserve hi r st.cache
    have hst0' : ({ st with cache := st.cache, pub := { nodes := st.pub.nodes ++ [blank st.pub.nodes.length r] } } : St R U)
      = { st with pub := { nodes := st.pub.nodes ++ [blank st.pub.nodes.length r] } } := rfl
    rw [hst0'] at hr0
    have hk0 : Keep st { st with pub := { nodes := st.pub.nodes ++ [blank st.pub.nodes.length r] } } :=
      ⟨rfl, fun _ _ h e => ⟨h, e, fun _ => ⟨rfl, List.Sublist.refl _⟩⟩⟩
    have hnb : ({ st with pub := { nodes := st.pub.nodes ++ [blank st.pub.nodes.length r] } } : St R U).pub.nodes[st.pub.nodes.length]? = some (blank st.pub.nodes.length r) := by
      simp
    have hlen0 : ({ st with pub := { nodes := st.pub.nodes ++ [blank st.pub.nodes.length r] } } : St R U).pub.nodes.length = st.pub.nodes.length + 1 := by
      simp
    generalize ({ st with pub := { nodes := st.pub.nodes ++ [blank st.pub.nodes.length r] } } : St R U) = st0 at *
    have hkD : ¬ D st.pub.nodes.length := fun h => by have := hi.bound _ h; omega
    rw [Out.bind_eq_ok] at he
    obtain ⟨⟨b1, q1, st1⟩, h1, h2⟩ := he
    obtain ⟨D1, ks, s1, N, i1, i2, i3⟩ := h D st0 st.pub.nodes.length pos _ _ b1 q1 st1 hi0 hkD hnb hr0 h1
    dsimp only at h2
    have hnd1 := i2.par hnb
    rw [updateEntry_eq (st := st1.createCacheEntry r b1 pos q1 st.pub.nodes.length) (k := st.pub.nodes.length) hnd1] at h2
    simp only [Out.bind_ok] at h2
    rw [Out.bind_eq_ok] at h2
    obtain ⟨st2, h3, h4⟩ := h2
    simp only [Out.ok.injEq, Prod.mk.injEq] at h4
    obtain ⟨rfl, rfl, rfl⟩ := h4
    obtain ⟨j1, j2⟩ := TRes.close (s := s) hp hnd hi i2.inv (Step.outer hs0 i2.step (Nat.le_refl _) hp hl)
      (hk0.trans i2.keep) (Nat.le_refl _) (i2.notD hkD (by omega)) hnd1 (by rfl) (by simp [blank]) i2.keys i2.rel i2.old i3 h3
    refine ⟨_, [st.pub.nodes.length], s1.put r pos b1 q1 st.pub.nodes.length ks, N + 1, ?_, j1, ?_⟩
    · rw [← hr.next]
      refine .ref_miss (Nat.lt_succ_self _) (by rw [hr.cache]; exact hm) ?_
      have : ({ s with next := s.next + 1, cache := st.cache } : TSt R) = { s with next := s.next + 1 } := by
        rw [← hr.cache]
      rw [this] at i1
      simpa [blank] using i1
    · simp only [List.map_cons, List.map_nil]
      rw [j2]
      exact .ref i3

theorem TRel.setCache {D : Nat → Prop} {st : St R U} {s : TSt R} (hr : TRel D st s) (c : Cache R) :
    TRel D { st with cache := c } { s with cache := c } := ⟨rfl, hr.next, hr.tree⟩

theorem tgrow {f : PFn R U} {r : R} (hf : TCtr body src f (body r))
    {Db : Nat → Prop} {sb : St R U} {s0 : TSt R} {parent pos : Nat} (hib : Inv True body src Db sb) (hp : ¬ Db parent)
    (hl : parent < sb.pub.nodes.length)
    (hnew : sb.cache.active ≠ none → sb.cache.heads r pos = none) :
    ∀ (n : Nat) (last : Bool × Nat) (lk ck : Nat) (st : St R U) (D : Nat → Prop) (nd : Node R) (s : TSt R) b q st',
      Inv True body src D st → Step True Db sb D st parent [] → HeadsKept sb st →
      st.cache.active = some (r, pos) →
      ¬ D ck → sb.pub.nodes.length ≤ ck → st.pub.nodes[ck]? = some nd → nd.rule = r → nd.children = [] →
      D lk → TRel D st s → (∀ j, Db j → s.tree j = s0.tree j) → MemoOK True body src r pos last.1 last.2 (s.tree lk) →
      growthLoop r f parent pos sb.cache.active n last lk ck st = .ok (b, q, st') →
      ∃ D' k s' N, TGrow body src N r pos sb.cache.active last lk ck s b q k s' ∧
        TRes body src Db sb parent s0 D' st' [k] s' ∧ MemoOK True body src r pos b q (s'.tree k) := by
  intro n
  induction n with
  | zero => intro last lk ck st D nd s b q st' _ _ _ _ _ _ _ _ _ _ _ _ _ he; cases he
  | succ n ih =>
    intro last lk ck st D nd s b q st' hi hs hh ha hck hckl hnd hndr hndc hlk hrel hold hml he
    have hposb := hib.pos
    unfold growthLoop at he
    obtain ⟨hd, hhd⟩ := hi.active r pos ha
    have hre : st.reinitializeEvalSet r pos =
        .ok { st with cache := st.cache.putHead r pos { hd with evalSet := hd.involved } } := by
      simp [St.reinitializeEvalSet, Cache.reinitializeEvalSet, hhd]
    rw [hre] at he
    simp only [Out.bind_ok] at he
    have hi1 := hi.setCache (st.cache.putHead r pos { hd with evalSet := hd.involved }) rfl (by
      intro r' p' e
      simp only [Cache.putHead] at e ⊢
      split
      · exact ⟨_, rfl⟩
      · exact hi.active r' p' e)
    have hs1 := hs.setCache (st.cache.putHead r pos { hd with evalSet := hd.involved }) rfl
    have hrel1 := hrel.setCache (st.cache.putHead r pos { hd with evalSet := hd.involved })
    have hh1 : HeadsKept sb { st with cache := st.cache.putHead r pos { hd with evalSet := hd.involved } } := by
      intro r' p' h e
      simp only [Cache.putHead]
      split
      · next hrp =>
        refine ⟨_, rfl, fun hne => ?_⟩
        rw [hrp.1, hrp.2, hnew hne] at e; cases e
      · exact hh r' p' h e
    have ha1 : ({ st with cache := st.cache.putHead r pos { hd with evalSet := hd.involved } } : St R U).cache.active
        = some (r, pos) := ha
    have hnd1 : ({ st with cache := st.cache.putHead r pos { hd with evalSet := hd.involved } } : St R U).pub.nodes[ck]?
        = some nd := hnd
    have hs1c : s.cache.heads r pos = some hd := by rw [hrel.cache]; exact hhd
    have hs1e : ({ s with cache := st.cache.putHead r pos { hd with evalSet := hd.involved } } : TSt R)
      = { s with cache := s.cache.putHead r pos { hd with evalSet := hd.involved } } := by rw [hrel.cache]
    rw [hs1e] at hrel1
    generalize ({ st with cache := st.cache.putHead r pos { hd with evalSet := hd.involved } } : St R U) = st1 at *
    rw [Out.bind_eq_ok] at he
    obtain ⟨⟨b0, q0, st2⟩, h1, he⟩ := he
    obtain ⟨D2, ks, s2, N, i1, i2, i3⟩ := hf D st1 ck pos _ _ b0 q0 st2 hi1 hck hnd1 hrel1 h1
    rw [hndc] at i1
    have hs2' : Step True Db sb D2 st2 parent [] := Step.outer hs1 i2.step hckl hp hl
    have hck2 : ¬ D2 ck := i2.notD hck (lt_of_getElem?_some hnd1)
    have hnd2 := i2.par hnd1
    rw [hndc, List.nil_append] at hnd2
    have hlk2 := i2.step.mono lk hlk
    have ha2 : st2.cache.active = some (r, pos) := by rw [i2.keep.active, ha1]
    have hh2 : HeadsKept sb st2 := by
      intro r' p' h e
      obtain ⟨h1, e1, i1⟩ := hh1 r' p' h e
      obtain ⟨h2, e2, i2⟩ := i2.keep.heads r' p' h1 e1
      have i2 := i2 (by rw [ha1]; simp)
      exact ⟨h2, e2, fun hne => ⟨i2.1.trans (i1 hne).1, i2.2.trans (i1 hne).2⟩⟩
    have hold2 : ∀ j, Db j → s2.tree j = s0.tree j := fun j hj => (i2.old j (hs.mono j hj)).trans (hold j hj)
    have hlkt2 : s2.tree lk = s.tree lk := i2.old lk hlk
    have key : ∃ ck' b q st3 D3 s3,
        growthPick st2 r pos ck b0 q0 = (ck', b, q) ∧
        TPick r pos ck b0 q0 ks s2 ck' b q s3 ∧
        st2.updateEntry ck' b pos q = .ok st3 ∧ st3.cache = st2.cache ∧
        Inv True body src D3 st3 ∧ Step True Db sb D3 st3 parent [] ∧ D3 ck' ∧
        D3 lk ∧ TRel D3 st3 s3 ∧ (∀ j, Db j → s3.tree j = s0.tree j) ∧ s3.tree lk = s.tree lk ∧
        MemoOK True body src r pos b q (s3.tree ck') := by
      unfold growthPick Cache.check
      cases hm : st2.cache.memo r pos with
      | none =>
        have hu2 : UnfL st2.pub.nodes ks (ks.map s2.tree) := unfL_map ks fun j hj => i2.rel.tree j (i2.keys j hj)
        obtain ⟨hi3, hu3, hst3⟩ := i2.inv.finish hck2 (by omega) hnd2 hu2 b0 pos q0
        have htk : (s2.setTree ck (Tree.mk r pos b0 q0 (ks.map s2.tree))).tree ck = Tree.mk r pos b0 q0 (ks.map s2.tree) := by
          simp [TSt.setTree]
        have htj : ∀ j, j ≠ ck → (s2.setTree ck (Tree.mk r pos b0 q0 (ks.map s2.tree))).tree j = s2.tree j := fun j hj => by
          simp [TSt.setTree, hj]
        refine ⟨ck, b0, q0, _, _, _, rfl, .own (by rw [i2.rel.cache]; exact hm), updateEntry_eq hnd2 b0 pos q0, rfl, hi3,
          hs2'.finish hib.bound hckl hl b0 pos q0, Or.inr rfl, Or.inl hlk2, ⟨?_, ?_, ?_⟩, ?_, ?_, ?_⟩
        · simp [TSt.setTree, i2.rel.cache, St.updated]
        · simp [TSt.setTree, i2.rel.next, St.updated]
        · rintro j (hj | rfl)
          · rw [htj j (fun h => hck2 (h ▸ hj))]
            exact hst3 [j] _ (by simpa using hj) (i2.rel.tree j hj)
          · rw [htk]; simpa only [hndr] using hu3
        · intro j hj
          rw [htj j (fun h => by have := hib.bound j hj; omega)]
          exact hold2 j hj
        · rw [htj lk (fun h => hck2 (h ▸ hlk2))]; exact hlkt2
        · rw [htk]; exact Or.inl ⟨_, i3, rfl⟩
      | some v =>
        obtain ⟨mb, mq, mk⟩ := v
        obtain ⟨hmk, hok⟩ := i2.rel.memo_run i2.inv hm
        have hut := i2.rel.tree mk hmk
        obtain ⟨ndm, hndm⟩ := exists_getElem? (i2.inv.bound mk hmk)
        have hsp : ndm.spanOf = if mb then some (pos, mq) else none := by
          generalize s2.tree mk = t at *
          cases hut with
          | cons e1 _ _ =>
            rw [hndm] at e1
            obtain rfl := Option.some.inj e1
            rcases hok with ⟨ts', _, ht⟩ | ⟨_, rfl, rfl, ht⟩
            · simp only [Tree.mk, Tree.node.injEq] at ht; exact ht.2.1
            · simp only [Tree.mk, Tree.node.injEq] at ht; simpa using ht.2.1
        obtain ⟨hi3, hst3, hsim⟩ := i2.inv.rewrite hndm hsp
        exact ⟨mk, mb, mq, _, D2, s2, rfl, .memo (by rw [i2.rel.cache]; exact hm), updateEntry_eq hndm mb pos mq, rfl, hi3,
          hs2'.rewrite hndm hmk hp hl hsim, hmk, hlk2,
          ⟨i2.rel.cache, by simpa [St.updated] using i2.rel.next, fun j hj => hst3 _ _ (i2.rel.tree j hj)⟩, hold2, hlkt2, hok⟩
    obtain ⟨ck', b1, q1, st3, D3, s3, he1, hpick, he2, hc3, hi3, hs3, hck3, hlk3, hrel3, hold3, hlkt3, hm3⟩ := key
    dsimp only at he
    rw [he1] at he
    simp only at he
    rw [he2] at he
    simp only [Out.bind_ok] at he
    have hl3 : parent < st3.pub.nodes.length := Nat.lt_of_lt_of_le hl hs3.len
    have hp3 : ¬ D3 parent := fun h => by
      rcases hs3.fresh _ h with h | h
      · exact hp h
      · omega
    have hh3 : HeadsKept sb st3 := by unfold HeadsKept; rw [hc3]; exact hh2
    split at he
    · next hstop =>
      obtain ⟨ndp, hndp⟩ := exists_getElem? hl3
      have r4 := TRel.res_connect hi3 hrel3 hp3 hndp hlk3
      rw [connect_eq hndp (fun h => hp3 (h ▸ hlk3))] at he
      simp only [Out.bind_ok, Out.ok.injEq, Prod.mk.injEq] at he
      obtain ⟨rfl, rfl, rfl⟩ := he
      have hh4 : HeadsKept sb (st3.connected parent ndp lk) := hh3
      generalize st3.connected parent ndp lk = st4 at *
      have hi5 : Inv True body src D3 (st4.setActive sb.cache.active) :=
        r4.inv.setCache (st4.cache.setActive sb.cache.active) rfl (by
          intro r' p' e
          simp only [Cache.setActive] at e ⊢
          obtain ⟨h, e'⟩ := hib.active r' p' e
          obtain ⟨h', e'', _⟩ := hh4 r' p' h e'
          exact ⟨h', e''⟩)
      have hs5 : Step True Db sb D3 (st4.setActive sb.cache.active) parent ([] ++ [lk]) :=
        (hs3.trans r4.step).setCache (st4.cache.setActive sb.cache.active) rfl
      have hml' : MemoOK True body src r pos last.1 last.2 (s3.tree lk) := by rw [hlkt3]; exact hml
      refine ⟨D3, lk, s3.endGrowth sb.cache.active r pos last lk, N + 1,
        .stop (Nat.lt_succ_self _) hs1c i1 hpick (by simpa using hstop), ?_, hml'⟩
      refine ⟨hi5.insert (q := last.2) hlk3 (r4.rel.tree lk hlk3) hml', hs5.insert (Or.inl trivial), ⟨rfl, hh4⟩,
        by simpa using hlk3, ⟨?_, r4.rel.next, r4.rel.tree⟩, hold3⟩
      simp [TSt.endGrowth, St.createCacheEntry, St.setActive, r4.rel.cache]
    · next hstop =>
      rcases reserve_cases st3 r with e | e
      · rw [e] at he; cases he
      rw [e] at he
      simp only [Out.bind_ok] at he
      have hi4 := hi3.reserve r
      have hs4 := Step.reserve (parent := parent) hi3 r hl3
      have hrel4 := hrel3.reserve hi3 r st3.cache
      have e3 : ({ s3 with next := s3.next + 1, cache := st3.cache } : TSt R) = { s3 with next := s3.next + 1 } := by
        rw [← hrel3.cache]
      rw [e3] at hrel4
      have hb1 : b1 = true ∧ last.2 < q1 := by simpa using hstop
      obtain ⟨rfl, hlt⟩ := hb1
      obtain ⟨D', k', s', N', j1, j2, j3⟩ := ih (true, q1) ck' _ _ D3 (blank st3.pub.nodes.length r) _ b q st' hi4
        (hs3.trans hs4) hh3 (by rw [← ha2, ← hc3]) (fun h => by have := hi3.bound _ h; omega) hs3.len (by simp) rfl rfl hck3
        hrel4 hold3 hm3 he
      rw [← hrel3.next] at j1
      exact ⟨D', k', s', max N N' + 1, .step (lt_max1 _ _) (lt_max2 _ _) hs1c i1 hpick hlt j1, j2, j3⟩

theorem tgrowth {f : PFn R U} {r : R} {inv : List R} (hf : TCtr body src f (body r))
    {D : Nat → Prop} {st : St R U} {s : TSt R} {parent pos : Nat} {nd : Node R} (n : Nat) (hi : Inv True body src D st)
    (hp : ¬ D parent) (hnd : st.pub.nodes[parent]? = some nd) (hrel : TRel D st s)
    (hnew : st.cache.active ≠ none → st.cache.heads r pos = none) {b q st'}
    (he : growthFunction n inv r f st.cache.active parent pos (st.setActive (some (r, pos))) = .ok (b, q, st')) :
    ∃ D' k s' N, TGrow body src N r pos s.cache.active (false, pos) s.next (s.next + 1) (s.startGrowth inv r pos) b q k s' ∧
        TRes body src D st parent s D' st' [k] s' ∧ MemoOK True body src r pos b q (s'.tree k) := by
  have hl := lt_of_getElem?_some hnd
  have hpos := hi.pos
  unfold growthFunction at he
  rcases reserve_cases (st.setActive (some (r, pos))) r with e | e
  · rw [e] at he; cases he
  rw [e] at he
  simp only [Out.bind_ok] at he
  have hlen : (st.setActive (some (r, pos))).pub.nodes = st.pub.nodes := rfl
  rw [hlen] at he
  have hi1 := hi.reserve r
  have hs1 := Step.reserve (parent := parent) hi r hl
  have hnb : (st.pub.nodes ++ [blank st.pub.nodes.length r])[st.pub.nodes.length]? = some (blank st.pub.nodes.length r) := by
    simp
  have hkD : ¬ D st.pub.nodes.length := fun h => by have := hi.bound _ h; omega
  rw [updateEntry_eq (st := { st.setActive (some (r, pos)) with pub := _ }) hnb false 0 0] at he
  simp only [Out.bind_ok] at he
  obtain ⟨hi2, hu2, hst2'⟩ := hi1.finish hkD (by omega) (nd := blank st.pub.nodes.length r) (by simp)
    (ts := []) .nil false 0 0
  have hs2 := hs1.finish (nd := blank st.pub.nodes.length r) hi.bound (Nat.le_refl _) hl false 0 0
  have hrel1 := hrel.reserve hi r st.cache
  generalize hst2 : ({ st with pub := { nodes := st.pub.nodes ++ [blank st.pub.nodes.length r] } } : St R U).updated
    st.pub.nodes.length (blank st.pub.nodes.length r) false 0 0 = st2 at *
  have hc2 : st2.cache = st.cache := by subst hst2; rfl
  have hlen2' : st2.pub.nodes.length = st.pub.nodes.length + 1 := by subst hst2; simp [St.updated]
  have heq : ({ st.setActive (some (r, pos)) with
      pub := { nodes := st.pub.nodes ++ [blank st.pub.nodes.length r] } } : St R U).updated
      st.pub.nodes.length (blank st.pub.nodes.length r) false 0 0 = st2.setActive (some (r, pos)) := by
    subst hst2; rfl
  rw [heq] at he
  rcases reserve_cases (st2.setActive (some (r, pos))) r with e2 | e2
  · rw [e2] at he; cases he
  rw [e2] at he
  simp only [Out.bind_ok] at he
  have hlen2 : (st2.setActive (some (r, pos))).pub.nodes = st2.pub.nodes := rfl
  rw [hlen2] at he
  have hl2 : parent < st2.pub.nodes.length := Nat.lt_of_lt_of_le hl hs2.len
  have hi3 := hi2.reserve r
  have hs3 := hs2.trans (Step.reserve (parent := parent) hi2 r hl2)
  have hu3 := (Step.reserve (parent := parent) hi2 r hl2).unf hi2 (ks := [st.pub.nodes.length]) (by simp) hu2
  have hi4 := hi3.setCache ((st2.cache.setActive (some (r, pos))).setHead pos r (toBTreeSet inv)) rfl (by
    intro r' p' e
    simp only [Cache.setHead, Cache.putHead, Cache.setActive, Option.some.injEq, Prod.mk.injEq] at e ⊢
    simp [e.1, e.2])
  have hs4 := hs3.setCache ((st2.cache.setActive (some (r, pos))).setHead pos r (toBTreeSet inv)) rfl
  have htk : (s.startGrowth inv r pos).tree st.pub.nodes.length = Tree.mk r pos false pos [] := by
    simp [TSt.startGrowth, TSt.setTree, hrel.next, Tree.mk]
  have htj : ∀ j, j ≠ st.pub.nodes.length → (s.startGrowth inv r pos).tree j = s.tree j := fun j hj => by
    simp [TSt.startGrowth, TSt.setTree, hrel.next, hj]
  have hrel4 : TRel (fun j => D j ∨ j = st.pub.nodes.length)
      { st2 with cache := (st2.cache.setActive (some (r, pos))).setHead pos r (toBTreeSet inv)
                 pub := { nodes := st2.pub.nodes ++ [blank st2.pub.nodes.length r] } } (s.startGrowth inv r pos) := by
    refine ⟨?_, ?_, ?_⟩
    · simp [TSt.startGrowth, hrel.cache, hc2]
    · simp [TSt.startGrowth, hrel.next, hlen2']
    · rintro j (hj | rfl)
      · rw [htj j (fun h => hkD (h ▸ hj))]
        refine (Step.reserve (parent := parent) hi2 r hl2).unf hi2 (ks := [j]) (by simp [hj]) ?_
        exact hst2' [j] _ (by simpa using hj) (hrel1.tree j hj)
      · rw [htk]; exact hu3
  have hE := tgrow hf hi hp hl (s0 := s) hnew n (false, pos) st.pub.nodes.length st2.pub.nodes.length _
    (fun j => D j ∨ j = st.pub.nodes.length) (blank st2.pub.nodes.length r) (s.startGrowth inv r pos) b q st' hi4 hs4 ?_ rfl ?_
    hs2.len (by simp) rfl rfl (Or.inr rfl) hrel4 ?_ ?_ he
  · obtain ⟨D', k, s', N, g1, g2, g3⟩ := hE
    refine ⟨D', k, s', N, ?_, g2, g3⟩
    rw [hrel.next, hrel.cache]
    rw [hlen2'] at g1
    exact g1
  · intro r' p' h e'
    simp only [Cache.setHead, Cache.putHead, Cache.setActive]
    split
    · next hrp =>
      refine ⟨_, rfl, fun hne => ?_⟩
      rw [hrp.1, hrp.2, hnew hne] at e'; cases e'
    · rw [hc2]; exact ⟨h, e', fun _ => ⟨rfl, List.Sublist.refl _⟩⟩
  · rintro (h | h)
    · have := hi.bound _ h; omega
    · omega
  · intro j hj
    exact htj j (fun h => hkD (h ▸ hj))
  · rw [htk]; exact Or.inr ⟨trivial, rfl, rfl, rfl⟩

theorem tctr_varNameLR {f : PFn R U} {r : R} {inv : List R} (n : Nat) (hf : TCtr body src f (body r)) :
    TCtr body src (varNameLRKernel n inv r f) (.varNameLR inv r) := by
  intro D st parent pos nd s b q st' hi hp hnd hrel he
  have hpos := hi.pos
  have hl := lt_of_getElem?_some hnd
  unfold varNameLRKernel shouldGrow at he
  cases ha : st.cache.active with
  | none =>
    simp only [ha, Out.bind_ok, if_true] at he
    rw [← ha] at he
    obtain ⟨D', k, s', N, g1, g2, g3⟩ := tgrowth hf n hi hp hnd hrel (by simp [ha]) he
    exact ⟨D', [k], s', N + 1, .lr_grow (Nat.lt_succ_self _) (fun A pa h => by rw [hrel.cache, ha] at h; cases h) g1, g2,
      memoOK_run_lr trivial g3⟩
  | some act =>
    obtain ⟨ar, ap⟩ := act
    obtain ⟨hd, hhd⟩ := hi.active ar ap ha
    have ha' : s.cache.active = some (ar, ap) := by rw [hrel.cache]; exact ha
    have hhd' : s.cache.heads ar ap = some hd := by rw [hrel.cache]; exact hhd
    have branch : (s.cache.heads r pos ≠ none ∨ r ∈ hd.involved) → lrInner r f parent pos st = .ok (b, q, st') →
        ∃ D' ks s' N, TEv body src N (.varNameLR inv r) nd.children pos s b q ks s' ∧
          TRes body src D st parent s D' st' ks s' ∧ Run True body src (.varNameLR inv r) pos b q (ks.map s'.tree) := by
      clear he
      intro hcond he
      unfold lrInner at he
      rw [ha] at he
      simp only [Cache.ruleInEvalSet, hhd, Out.bind_ok] at he
      split at he
      · next hev =>
        rcases reserve_cases st r with e | e
        · rw [e] at he; cases he
        rw [e] at he
        simp only [Out.bind_ok, St.removeFromEvalSet, Cache.removeFromEvalSet, hhd] at he
        have hi0 := hi.reserve r
        have hs0 := Step.reserve (parent := parent) hi r hl
        have hi1 := hi0.setCache (st.cache.putHead ar ap { hd with evalSet := hd.evalSet.filter (· ≠ r) }) rfl (by
          intro r' p' e
          simp only [Cache.putHead] at e ⊢
          split
          · exact ⟨_, rfl⟩
          · exact hi.active r' p' e)
        have hs1 := hs0.setCache (st.cache.putHead ar ap { hd with evalSet := hd.evalSet.filter (· ≠ r) }) rfl
        have hrel1 := hrel.reserve hi r (st.cache.putHead ar ap { hd with evalSet := hd.evalSet.filter (· ≠ r) })
        have hk0 : Keep st { st with
            pub := { nodes := st.pub.nodes ++ [blank st.pub.nodes.length r] }
            cache := st.cache.putHead ar ap { hd with evalSet := hd.evalSet.filter (· ≠ r) } } := by
          refine ⟨rfl, fun r' p' h e => ?_⟩
          simp only [Cache.putHead]
          split
          · next hrp =>
            rw [hrp.1, hrp.2, hhd] at e
            obtain rfl := Option.some.inj e
            exact ⟨_, rfl, fun _ => ⟨rfl, List.filter_sublist⟩⟩
          · exact ⟨h, e, fun _ => ⟨rfl, List.Sublist.refl _⟩⟩
        have hnb : ({ st with
            pub := { nodes := st.pub.nodes ++ [blank st.pub.nodes.length r] }
            cache := st.cache.putHead ar ap { hd with evalSet := hd.evalSet.filter (· ≠ r) } } : St R U).pub.nodes[st.pub.nodes.length]?
            = some (blank st.pub.nodes.length r) := by simp
        have hlen1 : ({ st with
            pub := { nodes := st.pub.nodes ++ [blank st.pub.nodes.length r] }
            cache := st.cache.putHead ar ap { hd with evalSet := hd.evalSet.filter (· ≠ r) } } : St R U).pub.nodes.length
            = st.pub.nodes.length + 1 := by simp
        rw [← hrel.cache] at hrel1 hk0 hnb hlen1 hi1 hs1 he
        generalize ({ st with
            pub := { nodes := st.pub.nodes ++ [blank st.pub.nodes.length r] }
            cache := s.cache.putHead ar ap { hd with evalSet := hd.evalSet.filter (· ≠ r) } } : St R U) = st1 at *
        have hkD : ¬ D st.pub.nodes.length := fun h => by have := hi.bound _ h; omega
        rw [Out.bind_eq_ok] at he
        obtain ⟨⟨b1, q1, st2⟩, h1, h2⟩ := he
        obtain ⟨D1, ks, s1, N, i1, i2, i3⟩ := hf D st1 st.pub.nodes.length pos _ _ b1 q1 st2 hi1 hkD hnb hrel1 h1
        dsimp only at h2
        have hnd2 := i2.par hnb
        rw [updateEntry_eq hnd2] at h2
        simp only [Out.bind_ok] at h2
        rw [Out.bind_eq_ok] at h2
        obtain ⟨st3, h3, h4⟩ := h2
        simp only [Out.ok.injEq, Prod.mk.injEq] at h4
        obtain ⟨rfl, rfl, rfl⟩ := h4
        obtain ⟨j1, j2⟩ := TRes.close (s := s) hp hnd hi i2.inv (Step.outer hs1 i2.step (Nat.le_refl _) hp hl)
          (hk0.trans i2.keep) (Nat.le_refl _) (i2.notD hkD (by omega)) hnd2 (by rfl) (by simp [blank]) i2.keys i2.rel i2.old
          i3 h3
        refine ⟨_, [st.pub.nodes.length], s1.put r pos b1 q1 st.pub.nodes.length ks, N + 1, ?_, j1, ?_⟩
        · rw [← hrel.next]
          exact .lr_eval (Nat.lt_succ_self _) ha' hhd' hcond (by simpa using hev) (by simpa [blank] using i1)
        · simp only [List.map_cons, List.map_nil]
          rw [j2]
          exact .lr_node trivial i3
      · next hev =>
        have hev' : r ∉ hd.evalSet := by simpa using hev
        unfold Cache.check at he
        cases hm : st.cache.memo r pos with
        | none =>
          simp only [hm, Out.ok.injEq, Prod.mk.injEq] at he
          obtain ⟨rfl, rfl, rfl⟩ := he
          exact ⟨D, [], s, 0, .lr_none ha' hhd' hcond hev' (by rw [hrel.cache]; exact hm), .ret hi hrel, .lr_none trivial⟩
        | some v =>
          obtain ⟨b1, q1, k⟩ := v
          obtain ⟨hk, hok⟩ := hrel.memo_run hi hm
          simp only [hm, connectIf_eq hnd, Out.bind_ok, Out.ok.injEq, Prod.mk.injEq] at he
          obtain ⟨rfl, rfl, he⟩ := he
          have hev1 := TEv.lr_memo (body := body) (src := src) (n := 0) (inv := inv) (pre := nd.children) ha' hhd' hcond hev'
            (by rw [hrel.cache]; exact hm : s.cache.memo r pos = some (b1, q1, k))
          split at he
          · next hc =>
            subst he
            rw [if_pos (by simpa using hc)] at hev1
            exact ⟨D, [], s, 0, hev1, .ret hi hrel, memoOK_run_dup trivial hok⟩
          · next hc =>
            subst he
            rw [if_neg (by simpa using hc)] at hev1
            exact ⟨D, [k], s, 0, hev1, hrel.res_connect hi hp hnd hk, memoOK_run_lr trivial hok⟩
    simp only [ha, Cache.checkHead] at he
    cases hh : st.cache.heads r pos with
    | some h =>
      simp only [hh, Out.bind_ok, Bool.false_eq_true, if_false] at he
      exact branch (Or.inl (by rw [hrel.cache, hh]; simp)) he
    | none =>
      simp only [hh, Cache.ruleInInvolvedSet, hhd, Out.bind_ok] at he
      split at he
      · next hx =>
        simp only [Out.bind_ok, Bool.false_eq_true, if_false] at he
        exact branch (Or.inr (by simpa using hx)) he
      · next hx =>
        simp only [Out.bind_ok, if_true] at he
        rw [← ha] at he
        obtain ⟨D', k, s', N, g1, g2, g3⟩ := tgrowth hf n hi hp hnd hrel (fun _ => hh) he
        refine ⟨D', [k], s', N + 1, .lr_grow (Nat.lt_succ_self _) (fun A pa h => ?_) g1, g2, memoOK_run_lr trivial g3⟩
        rw [ha'] at h
        simp only [Option.some.injEq, Prod.mk.injEq] at h
        obtain ⟨rfl, rfl⟩ := h
        exact ⟨by rw [hrel.cache]; exact hh, hd, hhd', by simpa using hx⟩

theorem Run.of_terminal (c : UInt8) (p : Nat) :
    Run True body src (.terminal c) p (terminalKernel src p c).1 (terminalKernel src p c).2 [] := by
  unfold terminalKernel
  split
  · next h => exact Run.terminal_ok (getChar_eq_some.mp h).1 (getChar_eq_some.mp h).2
  · next h => exact Run.terminal_fail (fun h' => h (getChar_eq_some.mpr h'))

theorem Run.of_range (lo hi p : Nat) :
    Run True body src (.matchRange lo hi) p (matchRangeKernel src p lo hi).1 (matchRangeKernel src p lo hi).2 [] := by
  unfold matchRangeKernel
  split
  · next v h =>
    have h' := getChar_eq_some.mp h
    split
    · next h2 => exact Run.range_ok h'.1 h'.2 h2.1 h2.2
    · next h2 =>
      refine Run.range_fail ?_
      rintro ⟨c, c1, c2, c3, c4⟩
      have : c = v := by rw [h'.2] at c2; exact (Option.some.inj c2).symm
      subst this; exact h2 ⟨c3, c4⟩
  · next h =>
    refine Run.range_fail ?_
    rintro ⟨c, c1, c2, c3, c4⟩
    rw [getChar_eq_some.mpr ⟨c1, c2⟩] at h; cases h

theorem Run.of_string (d : List UInt8) (p : Nat) :
    Run True body src (.stringTerminal d) p (stringTerminalKernel src p d).1 (stringTerminalKernel src p d).2 [] := by
  unfold stringTerminalKernel
  rw [stringTerminalLoop_eq]
  split
  · next h => exact Run.string_ok h.1 h.2
  · next h => exact Run.string_fail h

/-- Every returning `eval` of a hook-free parser is a run over trees. -/
theorem tev_of_eval (P : Parser R U) (src : Source) (hb : ∀ r, (P.body r).NoHook) :
    ∀ (n : Nat) (e : Expr R), e.NoHook → TCtr P.body src (eval P src n e) e := by
  intro n
  induction n with
  | zero => intro e _ D st parent pos nd s b q st' _ _ _ _ he; cases he
  | succ n ih =>
    intro e he
    cases e with
    | andPredicate e => exact tctr_and (ih e he)
    | notPredicate e => exact tctr_not (ih e he)
    | oneOrMore e => exact tctr_plus (ih e he) n
    | zeroOrMore e => exact tctr_loop (ih e he) n
    | optional e => exact tctr_opt (ih e he)
    | subexpression e => exact tctr_sub (ih e he)
    | orderedChoice a c => exact tctr_choice (ih a he.1) (ih c he.2)
    | sequence a c => exact tctr_seq (ih a he.1) (ih c he.2)
    | terminal c => exact tctr_pure (fun _ _ _ _ => .terminal rfl) (Run.of_terminal c)
    | stringTerminal d => exact tctr_pure (fun _ _ _ _ => .string rfl) (Run.of_string d)
    | matchRange lo hi => exact tctr_pure (fun _ _ _ _ => .range rfl) (Run.of_range lo hi)
    | varName r => exact tctr_varName (ih _ (hb r))
    | varNameLR inv r => exact tctr_varNameLR n (ih _ (hb r))
    | inlined r =>
      intro D st parent pos nd s b q st' hi hp hnd hrel hev
      obtain ⟨D', ks, s', N, i1, i2, i3⟩ := ih _ (hb r) D st parent pos nd s b q st' hi hp hnd hrel hev
      exact ⟨D', ks, s', N + 1, .inl (Nat.lt_succ_self _) i1, i2, .inl i3⟩
    | hooked name e => exact he.elim

end
end PP
