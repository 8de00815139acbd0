import Verif.Model.Parsers

/-! # Example 2, executed round by round -/
namespace PP
namespace Ex2P

/-- The memo table while `A` is grown at 0: entries for `A` and `B` at 0. -/
def memo2 (vA vB : Option (Bool × Nat × Nat)) : Ex2 → Nat → Option (Bool × Nat × Nat) := fun r p =>
  if p = 0 then (match r with | .r_a => vA | .r_b => vB | .r_grammar => none) else none
def heads2 (ev : List Ex2) : Ex2 → Nat → Option (Head Ex2) := fun r p =>
  if r = .r_a ∧ p = 0 then some ⟨0, .r_a, [.r_a, .r_b], ev⟩ else none
/-- The state while `A` is grown at 0. -/
def stg (N : List (Node Ex2)) (vA vB : Option (Bool × Nat × Nat)) (ev : List Ex2) : St Ex2 Unit :=
  ⟨⟨memo2 vA vB, heads2 ev, some (.r_a, 0)⟩, ⟨N⟩, ()⟩

variable {N : List (Node Ex2)} {vA vB : Option (Bool × Nat × Nat)} {ev : List Ex2}

theorem insert_a (b q k) : (stg N vA vB ev).createCacheEntry .r_a b 0 q k = stg N (some (b, q, k)) vB ev := by
  simp only [stg, St.createCacheEntry, Cache.insert, St.mk.injEq, Cache.mk.injEq, and_true]
  funext r p
  cases r <;> by_cases hp : p = 0 <;> simp [memo2, hp]
theorem insert_b (b q k) : (stg N vA vB ev).createCacheEntry .r_b b 0 q k = stg N vA (some (b, q, k)) ev := by
  simp only [stg, St.createCacheEntry, Cache.insert, St.mk.injEq, Cache.mk.injEq, and_true]
  funext r p
  cases r <;> by_cases hp : p = 0 <;> simp [memo2, hp]
theorem put_head (ev' : List Ex2) : (stg N vA vB ev).cache.putHead .r_a 0 ⟨0, .r_a, [.r_a, .r_b], ev'⟩ = (stg N vA vB ev').cache := by
  simp only [stg, Cache.putHead, Cache.mk.injEq, and_true, true_and]
  funext r p
  by_cases h : r = .r_a ∧ p = 0 <;> simp [heads2, h]
theorem remove (r : Ex2) : (stg N vA vB ev).removeFromEvalSet (.r_a, 0) r = .ok (stg N vA vB (ev.filter (· ≠ r))) := by
  have h : (stg N vA vB ev).cache.heads .r_a 0 = some ⟨0, .r_a, [.r_a, .r_b], ev⟩ := by simp [stg, heads2]
  simp only [St.removeFromEvalSet, Cache.removeFromEvalSet, h, put_head, Out.bind_ok]
  rfl
theorem reinit : (stg N vA vB ev).reinitializeEvalSet .r_a 0 = .ok (stg N vA vB [.r_a, .r_b]) := by
  have h : (stg N vA vB ev).cache.heads .r_a 0 = some ⟨0, .r_a, [.r_a, .r_b], ev⟩ := by simp [stg, heads2]
  simp only [St.reinitializeEvalSet, Cache.reinitializeEvalSet, h, put_head, Out.bind_ok]
  rfl
theorem reserve (r : Ex2) (h : N.length < 4294967296) : (stg N vA vB ev).reserve r = .ok (N.length, stg (N ++ [⟨N.length, r, 0, 0, false, []⟩]) vA vB ev) := by
  simp [St.reserve, Publisher.addNode, stg, h]

theorem modify_at (f : Node Ex2 → Node Ex2) (L : List (Node Ex2)) (a : Node Ex2) (L' : List (Node Ex2)) :
    Publisher.modify ⟨L ++ a :: L'⟩ L.length f = .ok ⟨L ++ f a :: L'⟩ := by
  simp [Publisher.modify]

theorem connect_at {L : List (Node Ex2)} {a : Node Ex2} {L' : List (Node Ex2)} {c : Nat} (hc : c ≠ L.length) :
    (stg (L ++ a :: L') vA vB ev).connect L.length c = .ok (stg (L ++ { a with children := a.children ++ [c] } :: L') vA vB ev) := by
  simp only [St.connect, Publisher.connect, stg, if_neg (Ne.symm hc), modify_at, Out.bind_ok]
theorem connectIf_at {L : List (Node Ex2)} {a : Node Ex2} {L' : List (Node Ex2)} {c : Nat} (hc : a.children = []) :
    (stg (L ++ a :: L') vA vB ev).connectIfNotConnected L.length c = .ok (stg (L ++ { a with children := [c] } :: L') vA vB ev) := by
  simp [St.connectIfNotConnected, Publisher.connectIfNotConnected, stg, modify_at, hc]
theorem update_at {L : List (Node Ex2)} {a : Node Ex2} {L' : List (Node Ex2)} {b : Bool} {s e : Nat} :
    (stg (L ++ a :: L') vA vB ev).updateEntry L.length b s e = .ok (stg (L ++ ⟨a.index, a.rule, s, e, b, a.children⟩ :: L') vA vB ev) := by
  simp [St.updateEntry, Publisher.setNodeResult, Publisher.setNodeStart, Publisher.setNodeStop, stg, modify_at]

theorem no_growth {r : Ex2} (hr : r ≠ .r_grammar) (f : Nat) (g : PFn Ex2 Unit) (parent : Nat) :
    varNameLRKernel f [.r_a, .r_b] r g parent 0 (stg N vA vB ev) = lrInner r g parent 0 (stg N vA vB ev) := by
  cases r
  · simp [varNameLRKernel, shouldGrow, stg, Cache.checkHead, heads2]
  · simp [varNameLRKernel, shouldGrow, stg, Cache.checkHead, heads2, Cache.ruleInInvolvedSet]
  · simp at hr

def kidsOf : Option (Bool × Nat × Nat) → List Nat
  | some (_, _, k) => [k]
  | none => []

variable {src : Source}

theorem inner_memo (g : PFn Ex2 Unit) {L : List (Node Ex2)} {a : Node Ex2} (ha : a.children = []) :
    lrInner .r_b g L.length 0 (stg (L ++ [a]) vA vB []) =
      .ok ((vB.map (·.1)).getD false, (vB.map (·.2.1)).getD 0, stg (L ++ [{ a with children := kidsOf vB }]) vA vB []) := by
  unfold lrInner
  simp only [show (stg (L ++ [a]) vA vB []).cache.active = some (.r_a, 0) from rfl]
  simp only [show (stg (L ++ [a]) vA vB []).cache.ruleInEvalSet (.r_a, 0) .r_b = .ok false by simp [Cache.ruleInEvalSet, stg, heads2], Out.bind_ok]
  simp only [Bool.false_eq_true, if_false, show (stg (L ++ [a]) vA vB []).cache.check .r_b 0 = vB by simp [Cache.check, stg, memo2]]
  cases vB with
  | none => simp only [kidsOf, ← ha]; rfl
  | some v => obtain ⟨b, q, k⟩ := v; simp only [connectIf_at ha, Out.bind_ok, kidsOf]; rfl

/-- `(X, c) / c` at 0, when `X` gave `(b, q)`. -/
def pick (src : Source) (c : UInt8) (b : Bool) (q : Nat) : Bool × Nat :=
  if b ∧ src.getChar q = some c then (true, q + 1) else if src.getChar 0 = some c then (true, 1) else (false, 0)

theorem eval_choice {n : Nat} {e : Expr Ex2} {c : UInt8} {k : Nat} {st st' : St Ex2 Unit} {b : Bool} {q : Nat}
    (h : eval ex2Parser src (n + 1) e k 0 st = .ok (b, q, st')) :
    eval ex2Parser src (n + 4) (.orderedChoice (.subexpression (.sequence e (.terminal c))) (.terminal c)) k 0 st =
      .ok ((pick src c b q).1, (pick src c b q).2, st') := by
  simp only [eval, orderedChoiceKernel, subexpressionKernel, sequenceKernel, h, Out.bind_ok, liftPure, terminalKernel, pick]
  cases b
  · by_cases h0 : src.getChar 0 = some c <;> simp [h0]
  · by_cases hq : src.getChar q = some c
    · simp [hq]
    · by_cases h0 : src.getChar 0 = some c <;> simp [h0, hq]

/-- `B` is being evaluated: `A` uses the old `B`. -/
theorem eval_a_inner {n : Nat} {L : List (Node Ex2)} {a : Node Ex2} (ha : a.children = []) :
    eval ex2Parser src (n + 4) (Ex2.body .r_a) L.length 0 (stg (L ++ [a]) vA vB []) =
      .ok ((pick src 97 ((vB.map (·.1)).getD false) ((vB.map (·.2.1)).getD 0)).1,
        (pick src 97 ((vB.map (·.1)).getD false) ((vB.map (·.2.1)).getD 0)).2, stg (L ++ [{ a with children := kidsOf vB }]) vA vB []) :=
  eval_choice (by rw [eval, no_growth (by simp), inner_memo _ ha])

/-- The reference to `A` in `B`. -/
theorem lr_a {n : Nat} {L : List (Node Ex2)} {a : Node Ex2} (hL : L.length + 1 < 4294967296) {bi : Bool} {qi : Nat}
    (hi : pick src 97 ((vB.map (·.1)).getD false) ((vB.map (·.2.1)).getD 0) = (bi, qi)) :
    eval ex2Parser src (n + 5) (.varNameLR [.r_a, .r_b] .r_a) L.length 0 (stg (L ++ [a]) vA vB [.r_a]) =
      .ok (bi, qi, stg (L ++ [{ a with children := a.children ++ [L.length + 1] }, ⟨L.length + 1, .r_a, 0, qi, bi, kidsOf vB⟩])
        (some (bi, qi, L.length + 1)) vB []) := by
  rw [eval, no_growth (by simp)]
  unfold lrInner
  simp only [show (stg (L ++ [a]) vA vB [.r_a]).cache.active = some (.r_a, 0) from rfl]
  simp only [show (stg (L ++ [a]) vA vB [.r_a]).cache.ruleInEvalSet (.r_a, 0) .r_a = .ok true by simp [Cache.ruleInEvalSet, stg, heads2], Out.bind_ok,
    if_true]
  rw [reserve _ (by simpa using hL)]
  have hlen : (L ++ [a]).length = L.length + 1 := by simp
  simp only [Out.bind_ok, remove, show [Ex2.r_a].filter (· ≠ .r_a) = [] from rfl]
  have e1 := eval_a_inner (src := src) (vA := vA) (vB := vB) (n := n) (L := L ++ [a]) (a := ⟨(L ++ [a]).length, .r_a, 0, 0, false, []⟩) rfl
  rw [show ex2Parser.body .r_a = Ex2.body .r_a from rfl, e1, hi]
  simp only [Out.bind_ok]
  rw [update_at]
  simp only [Out.bind_ok, insert_a]
  rw [hlen, List.append_assoc, List.singleton_append, connect_at (by omega)]
  rfl

/-- The reference to `B` in `A`. -/
theorem lr_b {n : Nat} {L : List (Node Ex2)} {a : Node Ex2} (hL : L.length + 2 < 4294967296) {bi bb : Bool} {qi qb : Nat}
    (hi : pick src 97 ((vB.map (·.1)).getD false) ((vB.map (·.2.1)).getD 0) = (bi, qi)) (hb : pick src 98 bi qi = (bb, qb)) :
    eval ex2Parser src (n + 9) (.varNameLR [.r_a, .r_b] .r_b) L.length 0 (stg (L ++ [a]) vA vB [.r_a, .r_b]) =
      .ok (bb, qb, stg (L ++ [{ a with children := a.children ++ [L.length + 1] }, ⟨L.length + 1, .r_b, 0, qb, bb, [L.length + 2]⟩,
          ⟨L.length + 2, .r_a, 0, qi, bi, kidsOf vB⟩])
        (some (bi, qi, L.length + 2)) (some (bb, qb, L.length + 1)) []) := by
  rw [eval, no_growth (by simp)]
  unfold lrInner
  simp only [show (stg (L ++ [a]) vA vB [.r_a, .r_b]).cache.active = some (.r_a, 0) from rfl]
  simp only [show (stg (L ++ [a]) vA vB [.r_a, .r_b]).cache.ruleInEvalSet (.r_a, 0) .r_b = .ok true by simp [Cache.ruleInEvalSet, stg, heads2],
    Out.bind_ok, if_true]
  rw [reserve _ (by simp; omega)]
  have hlen : (L ++ [a]).length = L.length + 1 := by simp
  simp only [Out.bind_ok, remove, show [Ex2.r_a, .r_b].filter (· ≠ .r_b) = [.r_a] from rfl]
  have e1 := lr_a (src := src) (vA := vA) (vB := vB) (n := n) (L := L ++ [a]) (a := ⟨(L ++ [a]).length, .r_b, 0, 0, false, []⟩) (by omega) hi
  have e2 := eval_choice (c := 98) e1
  rw [hb] at e2
  rw [show ex2Parser.body .r_b = Ex2.body .r_b from rfl, show Ex2.body .r_b = .orderedChoice (.subexpression (.sequence (.varNameLR [.r_a, .r_b] .r_a)
    (.terminal 98))) (.terminal 98) from rfl, e2]
  simp only [Out.bind_ok]
  rw [update_at]
  simp only [Out.bind_ok, insert_b]
  rw [hlen, List.append_assoc, List.singleton_append, connect_at (by omega)]
  rfl

/-- One round: the body of `A` from the outside. -/
theorem round {n : Nat} {L : List (Node Ex2)} (hL : L.length + 2 < 4294967296) {bi bb : Bool} {qi qb : Nat}
    (hi : pick src 97 ((vB.map (·.1)).getD false) ((vB.map (·.2.1)).getD 0) = (bi, qi)) (hb : pick src 98 bi qi = (bb, qb)) :
    ∃ b q, eval ex2Parser src (n + 12) (Ex2.body .r_a) L.length 0 (stg (L ++ [⟨L.length, .r_a, 0, 0, false, []⟩]) vA vB [.r_a, .r_b]) =
      .ok (b, q, stg (L ++ [⟨L.length, .r_a, 0, 0, false, [L.length + 1]⟩, ⟨L.length + 1, .r_b, 0, qb, bb, [L.length + 2]⟩,
          ⟨L.length + 2, .r_a, 0, qi, bi, kidsOf vB⟩]) (some (bi, qi, L.length + 2)) (some (bb, qb, L.length + 1)) []) :=
  ⟨_, _, eval_choice (lr_b (a := ⟨L.length, .r_a, 0, 0, false, []⟩) hL hi hb)⟩

/-- `abab…` -/
def ab (i : Nat) : UInt8 := if i % 2 = 0 then 97 else 98

/-- The value of `B` after round `j`, when the text starts with exactly `M` alternating letters. -/
def bval (M j : Nat) : Bool × Nat := if 2 * j ≤ M then (true, 2 * j) else (false, 0)

theorem pick_b {M j : Nat} (hM : ∀ i, i < M → src.getChar i = some (ab i)) (hMM : src.getChar M ≠ some (ab M)) (hj : 1 ≤ j) (hjM : 2 * j - 1 ≤ M) :
    pick src 98 true (2 * j - 1) = bval M j := by
  have h0 : src.getChar 0 ≠ some 98 := by
    rw [hM 0 (by omega)]; decide
  unfold pick bval
  by_cases h : 2 * j ≤ M
  · have := hM (2 * j - 1) (by omega)
    rw [show ab (2 * j - 1) = 98 by simp [ab]; omega] at this
    simp only [this, h, true_and, if_true]
    rw [show 2 * j - 1 + 1 = 2 * j by omega]
  · have hM' : M = 2 * j - 1 := by omega
    rw [hM', show ab (2 * j - 1) = 98 by simp [ab]; omega] at hMM
    simp [hMM, h, h0]

theorem pick_a {M j : Nat} (hM : ∀ i, i < M → src.getChar i = some (ab i)) (hMM : src.getChar M ≠ some (ab M)) (h0 : 1 ≤ M) :
    pick src 97 (bval M j).1 (bval M j).2 = (true, if 2 * j + 1 ≤ M then 2 * j + 1 else 1) := by
  have ha : src.getChar 0 = some 97 := by rw [hM 0 (by omega)]; rfl
  unfold pick bval
  by_cases h : 2 * j ≤ M
  · by_cases h' : 2 * j + 1 ≤ M
    · have := hM (2 * j) (by omega)
      rw [show ab (2 * j) = 97 by simp [ab]] at this
      simp [h, h', this]
    · have hM' : M = 2 * j := by omega
      rw [hM', show ab (2 * j) = 97 by simp [ab]] at hMM
      simp [h, h', hMM, ha]
  · have h' : ¬ 2 * j + 1 ≤ M := by omega
    simp [h, h', ha]

/-- The nodes of rounds `1 … j - 1`. -/
structure Inv (M j : Nat) (L : List (Node Ex2)) : Prop where
  len : L.length = 3 * j
  root : L[0]? = some ⟨0, .r_grammar, 0, 0, true, []⟩
  gr : L[1]? = some ⟨1, .r_grammar, 0, 0, false, []⟩
  seed : L[2]? = some ⟨2, .r_a, 0, 0, false, []⟩
  a : ∀ i, 1 ≤ i → i < j → 2 * i - 1 ≤ M → L[3 * i + 2]? = some ⟨3 * i + 2, .r_a, 0, 2 * i - 1, true, if i = 1 then [] else [3 * i - 2]⟩
  b : ∀ i, 1 ≤ i → i < j → 2 * i ≤ M → L[3 * i + 1]? = some ⟨3 * i + 1, .r_b, 0, 2 * i, true, [3 * i + 2]⟩

/-- What is known of the nodes at the end. -/
structure Final (m last : Nat) (L : List (Node Ex2)) : Prop where
  len : L.length ≤ 3 * m + 9
  root : L[0]? = some ⟨0, .r_grammar, 0, 0, true, []⟩
  gr : L[1]? = some ⟨1, .r_grammar, 0, 0, false, [last]⟩
  seed : L[2]? = some ⟨2, .r_a, 0, 0, false, []⟩
  a : ∀ i, 1 ≤ i → i ≤ m + 1 → L[3 * i + 2]? = some ⟨3 * i + 2, .r_a, 0, 2 * i - 1, true, if i = 1 then [] else [3 * i - 2]⟩
  b : ∀ i, 1 ≤ i → i ≤ m → L[3 * i + 1]? = some ⟨3 * i + 1, .r_b, 0, 2 * i, true, [3 * i + 2]⟩

def lastOf (j : Nat) : Bool × Nat := if j = 1 then (false, 0) else (true, 2 * j - 3)
def lastKeyOf (j : Nat) : Nat := if j = 1 then 2 else 3 * j - 1
def vbOf (M j : Nat) : Option (Bool × Nat × Nat) := if j = 1 then none else some ((bval M (j - 1)).1, (bval M (j - 1)).2, 3 * j - 2)

/-- One iteration of the growth loop. -/
theorem iterate {n k : Nat} {M j : Nat} {L : List (Node Ex2)} (hI : Inv M j L) (hs : 3 * j + 9 < 4294967296)
    {bi bb : Bool} {qi qb : Nat} (hi : pick src 97 ((vB.map (·.1)).getD false) ((vB.map (·.2.1)).getD 0) = (bi, qi)) (hb : pick src 98 bi qi = (bb, qb))
    (lb : Bool) (lq lk : Nat) (prev : Option (Ex2 × Nat)) :
    growthLoop .r_a (eval ex2Parser src (n + 12) (Ex2.body .r_a)) 1 0 prev (k + 1) (lb, lq) lk (3 * j)
      (stg (L ++ [⟨3 * j, .r_a, 0, 0, false, []⟩]) vA vB ev) =
    if !bi || decide (qi ≤ lq) then
      (do
        let st ← (stg (L ++ [⟨3 * j, .r_a, 0, 0, false, [3 * j + 1]⟩, ⟨3 * j + 1, .r_b, 0, qb, bb, [3 * j + 2]⟩, ⟨3 * j + 2, .r_a, 0, qi, bi, kidsOf vB⟩])
          (some (bi, qi, 3 * j + 2)) (some (bb, qb, 3 * j + 1)) []).connect 1 lk
        .ok (lb, lq, (st.setActive prev).createCacheEntry .r_a lb 0 lq lk))
    else growthLoop .r_a (eval ex2Parser src (n + 12) (Ex2.body .r_a)) 1 0 prev k (bi, qi) (3 * j + 2) (3 * (j + 1))
      (stg ((L ++ [⟨3 * j, .r_a, 0, 0, false, [3 * j + 1]⟩, ⟨3 * j + 1, .r_b, 0, qb, bb, [3 * j + 2]⟩, ⟨3 * j + 2, .r_a, 0, qi, bi, kidsOf vB⟩]) ++
        [⟨3 * (j + 1), .r_a, 0, 0, false, []⟩]) (some (bi, qi, 3 * j + 2)) (some (bb, qb, 3 * j + 1)) []) := by
  have hl := hI.len
  rw [growthLoop, reinit]
  simp only [Out.bind_ok]
  obtain ⟨b, q, hr⟩ := round (src := src) (vA := vA) (vB := vB) (n := n) (L := L) (by omega) hi hb
  rw [hl] at hr
  rw [hr]
  simp only [Out.bind_ok, growthPick]
  simp only [show ∀ N vA vB ev, (stg N vA vB ev).cache.check .r_a 0 = vA from fun N vA vB ev => by simp [Cache.check, stg, memo2]]
  have hu := update_at (vA := some (bi, qi, 3 * j + 2)) (vB := some (bb, qb, 3 * j + 1)) (ev := []) (b := bi) (s := 0) (e := qi)
    (L := L ++ [⟨3 * j, .r_a, 0, 0, false, [3 * j + 1]⟩, ⟨3 * j + 1, .r_b, 0, qb, bb, [3 * j + 2]⟩])
    (a := ⟨3 * j + 2, .r_a, 0, qi, bi, kidsOf vB⟩) (L' := [])
  simp only [List.append_assoc, List.cons_append, List.nil_append, List.length_append, List.length_cons, List.length_nil, hl] at hu
  rw [hu]
  simp only [Out.bind_ok]
  split
  · rfl
  · rw [reserve _ (by simp; omega)]
    simp only [Out.bind_ok, List.length_append, List.length_cons, List.length_nil, hl]
    rfl

theorem get_of {α : Type} {L : List α} {a b c : α} {i j : Nat} (hl : L.length = i) (x : α) :
    (j < i → L[j]? = some x) → (j = i → a = x) → (j = i + 1 → b = x) → (j = i + 2 → c = x) → j < i + 3 →
    (L ++ [a, b, c])[j]? = some x := by
  intro h1 h2 h3 h4 h5
  by_cases hj : j < i
  · rw [List.getElem?_append_left (by omega)]; exact h1 hj
  · rw [List.getElem?_append_right (by omega)]
    have : j - L.length = 0 ∨ j - L.length = 1 ∨ j - L.length = 2 := by omega
    rcases this with e | e | e
    · rw [e]; simp [h2 (by omega)]
    · rw [e]; simp [h3 (by omega)]
    · rw [e]; simp [h4 (by omega)]

theorem connect_get {N : List (Node Ex2)} {a : Node Ex2} {k c : Nat} (hk : N[k]? = some a) (hc : c ≠ k) :
    (stg N vA vB ev).connect k c = .ok (stg (N.set k { a with children := a.children ++ [c] }) vA vB ev) := by
  simp only [St.connect, Publisher.connect, stg, if_neg (Ne.symm hc), Publisher.modify, hk, Out.bind_ok]

theorem loop {n m M : Nat} (hM : ∀ i, i < M → src.getChar i = some (ab i)) (hMM : src.getChar M ≠ some (ab M)) (hm1 : 2 * m + 1 ≤ M) (hm2 : M < 2 * m + 3)
    (hs : 3 * m + 20 < 4294967296) (prev : Option (Ex2 × Nat)) :
    ∀ (d j k : Nat) (L : List (Node Ex2)) (vA : Option (Bool × Nat × Nat)) (ev : List Ex2), 1 ≤ j → j + d = m + 2 → Inv M j L → d < k →
    ∃ L' vA' vB', Final m (3 * m + 5) L' ∧
      growthLoop .r_a (eval ex2Parser src (n + 12) (Ex2.body .r_a)) 1 0 prev k (lastOf j) (lastKeyOf j) (3 * j)
        (stg (L ++ [⟨3 * j, .r_a, 0, 0, false, []⟩]) vA (vbOf M j) ev) =
      .ok (true, 2 * m + 1, ((stg L' vA' vB' []).setActive prev).createCacheEntry .r_a true 0 (2 * m + 1) (3 * m + 5)) := by
  intro d
  induction d with
  | zero =>
    intro j k L vA ev hj hjd hI hk
    obtain ⟨k, rfl⟩ : ∃ k', k = k' + 1 := ⟨k - 1, by omega⟩
    obtain rfl : j = m + 2 := by omega
    have hvb : vbOf M (m + 2) = some ((bval M (m + 1)).1, (bval M (m + 1)).2, 3 * m + 4) := by
      simp [vbOf]; omega
    have hi : pick src 97 (((vbOf M (m + 2)).map (·.1)).getD false) (((vbOf M (m + 2)).map (·.2.1)).getD 0) = (true, 1) := by
      rw [hvb]
      simp only [Option.map_some, Option.getD_some]
      rw [pick_a hM hMM (by omega), if_neg (by omega)]
    have hb : pick src 98 true 1 = ((pick src 98 true 1).1, (pick src 98 true 1).2) := rfl
    have hlast : lastOf (m + 2) = (true, 2 * m + 1) := by simp [lastOf]; omega
    have hkey : lastKeyOf (m + 2) = 3 * m + 5 := by simp [lastKeyOf]; omega
    rw [hlast, hkey, iterate (n := n) (k := k) hI (by omega) hi hb, if_pos (by simp)]
    have hl := hI.len
    rw [connect_get (k := 1) (a := ⟨1, .r_grammar, 0, 0, false, []⟩)
      (by rw [List.getElem?_append_left (by omega)]; exact hI.gr) (by omega)]
    simp only [Out.bind_ok]
    refine ⟨_, _, _, ?_, rfl⟩
    refine ⟨by simp; omega, ?_, ?_, ?_, ?_, ?_⟩
    · rw [List.getElem?_set_ne (by omega), List.getElem?_append_left (by omega)]; exact hI.root
    · rw [List.getElem?_set_self (by simp)]; rfl
    · rw [List.getElem?_set_ne (by omega), List.getElem?_append_left (by omega)]; exact hI.seed
    · intro i h1 h2
      rw [List.getElem?_set_ne (by omega), List.getElem?_append_left (by omega)]; exact hI.a i h1 (by omega) (by omega)
    · intro i h1 h2
      rw [List.getElem?_set_ne (by omega), List.getElem?_append_left (by omega)]; exact hI.b i h1 (by omega) (by omega)
  | succ d ih =>
    intro j k L vA ev hj hjd hI hk
    obtain ⟨k, rfl⟩ : ∃ k', k = k' + 1 := ⟨k - 1, by omega⟩
    have hi : pick src 97 (((vbOf M j).map (·.1)).getD false) (((vbOf M j).map (·.2.1)).getD 0) = (true, 2 * j - 1) := by
      by_cases h1 : j = 1
      · subst h1
        have ha : src.getChar 0 = some 97 := by rw [hM 0 (by omega)]; rfl
        simp [vbOf, pick, ha]
      · simp only [vbOf, if_neg h1, Option.map_some, Option.getD_some]
        rw [pick_a hM hMM (by omega), if_pos (by omega)]
        congr 1; omega
    have hb := pick_b (src := src) (j := j) hM hMM hj (by omega)
    have hlast : (lastOf j).2 < 2 * j - 1 := by
      unfold lastOf; split <;> simp <;> omega
    have hl := hI.len
    rw [show lastOf j = ((lastOf j).1, (lastOf j).2) from rfl,
      iterate (n := n) (k := k) hI (by omega) hi (bb := (bval M j).1) (qb := (bval M j).2) hb, if_neg (by simp; omega)]
    have hvb : vbOf M (j + 1) = some ((bval M j).1, (bval M j).2, 3 * j + 1) := by
      simp [vbOf]; omega
    have hlo : lastOf (j + 1) = (true, 2 * j - 1) := by
      unfold lastOf; rw [if_neg (by omega)]; congr 1
    have hlk : lastKeyOf (j + 1) = 3 * j + 2 := by
      unfold lastKeyOf; rw [if_neg (by omega)]; omega
    have hkids : kidsOf (vbOf M j) = if j = 1 then [] else [3 * j - 2] := by
      unfold vbOf; split <;> rfl
    have key : Inv M (j + 1) (L ++ [⟨3 * j, .r_a, 0, 0, false, [3 * j + 1]⟩, ⟨3 * j + 1, .r_b, 0, (bval M j).2, (bval M j).1, [3 * j + 2]⟩,
        ⟨3 * j + 2, .r_a, 0, 2 * j - 1, true, kidsOf (vbOf M j)⟩]) → _ :=
      fun hI' => ih (j + 1) k _ (some (true, 2 * j - 1, 3 * j + 2)) [] (by omega) (by omega) hI' (by omega)
    rw [hvb, hlo, hlk] at key
    apply key
    rw [hkids]
    refine ⟨by simp; omega, ?_, ?_, ?_, ?_, ?_⟩
    · rw [List.getElem?_append_left (by omega)]; exact hI.root
    · rw [List.getElem?_append_left (by omega)]; exact hI.gr
    · rw [List.getElem?_append_left (by omega)]; exact hI.seed
    · intro i h1 h2 h3
      apply get_of hl
      · intro h4; exact hI.a i h1 (by omega) h3
      · omega
      · omega
      · intro h4; obtain rfl : i = j := by omega
        rfl
      · omega
    · intro i h1 h2 h3
      apply get_of hl
      · intro h4; exact hI.b i h1 (by omega) h3
      · omega
      · intro h4; obtain rfl : i = j := by omega
        simp [bval, h3]
      · omega
      · omega

/-- Before the first round. -/
def L0 : List (Node Ex2) := [⟨0, .r_grammar, 0, 0, true, []⟩, ⟨1, .r_grammar, 0, 0, false, []⟩, ⟨2, .r_a, 0, 0, false, []⟩]

theorem inv0 (M : Nat) : Inv M 1 L0 := by
  refine ⟨rfl, rfl, rfl, rfl, ?_, ?_⟩ <;> (intro i h1 h2; omega)

theorem reserve_gen {st : St Ex2 Unit} (r : Ex2) (h : st.pub.nodes.length < 4294967296) :
    st.reserve r = .ok (st.pub.nodes.length, { st with pub := ⟨st.pub.nodes ++ [⟨st.pub.nodes.length, r, 0, 0, false, []⟩]⟩ }) := by
  simp [St.reserve, Publisher.addNode, h]

theorem update_gen {st : St Ex2 Unit} {k : Nat} {a : Node Ex2} (h : st.pub.nodes[k]? = some a) (b : Bool) (s e : Nat) :
    st.updateEntry k b s e = .ok { st with pub := ⟨st.pub.nodes.set k ⟨a.index, a.rule, s, e, b, a.children⟩⟩ } := by
  have hk : k < st.pub.nodes.length := by
    rcases Nat.lt_or_ge k st.pub.nodes.length with h' | h'
    · exact h'
    · rw [List.getElem?_eq_none h'] at h; cases h
  simp [St.updateEntry, Publisher.setNodeResult, Publisher.setNodeStart, Publisher.setNodeStop, Publisher.modify, h, List.getElem?_set_self hk]

theorem connect_gen {st : St Ex2 Unit} {k c : Nat} {a : Node Ex2} (h : st.pub.nodes[k]? = some a) (hc : c ≠ k) :
    st.connect k c = .ok { st with pub := ⟨st.pub.nodes.set k { a with children := a.children ++ [c] }⟩ } := by
  simp only [St.connect, Publisher.connect, if_neg (Ne.symm hc), Publisher.modify, h, Out.bind_ok]

theorem start {n : Nat} {st : St Ex2 Unit} (hc : st.cache = ⟨fun _ _ => none, fun _ _ => none, none⟩)
    (hp : st.pub = ⟨[⟨0, .r_grammar, 0, 0, true, []⟩, ⟨1, .r_grammar, 0, 0, false, []⟩]⟩) :
    eval ex2Parser src (n + 13) (Ex2.body .r_grammar) 1 0 st =
      growthLoop .r_a (eval ex2Parser src (n + 12) (Ex2.body .r_a)) 1 0 none (n + 12) (lastOf 1) (lastKeyOf 1) (3 * 1)
        (stg (L0 ++ [⟨3 * 1, .r_a, 0, 0, false, []⟩]) none none [.r_a, .r_b]) := by
  obtain ⟨c, p, u⟩ := st
  simp only at hc hp
  subst hc hp
  show eval ex2Parser src (n + 13) (.varNameLR [.r_a, .r_b] .r_a) 1 0 _ = _
  rw [eval]
  simp only [varNameLRKernel, shouldGrow, Out.bind_ok, if_true, growthFunction, St.setActive]
  rw [reserve_gen _ (by simp)]
  simp only [Out.bind_ok]
  rw [update_gen (a := ⟨2, .r_a, 0, 0, false, []⟩) rfl]
  simp only [Out.bind_ok, List.length_cons, List.length_nil, List.cons_append, List.nil_append, List.set_cons_succ, List.set_cons_zero]
  rw [reserve_gen _ (by simp)]
  simp only [Out.bind_ok]
  have e : ∀ u : Unit, (⟨(⟨fun _ _ => none, fun _ _ => none, none⟩ : Cache Ex2).setActive (some (Ex2.r_a, 0)),
      ⟨L0 ++ [⟨3, .r_a, 0, 0, false, []⟩]⟩, u⟩ : St Ex2 Unit).setHead 0 .r_a (toBTreeSet [.r_a, .r_b]) =
      stg (L0 ++ [⟨3, .r_a, 0, 0, false, []⟩]) none none [.r_a, .r_b] := by
    intro u
    simp only [St.setHead, Cache.setHead, Cache.putHead, Cache.setActive, stg, St.mk.injEq, Cache.mk.injEq, and_true]
    refine ⟨?_, ?_⟩
    · funext r p; cases r <;> simp [memo2]
    · funext r p
      simp [heads2, toBTreeSet]
  exact congrArg _ (e u)

/-- The nodes of the whole parse. -/
structure Whole (m : Nat) (L : List (Node Ex2)) : Prop where
  root : L[0]? = some ⟨0, .r_grammar, 0, 0, true, [1]⟩
  gr : L[1]? = some ⟨1, .r_grammar, 0, 2 * m + 1, true, [3 * m + 5]⟩
  a : ∀ i, 1 ≤ i → i ≤ m + 1 → L[3 * i + 2]? = some ⟨3 * i + 2, .r_a, 0, 2 * i - 1, true, if i = 1 then [] else [3 * i - 2]⟩
  b : ∀ i, 1 ≤ i → i ≤ m → L[3 * i + 1]? = some ⟨3 * i + 1, .r_b, 0, 2 * i, true, [3 * i + 2]⟩

theorem whole {n m M : Nat} (hM : ∀ i, i < M → src.getChar i = some (ab i)) (hMM : src.getChar M ≠ some (ab M)) (hm1 : 2 * m + 1 ≤ M) (hm2 : M < 2 * m + 3)
    (hs : 3 * m + 20 < 4294967296) (hn : m < n + 11) :
    ∃ st', eval ex2Parser src (n + 14) (.varName .r_grammar) 0 0 (St.new .r_grammar ()) = .ok (true, 2 * m + 1, st') ∧ Whole m st'.pub.nodes := by
  rw [eval]
  have hc : (St.new Ex2.r_grammar () : St Ex2 Unit).cache.check .r_grammar 0 = none := rfl
  simp only [varNameKernel, hc, defaultBehaviour]
  rw [reserve_gen _ (by simp [St.new, Publisher.new])]
  simp only [Out.bind_ok]
  obtain ⟨L', vA', vB', hF, hl⟩ := loop (n := n) hM hMM hm1 hm2 hs none (m + 1) 1 (n + 12) L0 none [.r_a, .r_b] (by omega) (by omega) (inv0 M) (by omega)
  rw [show ex2Parser.body .r_grammar = Ex2.body .r_grammar from rfl]
  rw [show (St.new Ex2.r_grammar () : St Ex2 Unit).pub.nodes.length = 1 from rfl, start rfl rfl]
  rw [show vbOf M 1 = none by simp [vbOf]] at hl
  rw [hl]
  simp only [Out.bind_ok]
  rw [update_gen (a := ⟨1, .r_grammar, 0, 0, false, [3 * m + 5]⟩) (by exact hF.gr)]
  simp only [Out.bind_ok]
  have h1 : 1 < L'.length := (List.getElem?_eq_some_iff.1 hF.gr).1
  rw [connect_gen (k := 0) (a := ⟨0, .r_grammar, 0, 0, true, []⟩)
    (by rw [List.getElem?_set_ne (by omega)]; exact hF.root) (by omega)]
  refine ⟨_, rfl, ?_, ?_, ?_, ?_⟩
  · show (List.set (List.set L' _ _) _ _)[0]? = _
    rw [List.getElem?_set_self (by simp; omega)]; rfl
  · show (List.set (List.set L' _ _) _ _)[1]? = _
    rw [List.getElem?_set_ne (by omega), List.getElem?_set_self (by omega)]
  · intro i h2 h3
    show (List.set (List.set L' _ _) _ _)[_]? = _
    rw [List.getElem?_set_ne (by omega), List.getElem?_set_ne (by omega)]
    exact hF.a i h2 h3
  · intro i h2 h3
    show (List.set (List.set L' _ _) _ _)[_]? = _
    rw [List.getElem?_set_ne (by omega), List.getElem?_set_ne (by omega)]
    exact hF.b i h2 h3

theorem whole_reject {n : Nat} (ha : src.getChar 0 ≠ some 97) :
    ∃ st' nd, eval ex2Parser src (n + 14) (.varName .r_grammar) 0 0 (St.new .r_grammar ()) = .ok (false, 0, st') ∧
      st'.pub.nodes[0]? = some ⟨0, .r_grammar, 0, 0, true, [1]⟩ ∧ st'.pub.nodes[1]? = some nd ∧ nd.result = false := by
  rw [eval]
  have hc : (St.new Ex2.r_grammar () : St Ex2 Unit).cache.check .r_grammar 0 = none := rfl
  simp only [varNameKernel, hc, defaultBehaviour]
  rw [reserve_gen _ (by simp [St.new, Publisher.new])]
  simp only [Out.bind_ok]
  rw [show ex2Parser.body .r_grammar = Ex2.body .r_grammar from rfl]
  rw [show (St.new Ex2.r_grammar () : St Ex2 Unit).pub.nodes.length = 1 from rfl, start rfl rfl]
  have hi : pick src 97 (((none : Option (Bool × Nat × Nat)).map (·.1)).getD false) (((none : Option (Bool × Nat × Nat)).map (·.2.1)).getD 0) = (false, 0) := by
    simp [pick, ha]
  have hb : pick src 98 false 0 = ((pick src 98 false 0).1, (pick src 98 false 0).2) := rfl
  rw [show lastOf 1 = (false, 0) from rfl, show lastKeyOf 1 = 2 from rfl, show n + 12 = (n + 11) + 1 from rfl,
    iterate (n := n) (k := n + 11) (inv0 0) (by omega) hi hb, if_pos (by simp)]
  rw [connect_get (k := 1) (a := ⟨1, .r_grammar, 0, 0, false, []⟩) rfl (by omega)]
  simp only [Out.bind_ok]
  rw [update_gen (a := ⟨1, .r_grammar, 0, 0, false, [2]⟩) rfl]
  simp only [Out.bind_ok]
  rw [connect_gen (k := 0) (a := ⟨0, .r_grammar, 0, 0, true, []⟩) rfl (by omega)]
  exact ⟨_, _, rfl, rfl, rfl, rfl⟩

end Ex2P
end PP
