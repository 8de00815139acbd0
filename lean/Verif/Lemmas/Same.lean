import Verif.Spec.Same

/-! # Renaming rules and reordering involved sets changes nothing -/
set_option linter.unusedSectionVars false
namespace PP
variable {R R' U α β γ δ : Type} {ρ : R → R' → Prop}

theorem Out.Rel.bind {S : α → β → Prop} {T : γ → δ → Prop} {x : Out α} {y : Out β} {f : α → Out γ} {g : β → Out δ}
    (h : x.Rel S y) (hf : ∀ a b, S a b → (f a).Rel T (g b)) : (x >>= f).Rel T (y >>= g) := by
  cases x <;> cases y <;> first | exact False.elim h | exact h | exact hf _ _ h

theorem Out.Rel.bind' {S : α → β → Prop} {T : γ → δ → Prop} {x : Out α} {y : Out β} {f : α → Out γ} {g : β → Out δ}
    (h : x.Rel S y) (hf : ∀ a b, S a b → (f a).Rel T (g b)) : (x.bind f).Rel T (y.bind g) := Out.Rel.bind h hf

theorem Out.Rel.ok {S : α → β → Prop} {a : α} {b : β} (h : S a b) : (Out.ok a).Rel S (Out.ok b) := h

namespace Publisher.Same
variable {t : Publisher R} {t' : Publisher R'}

theorem get (h : t.Same ρ t') (k : Nat) : (t.nodes[k]? = none ∧ t'.nodes[k]? = none) ∨
    ∃ a b, t.nodes[k]? = some a ∧ t'.nodes[k]? = some b ∧ a.Same ρ b := by
  by_cases hk : k < t.nodes.length
  · have hk' : k < t'.nodes.length := h.length ▸ hk
    exact .inr ⟨_, _, List.getElem?_eq_getElem hk, List.getElem?_eq_getElem hk', h.node k _ _ (List.getElem?_eq_getElem hk) (List.getElem?_eq_getElem hk')⟩
  · exact .inl ⟨List.getElem?_eq_none (by omega), List.getElem?_eq_none (by have := h.length; omega)⟩

theorem getNode (h : t.Same ρ t') (k : Nat) : (t.getNode k).Rel (Node.Same ρ) (t'.getNode k) := by
  unfold Publisher.getNode
  rcases h.get k with ⟨h1, h2⟩ | ⟨a, b, h1, h2, h3⟩ <;> rw [h1, h2]
  · rfl
  · exact h3

theorem modify (h : t.Same ρ t') (k : Nat) {f : Node R → Node R} {g : Node R' → Node R'} (hf : ∀ a b, a.Same ρ b → (f a).Same ρ (g b)) :
    (t.modify k f).Rel (Publisher.Same ρ) (t'.modify k g) := by
  unfold Publisher.modify
  rcases h.get k with ⟨h1, h2⟩ | ⟨a, b, h1, h2, h3⟩ <;> rw [h1, h2]
  · rfl
  · refine ⟨by simp [h.length], fun j x y hx hy => ?_⟩
    simp only [List.getElem?_set] at hx hy
    by_cases hj : k = j
    · subst hj
      have l1 := (List.getElem?_eq_some_iff.mp h1).1
      have l2 := (List.getElem?_eq_some_iff.mp h2).1
      simp only [if_true, l1, l2, Option.some.injEq] at hx hy
      rw [← hx, ← hy]
      exact hf _ _ h3
    · rw [if_neg hj] at hx hy
      exact h.node j x y hx hy

theorem addNode (h : t.Same ρ t') {r : R} {r' : R'} (hr : ρ r r') (s e : Nat) (b : Bool) :
    (t.addNode r s e b).Rel (fun x y => x.1 = y.1 ∧ x.2.Same ρ y.2) (t'.addNode r' s e b) := by
  unfold Publisher.addNode
  rw [h.length]
  split
  · refine ⟨rfl, by simp [h.length], fun j x y hx hy => ?_⟩
    by_cases hj : j < t.nodes.length
    · rw [List.getElem?_append_left hj] at hx
      rw [List.getElem?_append_left (h.length ▸ hj)] at hy
      exact h.node j x y hx hy
    · rw [List.getElem?_append_right (by omega)] at hx
      rw [List.getElem?_append_right (by have := h.length; omega), ← h.length] at hy
      generalize j - t.nodes.length = i at hx hy
      cases i with
      | zero =>
        simp only [List.getElem?_cons_zero, Option.some.injEq] at hx hy
        rw [← hx, ← hy]
        exact ⟨hr, h.length.symm, rfl, rfl, rfl, rfl⟩
      | succ i => simp at hx
  · rfl

theorem new {r : R} {r' : R'} (hr : ρ r r') : (Publisher.new r).Same ρ (Publisher.new r') := by
  refine ⟨rfl, fun j x y hx hy => ?_⟩
  cases j with
  | zero =>
    simp only [Publisher.new, List.getElem?_cons_zero, Option.some.injEq] at hx hy
    rw [← hx, ← hy]
    exact ⟨hr, rfl, rfl, rfl, rfl, rfl⟩
  | succ j => simp [Publisher.new] at hx

theorem connect (h : t.Same ρ t') (p c : Nat) : (t.connect p c).Rel (Publisher.Same ρ) (t'.connect p c) := by
  unfold Publisher.connect
  split
  · rfl
  · exact h.modify p fun a b hab => ⟨hab.rule, hab.index, hab.start, hab.stop, hab.result, by simp [hab.children]⟩

theorem connectIfNotConnected (h : t.Same ρ t') (p c : Nat) :
    (t.connectIfNotConnected p c).Rel (Publisher.Same ρ) (t'.connectIfNotConnected p c) := by
  refine h.modify p fun a b hab => ?_
  rw [hab.children]
  split
  · exact hab
  · exact ⟨hab.rule, hab.index, hab.start, hab.stop, hab.result, rfl⟩

theorem foldlM {f : Publisher R → Nat → Out (Publisher R)} {g : Publisher R' → Nat → Out (Publisher R')}
    (hf : ∀ {t t'}, t.Same ρ t' → ∀ i, (f t i).Rel (Publisher.Same ρ) (g t' i)) : ∀ (is : List Nat) {t t'}, t.Same ρ t' →
      (is.foldlM f t).Rel (Publisher.Same ρ) (is.foldlM g t')
  | [], _, _, h => h
  | i :: is, _, _, h => by
    simp only [List.foldlM_cons]
    exact Out.Rel.bind (hf h i) fun a b hab => foldlM hf is hab

theorem clearFalseKernel (h : t.Same ρ t') : ∀ (n : Nat) {u : Publisher R} {u' : Publisher R'}, u.Same ρ u' → ∀ parent index,
    (t.clearFalseKernel n u parent index).Rel (Publisher.Same ρ) (t'.clearFalseKernel n u' parent index)
  | 0, _, _, _, _, _ => trivial
  | n + 1, u, u', hu, parent, index => by
    simp only [Publisher.clearFalseKernel]
    refine Out.Rel.bind (h.getNode index) fun a b hab => ?_
    rw [hab.result, hab.start, hab.stop, hab.children]
    split
    · refine Out.Rel.bind (hu.addNode hab.rule _ _ _) fun x y ⟨h1, h2⟩ => ?_
      obtain ⟨x1, x2⟩ := x
      obtain ⟨y1, y2⟩ := y
      cases h1
      refine Out.Rel.bind (h2.connect _ _) fun v v' hv => ?_
      exact foldlM (fun hv i => clearFalseKernel h n hv _ i) _ hv
    · exact hu

theorem clearFalse (h : t.Same ρ t') {r : R} {r' : R'} (hr : ρ r r') (n : Nat) :
    (t.clearFalse r n).Rel (Publisher.Same ρ) (t'.clearFalse r' n) := by
  unfold Publisher.clearFalse
  refine Out.Rel.bind (h.getNode 0) fun a b hab => ?_
  rw [hab.result, hab.start, hab.stop, hab.children]
  split
  · refine Out.Rel.bind ((new hr).addNode hab.rule _ _ _) fun x y ⟨h1, h2⟩ => ?_
    exact foldlM (fun hv i => h.clearFalseKernel n hv _ i) _ h2
  · exact new hr

end Publisher.Same

/-- The same set, as membership of partners. -/
theorem SameSet.mem (hρ : Pairing ρ) {xs : List R} {ys : List R'} (h : SameSet ρ xs ys) {r : R} {r' : R'} (hr : ρ r r') : r ∈ xs ↔ r' ∈ ys :=
  ⟨fun hm => by obtain ⟨y, hy, e⟩ := h.1 r hm; rwa [hρ.right hr e],
   fun hm => by obtain ⟨x, hx, e⟩ := h.2 r' hm; rwa [hρ.left hr e]⟩

section
variable [DecidableEq R] [DecidableEq R']

theorem SameSet.contains (hρ : Pairing ρ) {xs : List R} {ys : List R'} (h : SameSet ρ xs ys) {r : R} {r' : R'} (hr : ρ r r') :
    xs.contains r = ys.contains r' := by
  rw [Bool.eq_iff_iff]
  simpa using h.mem hρ hr

theorem SameSet.filter (hρ : Pairing ρ) {xs : List R} {ys : List R'} (h : SameSet ρ xs ys) {r : R} {r' : R'} (hr : ρ r r') :
    SameSet ρ (xs.filter (· ≠ r)) (ys.filter (· ≠ r')) := by
  constructor
  · intro x hx
    simp only [ne_eq, decide_not, List.mem_filter, Bool.not_eq_true', decide_eq_false_iff_not] at hx
    obtain ⟨y, hy, e⟩ := h.1 x hx.1
    exact ⟨y, by simp only [ne_eq, decide_not, List.mem_filter, Bool.not_eq_true', decide_eq_false_iff_not]; exact ⟨hy, fun e' => hx.2 (hρ.left e (e' ▸ hr))⟩, e⟩
  · intro y hy
    simp only [ne_eq, decide_not, List.mem_filter, Bool.not_eq_true', decide_eq_false_iff_not] at hy
    obtain ⟨x, hx, e⟩ := h.2 y hy.1
    exact ⟨x, by simp only [ne_eq, decide_not, List.mem_filter, Bool.not_eq_true', decide_eq_false_iff_not]; exact ⟨hx, fun e' => hy.2 (hρ.right e (e' ▸ hr))⟩, e⟩

theorem mem_toBTreeSet_aux (v : List R) : ∀ (s : List R) (r : R),
    r ∈ v.foldl (fun s r => if s.contains r then s else s ++ [r]) s ↔ r ∈ s ∨ r ∈ v := by
  induction v with
  | nil => simp
  | cons a v ih =>
    intro s r
    rw [List.foldl_cons, ih]
    by_cases h : s.contains a
    · rw [if_pos h]
      simp only [List.contains_iff_mem] at h
      simp only [List.mem_cons]
      constructor
      · rintro (h' | h')
        · exact .inl h'
        · exact .inr (.inr h')
      · rintro (h' | rfl | h')
        · exact .inl h'
        · exact .inl h
        · exact .inr h'
    · rw [if_neg h]
      simp only [List.mem_append, List.mem_cons, List.not_mem_nil, or_false]
      rw [or_assoc]

theorem mem_toBTreeSet' (v : List R) (r : R) : r ∈ toBTreeSet v ↔ r ∈ v := by
  rw [toBTreeSet, mem_toBTreeSet_aux]; simp

theorem SameSet.toBTreeSet {xs : List R} {ys : List R'} (h : SameSet ρ xs ys) : SameSet ρ (PP.toBTreeSet xs) (PP.toBTreeSet ys) := by
  constructor
  · intro x hx
    obtain ⟨y, hy, e⟩ := h.1 x ((mem_toBTreeSet' _ _).mp hx)
    exact ⟨y, (mem_toBTreeSet' _ _).mpr hy, e⟩
  · intro y hy
    obtain ⟨x, hx, e⟩ := h.2 y ((mem_toBTreeSet' _ _).mp hy)
    exact ⟨x, (mem_toBTreeSet' _ _).mpr hx, e⟩
end

/-- The same head. -/
structure Head.Same (ρ : R → R' → Prop) (a : Head R) (b : Head R') : Prop where
  involved : SameSet ρ a.involved b.involved
  evalSet : SameSet ρ a.evalSet b.evalSet

/-- Both absent or both present and related. -/
def OptRel (S : α → β → Prop) : Option α → Option β → Prop
  | none, none => True
  | some a, some b => S a b
  | _, _ => False

/-- The same cache. -/
structure Cache.Same (ρ : R → R' → Prop) (c : Cache R) (c' : Cache R') : Prop where
  memo : ∀ {r r'}, ρ r r' → ∀ p, c.memo r p = c'.memo r' p
  heads : ∀ {r r'}, ρ r r' → ∀ p, OptRel (Head.Same ρ) (c.heads r p) (c'.heads r' p)
  active : OptRel (fun a b => ρ a.1 b.1 ∧ a.2 = b.2) c.active c'.active

/-- The same state. -/
structure St.Same (ρ : R → R' → Prop) (s : St R U) (s' : St R' U) : Prop where
  cache : s.cache.Same ρ s'.cache
  pub : s.pub.Same ρ s'.pub
  user : s.user = s'.user

/-- The same outcome of a call. -/
def SameRes (ρ : R → R' → Prop) (x : Bool × Nat × St R U) (y : Bool × Nat × St R' U) : Prop :=
  x.1 = y.1 ∧ x.2.1 = y.2.1 ∧ x.2.2.Same ρ y.2.2

/-- Two closures that do the same. -/
def PSame (ρ : R → R' → Prop) (f : PFn R U) (g : PFn R' U) : Prop :=
  ∀ parent p s s', St.Same ρ s s' → (f parent p s).Rel (SameRes ρ) (g parent p s')

section
variable [DecidableEq R] [DecidableEq R'] {s : St R U} {s' : St R' U}

theorem eq_iff (hρ : Pairing ρ) {r s : R} {r' s' : R'} (h : ρ r r') (h' : ρ s s') : r = s ↔ r' = s' :=
  ⟨fun e => by subst e; exact hρ.right h h', fun e => by subst e; exact hρ.left h h'⟩

namespace Cache.Same
variable {c : Cache R} {c' : Cache R'}

theorem insert (hρ : Pairing ρ) (h : c.Same ρ c') {r : R} {r' : R'} (hr : ρ r r') (b : Bool) (p q k : Nat) :
    (c.insert r b p q k).Same ρ (c'.insert r' b p q k) := by
  refine ⟨fun {x x'} hx p' => ?_, h.heads, h.active⟩
  simp only [Cache.insert]
  rw [h.memo hx p']
  simp only [eq_iff hρ hx hr]

theorem putHead (hρ : Pairing ρ) (h : c.Same ρ c') {r : R} {r' : R'} (hr : ρ r r') (p : Nat) {a : Head R} {b : Head R'} (hab : a.Same ρ b) :
    (c.putHead r p a).Same ρ (c'.putHead r' p b) := by
  refine ⟨h.memo, fun {x x'} hx p' => ?_, h.active⟩
  simp only [Cache.putHead, eq_iff hρ hx hr]
  split
  · exact hab
  · exact h.heads hx p'
end Cache.Same

namespace St.Same

theorem reserve (h : s.Same ρ s') {r : R} {r' : R'} (hr : ρ r r') :
    (s.reserve r).Rel (fun x y => x.1 = y.1 ∧ x.2.Same ρ y.2) (s'.reserve r') := by
  unfold St.reserve
  refine Out.Rel.bind (h.pub.addNode hr 0 0 false) fun x y hxy => ?_
  exact ⟨hxy.1, h.cache, hxy.2, h.user⟩

theorem connect (h : s.Same ρ s') (p c : Nat) : (s.connect p c).Rel (St.Same ρ) (s'.connect p c) :=
  Out.Rel.bind (h.pub.connect p c) fun _ _ hxy => ⟨h.cache, hxy, h.user⟩

theorem connectIfNotConnected (h : s.Same ρ s') (p c : Nat) :
    (s.connectIfNotConnected p c).Rel (St.Same ρ) (s'.connectIfNotConnected p c) :=
  Out.Rel.bind (h.pub.connectIfNotConnected p c) fun _ _ hxy => ⟨h.cache, hxy, h.user⟩

theorem createCacheEntry (hρ : Pairing ρ) (h : s.Same ρ s') {r : R} {r' : R'} (hr : ρ r r') (b : Bool) (p q k : Nat) :
    (s.createCacheEntry r b p q k).Same ρ (s'.createCacheEntry r' b p q k) := ⟨h.cache.insert hρ hr b p q k, h.pub, h.user⟩

theorem updateEntry (h : s.Same ρ s') (k : Nat) (b : Bool) (p q : Nat) :
    (s.updateEntry k b p q).Rel (St.Same ρ) (s'.updateEntry k b p q) := by
  unfold St.updateEntry
  refine Out.Rel.bind (S := Publisher.Same ρ) (h.pub.modify k fun a b hab => ⟨hab.rule, hab.index, hab.start, hab.stop, rfl, hab.children⟩) fun _ _ h1 => ?_
  refine Out.Rel.bind (S := Publisher.Same ρ) (h1.modify k fun a b hab => ⟨hab.rule, hab.index, rfl, hab.stop, hab.result, hab.children⟩) fun _ _ h2 => ?_
  refine Out.Rel.bind (S := Publisher.Same ρ) (h2.modify k fun a b hab => ⟨hab.rule, hab.index, hab.start, rfl, hab.result, hab.children⟩) fun _ _ h3 => ?_
  exact ⟨h.cache, h3, h.user⟩

theorem setHead (hρ : Pairing ρ) (h : s.Same ρ s') {r : R} {r' : R'} (hr : ρ r r') (p : Nat) {xs : List R} {ys : List R'} (hs : SameSet ρ xs ys) :
    (s.setHead p r xs).Same ρ (s'.setHead p r' ys) := ⟨h.cache.putHead hρ hr p ⟨hs, hs⟩, h.pub, h.user⟩

theorem setActive (h : s.Same ρ s') {a : Option (R × Nat)} {b : Option (R' × Nat)} (hab : OptRel (fun a b => ρ a.1 b.1 ∧ a.2 = b.2) a b) :
    (s.setActive a).Same ρ (s'.setActive b) := ⟨⟨h.cache.memo, h.cache.heads, hab⟩, h.pub, h.user⟩

theorem reinitializeEvalSet (hρ : Pairing ρ) (h : s.Same ρ s') {r : R} {r' : R'} (hr : ρ r r') (p : Nat) :
    (s.reinitializeEvalSet r p).Rel (St.Same ρ) (s'.reinitializeEvalSet r' p) := by
  unfold St.reinitializeEvalSet Cache.reinitializeEvalSet
  have := h.cache.heads hr p
  cases h1 : s.cache.heads r p <;> cases h2 : s'.cache.heads r' p <;> rw [h1, h2] at this
  · exact rfl
  · exact this.elim
  · exact this.elim
  · exact ⟨h.cache.putHead hρ hr p ⟨this.involved, this.involved⟩, h.pub, h.user⟩

theorem ruleIn (hρ : Pairing ρ) (h : s.Same ρ s') {a : R × Nat} {b : R' × Nat} (hab : ρ a.1 b.1 ∧ a.2 = b.2) {r : R} {r' : R'} (hr : ρ r r') :
    (s.cache.ruleInInvolvedSet a r).Rel Eq (s'.cache.ruleInInvolvedSet b r') ∧ (s.cache.ruleInEvalSet a r).Rel Eq (s'.cache.ruleInEvalSet b r') := by
  unfold Cache.ruleInInvolvedSet Cache.ruleInEvalSet
  have := h.cache.heads hab.1 a.2
  rw [← hab.2]
  cases h1 : s.cache.heads a.1 a.2 <;> cases h2 : s'.cache.heads b.1 a.2 <;> rw [h1, h2] at this
  · exact ⟨rfl, rfl⟩
  · exact this.elim
  · exact this.elim
  · exact ⟨this.involved.contains hρ hr, this.evalSet.contains hρ hr⟩

theorem removeFromEvalSet (hρ : Pairing ρ) (h : s.Same ρ s') {a : R × Nat} {b : R' × Nat} (hab : ρ a.1 b.1 ∧ a.2 = b.2) {r : R} {r' : R'} (hr : ρ r r') :
    (s.removeFromEvalSet a r).Rel (St.Same ρ) (s'.removeFromEvalSet b r') := by
  unfold St.removeFromEvalSet Cache.removeFromEvalSet
  have := h.cache.heads hab.1 a.2
  rw [← hab.2]
  cases h1 : s.cache.heads a.1 a.2 <;> cases h2 : s'.cache.heads b.1 a.2 <;> rw [h1, h2] at this
  · exact rfl
  · exact this.elim
  · exact this.elim
  · exact ⟨h.cache.putHead hρ hab.1 a.2 ⟨this.involved, this.evalSet.filter hρ hr⟩, h.pub, h.user⟩

end St.Same
end

/-! ### The combinators -/
section
variable {f f₁ f₂ : PFn R U} {g g₁ g₂ : PFn R' U}

theorem PSame.bind (hf : PSame ρ f g) {K : Bool × Nat × St R U → Out (Bool × Nat × St R U)} {L : Bool × Nat × St R' U → Out (Bool × Nat × St R' U)}
    {parent p : Nat} {s : St R U} {s' : St R' U} (h : s.Same ρ s')
    (hK : ∀ b q s s', St.Same ρ s s' → (K (b, q, s)).Rel (SameRes ρ) (L (b, q, s'))) :
    (f parent p s >>= K).Rel (SameRes ρ) (g parent p s' >>= L) := by
  refine Out.Rel.bind (hf parent p s s' h) ?_
  rintro ⟨b, q, s⟩ ⟨b', q', s'⟩ ⟨h1, h2, h3⟩
  cases h1; cases h2
  exact hK _ _ _ _ h3

theorem same_and (hf : PSame ρ f g) : PSame ρ (andPredicateKernel f) (andPredicateKernel g) := fun _ _ _ _ h =>
  hf.bind h fun b _ _ _ h => by cases b <;> exact ⟨rfl, rfl, h⟩
theorem same_not (hf : PSame ρ f g) : PSame ρ (notPredicateKernel f) (notPredicateKernel g) := fun _ _ _ _ h =>
  hf.bind h fun b _ _ _ h => by cases b <;> exact ⟨rfl, rfl, h⟩
theorem same_opt (hf : PSame ρ f g) : PSame ρ (optionalKernel f) (optionalKernel g) := fun _ _ _ _ h =>
  hf.bind h fun b _ _ _ h => by cases b <;> exact ⟨rfl, rfl, h⟩
theorem same_sub (hf : PSame ρ f g) : PSame ρ (subexpressionKernel f) (subexpressionKernel g) := fun _ _ _ _ h =>
  hf.bind h fun b _ _ _ h => by cases b <;> exact ⟨rfl, rfl, h⟩
theorem same_choice (h1 : PSame ρ f₁ g₁) (h2 : PSame ρ f₂ g₂) : PSame ρ (orderedChoiceKernel f₁ f₂) (orderedChoiceKernel g₁ g₂) := fun _ _ _ _ h =>
  h1.bind h fun b _ _ _ h => by
    cases b
    · exact h2.bind h fun b _ _ _ h => by cases b <;> exact ⟨rfl, rfl, h⟩
    · exact ⟨rfl, rfl, h⟩
theorem same_seq (h1 : PSame ρ f₁ g₁) (h2 : PSame ρ f₂ g₂) : PSame ρ (sequenceKernel f₁ f₂) (sequenceKernel g₁ g₂) := fun _ _ _ _ h =>
  h1.bind h fun b _ _ _ h => by
    cases b
    · exact ⟨rfl, rfl, h⟩
    · exact h2.bind h fun b _ _ _ h => by cases b <;> exact ⟨rfl, rfl, h⟩

theorem same_repeat (hf : PSame ρ f g) (parent : Nat) : ∀ (n p : Nat) (s : St R U) (s' : St R' U), s.Same ρ s' →
    (repeatLoop f parent n p s).Rel (SameRes ρ) (repeatLoop g parent n p s')
  | 0, _, _, _, _ => trivial
  | n + 1, p, s, s', h => hf.bind h fun b q s s' h => by
    cases b
    · exact ⟨rfl, rfl, h⟩
    · exact same_repeat hf parent n q s s' h
theorem same_many (hf : PSame ρ f g) (n : Nat) : PSame ρ (zeroOrMoreKernel n f) (zeroOrMoreKernel n g) := fun _ _ _ _ h =>
  same_repeat hf _ n _ _ _ h
theorem same_some (hf : PSame ρ f g) (n : Nat) : PSame ρ (oneOrMoreKernel n f) (oneOrMoreKernel n g) := fun _ _ _ _ h =>
  hf.bind h fun b q s s' h => by
    cases b
    · exact ⟨rfl, rfl, h⟩
    · exact same_repeat hf _ n q s s' h
theorem same_pure (k : Nat → Bool × Nat) : PSame ρ (liftPure k : PFn R U) (liftPure k : PFn R' U) := fun _ _ _ _ h => ⟨rfl, rfl, h⟩

theorem same_hook (hf : PSame ρ f g) (parent : Nat) : ∀ (k : HookProg U) {s : St R U} {s' : St R' U}, s.Same ρ s' →
    (runHook f parent k s).Rel (SameRes ρ) (runHook g parent k s')
  | .ret _ _ _, _, _, h => ⟨rfl, rfl, h.cache, h.pub, rfl⟩
  | .panic, _, _, _ => rfl
  | .call u p k, s, s', h => by
    refine Out.Rel.bind' (hf parent p _ _ ⟨h.cache, h.pub, rfl⟩) ?_
    rintro ⟨b, q, s⟩ ⟨b', q', s'⟩ ⟨h1, h2, h3⟩
    cases h1; cases h2
    show (runHook f parent (k s.user b q) s).Rel _ (runHook g parent (k s'.user b q) s')
    rw [h3.user]
    exact same_hook hf parent _ h3
end

section
variable [DecidableEq R] [DecidableEq R'] {f : PFn R U} {g : PFn R' U} {r : R} {r' : R'}

theorem same_varName (hρ : Pairing ρ) (hr : ρ r r') (hf : PSame ρ f g) : PSame ρ (varNameKernel r f) (varNameKernel r' g) := by
  intro parent p s s' h
  unfold varNameKernel Cache.check
  rw [h.cache.memo hr p]
  cases s'.cache.memo r' p with
  | some x => exact Out.Rel.bind (h.connect _ _) fun _ _ h => ⟨rfl, rfl, h⟩
  | none =>
    refine Out.Rel.bind (h.reserve hr) ?_
    rintro ⟨k, s⟩ ⟨k', s'⟩ ⟨h1, h⟩
    cases h1
    refine hf.bind h fun b q s s' h => ?_
    refine Out.Rel.bind ((h.createCacheEntry hρ hr b p q k).updateEntry k b p q) fun s s' h => ?_
    exact Out.Rel.bind (h.connect _ _) fun _ _ h => ⟨rfl, rfl, h⟩

theorem same_growthLoop (hρ : Pairing ρ) (hr : ρ r r') (hf : PSame ρ f g) (parent p : Nat) {prev : Option (R × Nat)} {prev' : Option (R' × Nat)}
    (hp : OptRel (fun a b => ρ a.1 b.1 ∧ a.2 = b.2) prev prev') : ∀ (n : Nat) (last : Bool × Nat) (lk ck : Nat) (s : St R U) (s' : St R' U), s.Same ρ s' →
      (growthLoop r f parent p prev n last lk ck s).Rel (SameRes ρ) (growthLoop r' g parent p prev' n last lk ck s')
  | 0, _, _, _, _, _, _ => trivial
  | n + 1, last, lk, ck, s, s', h => by
    unfold growthLoop
    refine Out.Rel.bind (h.reinitializeEvalSet hρ hr p) fun s s' h => ?_
    refine hf.bind h fun b q s s' h => ?_
    have e : growthPick s r p ck b q = growthPick s' r' p ck b q := by unfold growthPick Cache.check; rw [h.cache.memo hr p]
    dsimp only
    rw [e]
    generalize growthPick s' r' p ck b q = x
    obtain ⟨ck, b, q⟩ := x
    dsimp only
    refine Out.Rel.bind (h.updateEntry ck b p q) fun s s' h => ?_
    split
    · refine Out.Rel.bind (h.connect _ _) fun s s' h => ?_
      exact ⟨rfl, rfl, (h.setActive hp).createCacheEntry hρ hr _ _ _ _⟩
    · refine Out.Rel.bind (h.reserve hr) ?_
      rintro ⟨k, s⟩ ⟨k', s'⟩ ⟨h1, h⟩
      cases h1
      exact same_growthLoop hρ hr hf parent p hp n _ _ _ _ _ h

theorem same_growth (hρ : Pairing ρ) (hr : ρ r r') (hf : PSame ρ f g) {inv : List R} {inv' : List R'} (hi : SameSet ρ inv inv') (n : Nat)
    {prev : Option (R × Nat)} {prev' : Option (R' × Nat)} (hp : OptRel (fun a b => ρ a.1 b.1 ∧ a.2 = b.2) prev prev') :
    PSame ρ (growthFunction n inv r f prev) (growthFunction n inv' r' g prev') := by
  intro parent p s s' h
  unfold growthFunction
  refine Out.Rel.bind (h.reserve hr) ?_
  rintro ⟨k, s⟩ ⟨k', s'⟩ ⟨h1, h⟩
  cases h1
  refine Out.Rel.bind (h.updateEntry k false 0 0) fun s s' h => ?_
  refine Out.Rel.bind (h.reserve hr) ?_
  rintro ⟨k, s⟩ ⟨k', s'⟩ ⟨h1, h⟩
  cases h1
  exact same_growthLoop hρ hr hf parent p hp n _ _ _ _ _ (h.setHead hρ hr p hi.toBTreeSet)

theorem same_lrInner (hρ : Pairing ρ) (hr : ρ r r') (hf : PSame ρ f g) : PSame ρ (lrInner r f) (lrInner r' g) := by
  intro parent p s s' h
  unfold lrInner Cache.check
  have ha := h.cache.active
  cases h1 : s.cache.active <;> cases h2 : s'.cache.active <;> rw [h1, h2] at ha
  · exact rfl
  · exact ha.elim
  · exact ha.elim
  · refine Out.Rel.bind (h.ruleIn hρ ha hr).2 fun x y e => ?_
    subst e
    cases x
    · show (Out.Rel (SameRes ρ) (match s.cache.memo r p with | some (mb, mq, mk) => _ | none => _) (match s'.cache.memo r' p with | some (mb, mq, mk) => _ | none => _))
      rw [h.cache.memo hr p]
      cases s'.cache.memo r' p with
      | none => exact ⟨rfl, rfl, h⟩
      | some x => exact Out.Rel.bind (h.connectIfNotConnected _ _) fun _ _ h => ⟨rfl, rfl, h⟩
    · refine Out.Rel.bind (h.reserve hr) ?_
      rintro ⟨k, s⟩ ⟨k', s'⟩ ⟨h1, h⟩
      cases h1
      refine Out.Rel.bind (h.removeFromEvalSet hρ ha hr) fun s s' h => ?_
      refine hf.bind h fun b q s s' h => ?_
      refine Out.Rel.bind (h.updateEntry k b p q) fun s s' h => ?_
      exact Out.Rel.bind ((h.createCacheEntry hρ hr b p q k).connect _ _) fun _ _ h => ⟨rfl, rfl, h⟩

theorem same_varNameLR (hρ : Pairing ρ) (hr : ρ r r') (hf : PSame ρ f g) {inv : List R} {inv' : List R'} (hi : SameSet ρ inv inv') (n : Nat) :
    PSame ρ (varNameLRKernel n inv r f) (varNameLRKernel n inv' r' g) := by
  intro parent p s s' h
  have grow : (shouldGrow r p s).Rel (fun x y => x.1 = y.1 ∧ OptRel (fun a b => ρ a.1 b.1 ∧ a.2 = b.2) x.2.1 y.2.1 ∧ x.2.2.Same ρ y.2.2)
      (shouldGrow r' p s') := by
    unfold shouldGrow Cache.checkHead
    have ha := h.cache.active
    cases h1 : s.cache.active <;> cases h2 : s'.cache.active <;> rw [h1, h2] at ha
    · exact ⟨rfl, trivial, h.setActive ⟨hr, rfl⟩⟩
    · exact ha.elim
    · exact ha.elim
    · have hh := h.cache.heads hr p
      cases h3 : s.cache.heads r p <;> cases h4 : s'.cache.heads r' p <;> rw [h3, h4] at hh
      · refine Out.Rel.bind (h.ruleIn hρ ha hr).1 fun x y e => ?_
        subst e
        cases x
        · exact ⟨rfl, ha, h.setActive ⟨hr, rfl⟩⟩
        · exact ⟨rfl, trivial, h⟩
      · exact hh.elim
      · exact hh.elim
      · exact ⟨rfl, trivial, h⟩
  unfold varNameLRKernel
  refine Out.Rel.bind grow ?_
  rintro ⟨b, l, s⟩ ⟨b', l', s'⟩ ⟨h1, h2, h⟩
  cases h1
  cases b
  · exact same_lrInner hρ hr hf parent p s s' h
  · exact same_growth hρ hr hf hi n h2 parent p s s' h

theorem same_eval (hρ : Pairing ρ) {P : Parser R U} {P' : Parser R' U} (hP : P.Same ρ P') (src : Source) : ∀ (n : Nat) (e : Expr R) (e' : Expr R'),
    e.Same ρ e' → PSame ρ (eval P src n e) (eval P' src n e')
  | 0, _, _, _ => fun _ _ _ _ _ => trivial
  | n + 1, e, e', he => by
    cases e <;> cases e' <;> simp only [Expr.Same] at he
    case andPredicate => exact same_and (same_eval hρ hP src n _ _ he)
    case notPredicate => exact same_not (same_eval hρ hP src n _ _ he)
    case oneOrMore => exact same_some (same_eval hρ hP src n _ _ he) n
    case zeroOrMore => exact same_many (same_eval hρ hP src n _ _ he) n
    case optional => exact same_opt (same_eval hρ hP src n _ _ he)
    case subexpression => exact same_sub (same_eval hρ hP src n _ _ he)
    case orderedChoice => exact same_choice (same_eval hρ hP src n _ _ he.1) (same_eval hρ hP src n _ _ he.2)
    case sequence => exact same_seq (same_eval hρ hP src n _ _ he.1) (same_eval hρ hP src n _ _ he.2)
    case terminal => subst he; exact same_pure _
    case stringTerminal => subst he; exact same_pure _
    case matchRange => obtain ⟨rfl, rfl⟩ := he; exact same_pure _
    case varName => exact same_varName hρ he (same_eval hρ hP src n _ _ (hP.body he))
    case varNameLR => exact same_varNameLR hρ he.1 (same_eval hρ hP src n _ _ (hP.body he.1)) he.2 n
    case inlined => exact same_eval hρ hP src n _ _ (hP.body he)
    case hooked =>
      obtain ⟨rfl, he⟩ := he
      intro parent p s s' h
      simp only [eval]
      rw [hP.hook, h.user]
      exact same_hook (same_eval hρ hP src n _ _ he) parent _ h

/-- Renaming rules and reordering (or repeating) the rules of involved sets changes nothing but the names. -/
theorem same_parse (hρ : Pairing ρ) {P : Parser R U} {P' : Parser R' U} (hP : P.Same ρ P') (src : Source) (n : Nat) :
    (parse P src n).Rel (SameResult ρ) (parse P' src n) := by
  unfold parse
  have h0 : (St.new P.grammar P.userInit).Same ρ (St.new P'.grammar P'.userInit) :=
    ⟨⟨fun _ _ => rfl, fun _ _ => trivial, trivial⟩, .new hP.grammar, hP.userInit⟩
  refine Out.Rel.bind (same_eval hρ hP src n (.varName P.grammar) (.varName P'.grammar) hP.grammar 0 0 _ _ h0) ?_
  rintro ⟨b, q, s⟩ ⟨b', q', s'⟩ ⟨h1, h2, h⟩
  cases h1; cases h2
  exact Out.Rel.bind (h.pub.clearFalse hP.grammar n) fun _ _ ht => ⟨rfl, rfl, ht⟩
end

end PP
