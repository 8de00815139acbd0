import Verif.Lemmas.Gen.Involved
import Verif.Lemmas.Rs.Basic
import Verif.Spec.Rs.Given

/-! # The cycle detector: orders of iteration, and the names that occur -/
namespace PP.Rs
open PP.Gen

/-! ## An order of values as an order of the model -/

theorem perm_of_map {α β : Type} {f : α → β} {ws : List β} {l : List α} (h : ws.Perm (l.map f)) : ∃ l' : List α, l'.Perm l ∧ ws = l'.map f := by
  generalize hm : l.map f = vs at h
  induction h generalizing l with
  | nil => cases l with | nil => exact ⟨[], .refl _, rfl⟩ | cons a l => cases hm
  | cons x h ih =>
    cases l with
    | nil => cases hm
    | cons a l =>
      simp only [List.map_cons, List.cons.injEq] at hm
      obtain ⟨l', hp, he⟩ := ih hm.2
      exact ⟨a :: l', hp.cons a, by rw [List.map_cons, he, hm.1]⟩
  | swap x y l₀ =>
    match l, hm with
    | [], hm => cases hm
    | [a], hm => simp at hm
    | a :: b :: l, hm =>
      simp only [List.map_cons, List.cons.injEq] at hm
      exact ⟨b :: a :: l, .swap _ _ _, by simp [hm.1, hm.2.1, hm.2.2]⟩
  | trans h1 h2 ih1 ih2 =>
    obtain ⟨l', hp, he⟩ := ih2 hm
    obtain ⟨l'', hp', he'⟩ := ih1 he.symm
    exact ⟨l'', hp'.trans hp, he'⟩

open Classical in
/-- How an element looks that is visited by the iteration `lbl` of the model. -/
noncomputable def elemVal : List Nat → (α : Type) → α → Val
  | [2], α => if h : α = (Bytes × Nat) then fun x => .str (h ▸ x : Bytes × Nat).1 else fun _ => unit
  | [6, _], α => if h : α = (Bytes × List Bytes) then fun x => .set ((h ▸ x : Bytes × List Bytes).2.map .str) else fun _ => unit
  | [4], α | [1, _], α | [3, _], α | [5, _], α =>
    if h : α = (Bytes × List Bytes) then fun x => .tuple [.str (h ▸ x : Bytes × List Bytes).1, .set ((h ▸ x : Bytes × List Bytes).2.map .str)] else fun _ => unit
  | _, α => if h : α = Bytes then fun x => .str (h ▸ x : Bytes) else fun _ => unit

section
variable {ord : List Val → List Val} (hord : ∀ l, (ord l).Perm l)

/-- The order of the model that an order of values amounts to. -/
noncomputable def ordOf : HashOrd :=
  ⟨fun lbl {α} l => Classical.choose (perm_of_map (hord (l.map (elemVal lbl α)))), fun lbl {α} l => (Classical.choose_spec (perm_of_map (hord (l.map (elemVal lbl α))))).1⟩

theorem ordOf_map (lbl : List Nat) {α : Type} (l : List α) : ord (l.map (elemVal lbl α)) = ((ordOf hord).perm lbl l).map (elemVal lbl α) :=
  (Classical.choose_spec (perm_of_map (hord (l.map (elemVal lbl α))))).2

def pairVal (p : Bytes × List Bytes) : Val := .tuple [.str p.1, .set (p.2.map .str)]

theorem elem_keys : elemVal [2] (Bytes × Nat) = fun p => .str p.1 := by simp [elemVal]
theorem elem_values (k) : elemVal [6, k] (Bytes × List Bytes) = fun p => .set (p.2.map .str) := by simp [elemVal]
theorem elem_pairs {lbl} (h : lbl = [4] ∨ ∃ k, lbl = [1, k] ∨ lbl = [3, k] ∨ lbl = [5, k]) : elemVal lbl (Bytes × List Bytes) = pairVal := by
  rcases h with rfl | ⟨k, rfl | rfl | rfl⟩ <;> simp [elemVal, pairVal, funext_iff]
theorem elem_set3 (a b c) : elemVal [a, b, c] Bytes = .str := by simp [elemVal]
theorem elem_set4 (b) : elemVal [4, b] Bytes = .str := by simp [elemVal]

theorem ord_keys (m : Map Nat) : ord (m.map fun p => .str p.1) = ((ordOf hord).perm [2] m).map fun p => .str p.1 := by
  have := ordOf_map hord [2] m
  rwa [elem_keys] at this
theorem ord_values (k) (m : Map (List Bytes)) : ord (m.map fun p => .set (p.2.map .str)) = ((ordOf hord).perm [6, k] m).map fun p => .set (p.2.map .str) := by
  have := ordOf_map hord [6, k] m
  rwa [elem_values] at this
theorem ord_pairs {lbl} (h : lbl = [4] ∨ ∃ k, lbl = [1, k] ∨ lbl = [3, k] ∨ lbl = [5, k]) (m : Map (List Bytes)) : ord (m.map pairVal) = ((ordOf hord).perm lbl m).map pairVal := by
  have := ordOf_map hord lbl m
  rwa [elem_pairs h] at this
theorem ord_set3 (a b c) (s : List Bytes) : ord (s.map .str) = ((ordOf hord).perm [a, b, c] s).map .str := by
  have := ordOf_map hord [a, b, c] s
  rwa [elem_set3] at this
theorem ord_set4 (b) (s : List Bytes) : ord (s.map .str) = ((ordOf hord).perm [4, b] s).map .str := by
  have := ordOf_map hord [4, b] s
  rwa [elem_set4] at this
end

/-! ## Names -/

/-- The names that may occur: the texts between the first and the last character of the nodes. -/
def univ (tree : Publisher Dsl) (src : Bytes) : List Bytes := tree.nodes.filterMap fun nd => match innerString src nd with | .ok s => some s | _ => none

def GoodSet (U s : List Bytes) : Prop := s.Nodup ∧ ∀ x ∈ s, x ∈ U
def GoodMap (U : List Bytes) (m : Map (List Bytes)) : Prop := m.keys.Nodup ∧ ∀ p ∈ m, p.1 ∈ U ∧ GoodSet U p.2

structure GoodTree (U : List Bytes) (t : RuleCallTree) : Prop where
  rulesKeys : ∀ x ∈ t.rulesKeys.keys, x ∈ U
  referenced : GoodMap U t.referenced
  notLR : GoodSet U t.notLR
  leftMost : GoodMap U t.leftMost
  involved : GoodMap U t.involved

section
variable {U : List Bytes}

theorem GoodSet.nil : GoodSet U [] := ⟨.nil, by simp⟩
theorem GoodSet.insert {s : List Bytes} (h : GoodSet U s) {x} (hx : x ∈ U) : GoodSet U (setInsert s x) :=
  ⟨setInsert_nodup h.1, fun y hy => (mem_setInsert.1 hy).elim (h.2 y) fun e => e ▸ hx⟩
theorem GoodSet.length {s : List Bytes} (h : GoodSet U s) : s.length ≤ U.length := nodup_length_le h.1 h.2
theorem GoodMap.nil : GoodMap U [] := ⟨.nil, by simp⟩
theorem map_mem_insert {V : Type} {m : Map V} {k v p} (h : p ∈ m.insert k v) : p ∈ m ∨ p = (k, v) := by
  induction m with
  | nil => exact .inr (by simpa [Map.insert] using h)
  | cons q m ih =>
    rw [Map.insert] at h
    split at h
    · rcases List.mem_cons.1 h with h | h
      · exact .inr h
      · exact .inl (List.mem_cons_of_mem _ h)
    · rcases List.mem_cons.1 h with h | h
      · exact .inl (h ▸ List.mem_cons_self)
      · exact (ih h).imp_left (List.mem_cons_of_mem _)
theorem GoodMap.insert {m : Map (List Bytes)} (h : GoodMap U m) {k s} (hk : k ∈ U) (hs : GoodSet U s) : GoodMap U (m.insert k s) :=
  ⟨by rw [Map.keys_insert]; exact setInsert_nodup h.1, fun p hp => (map_mem_insert hp).elim (h.2 p) fun e => e ▸ ⟨hk, hs⟩⟩
theorem GoodMap.get {m : Map (List Bytes)} (h : GoodMap U m) {k s} (hg : m.get k = some s) : GoodSet U s := (h.2 _ ((Map.mem_iff h.1).2 hg)).2
theorem GoodMap.length {m : Map (List Bytes)} (h : GoodMap U m) : m.length ≤ U.length := by
  have := nodup_length_le h.1 fun x hx => by
    obtain ⟨p, hp, rfl⟩ := List.mem_map.1 hx
    exact (h.2 p hp).1
  simpa [Map.keys] using this
theorem GoodMap.total {m : Map (List Bytes)} (h : GoodMap U m) : Gen.total m ≤ U.length * U.length := by
  refine Nat.le_trans ?_ (Nat.mul_le_mul_right U.length h.length)
  have h2 := h.2
  clear h
  induction m with
  | nil => simp [Gen.total]
  | cons p m ih =>
    have h1 := (h2 p (by simp)).2.length
    have ih := ih fun q hq => h2 q (by simp [hq])
    simp only [Gen.total, List.map_cons, List.sum_cons, List.length_cons, Nat.succ_mul] at ih ⊢
    omega

theorem bind_oks {α β : Type} {o : Out α} {f : α → Out β} {b : β} (h : (o >>= f) = .ok b) : ∃ a, o = .ok a ∧ f a = .ok b := by
  cases o with
  | oof => cases h
  | panic q => cases h
  | ok a => exact ⟨a, rfl, h⟩
theorem foldlM_inv {σ β : Type} {step : σ → β → Out σ} {P : σ → Prop} (xs : List β) (h : ∀ s, ∀ b ∈ xs, ∀ s', P s → step s b = .ok s' → P s') (s s' : σ) (hP : P s)
    (ho : xs.foldlM step s = .ok s') : P s' := by
  induction xs generalizing s with
  | nil => cases ho; exact hP
  | cons b xs ih =>
    rw [List.foldlM_cons] at ho
    obtain ⟨t, ht, ho⟩ := bind_oks ho
    exact ih (fun s b hb => h s b (by simp [hb])) t (h s b (by simp) t hP ht) ho
theorem foldl_inv {σ β : Type} {step : σ → β → σ} {P : σ → Prop} (xs : List β) (h : ∀ s, ∀ b ∈ xs, P s → P (step s b)) (s : σ) (hP : P s) : P (xs.foldl step s) := by
  induction xs generalizing s with
  | nil => exact hP
  | cons b xs ih => exact ih (fun s b hb => h s b (by simp [hb])) _ (h s b (by simp) hP)
end

section
variable {tree : Publisher Dsl} {src : Bytes}

theorem univ_length : (univ tree src).length ≤ tree.nodes.length := List.length_filterMap_le _ _

theorem inner_mem {nd : Node Dsl} (hn : nd ∈ tree.nodes) {s} (h : innerString src nd = .ok s) : s ∈ univ tree src :=
  List.mem_filterMap.2 ⟨nd, hn, by rw [h]⟩

theorem getNode_mem {k nd} (h : tree.getNode k = .ok nd) : nd ∈ tree.nodes := by
  simp only [Publisher.getNode] at h
  cases hp : tree.nodes[k]? with
  | none => rw [hp] at h; cases h
  | some x => rw [hp] at h; cases h; exact List.mem_of_getElem? hp

theorem refName_mem {nd : Node Dsl} (hn : nd ∈ tree.nodes) {s} (h : getRuleRefName src nd = .ok s) : s ∈ univ tree src := by
  rw [getRuleRefName] at h
  split at h
  · cases h
  · exact inner_mem hn h

theorem rulesName_mem {nd : Node Dsl} {s} (h : getRulesName tree src nd = .ok s) : s ∈ univ tree src := by
  rw [getRulesName] at h
  split at h
  · cases h
  · obtain ⟨_, -, h⟩ := bind_oks h
    obtain ⟨_, -, h⟩ := bind_oks h
    split at h
    · cases h
    · obtain ⟨_, -, h⟩ := bind_oks h
      obtain ⟨decl, hd, h⟩ := bind_oks h
      split at h
      · cases h
      · exact inner_mem (getNode_mem hd) h

theorem refs_good (n : Nat) : ∀ nd s s', GoodSet (univ tree src) s → getRulesReferencedByRule tree src n nd s = .ok s' → GoodSet (univ tree src) s' := by
  induction n with
  | zero => intro nd s s' _ h; cases h
  | succ n ih =>
    intro nd s s' hs h
    rw [getRulesReferencedByRule] at h
    refine foldlM_inv _ (fun s b _ s' hs h => ?_) s s' hs h
    obtain ⟨cd, hcd, h⟩ := bind_oks h
    obtain ⟨s1, h1, h⟩ := bind_oks h
    refine ih cd s1 s' ?_ h
    split at h1
    · obtain ⟨x, hx, h1⟩ := bind_oks h1
      cases h1
      exact hs.insert (refName_mem (getNode_mem hcd) hx)
    · cases h1; exact hs

theorem walk_good (n : Nat) : ∀ nd t t', GoodTree (univ tree src) t → walkNodeChildren tree src n nd t = .ok t' → GoodTree (univ tree src) t' := by
  induction n with
  | zero => intro nd s s' _ h; cases h
  | succ n ih =>
    intro nd s s' hs h
    rw [walkNodeChildren] at h
    refine foldlM_inv _ (fun s b _ s' hs h => ?_) s s' hs h
    obtain ⟨cd, hcd, h⟩ := bind_oks h
    obtain ⟨s1, h1, h⟩ := bind_oks h
    refine ih cd s1 s' ?_ h
    split at h1
    · obtain ⟨x, hx, h1⟩ := bind_oks h1
      obtain ⟨r, hr, h1⟩ := bind_oks h1
      obtain ⟨refs, href, h1⟩ := bind_oks h1
      cases h1
      have hx := rulesName_mem hx
      refine ⟨?_, hs.referenced.insert hx (refs_good n cd [] refs .nil href), hs.notLR, hs.leftMost, hs.involved⟩
      intro y hy
      simp only [Map.keys_insert] at hy
      exact (mem_setInsert.1 hy).elim (hs.rulesKeys y) fun e => e ▸ hx
    · cases h1; exact hs

theorem leftMost_good (n : Nat) : ∀ nd s s', GoodSet (univ tree src) s → leftMostOf tree src n nd s = .ok s' → GoodSet (univ tree src) s' := by
  induction n with
  | zero => intro nd s s' _ h; cases h
  | succ n ih =>
    intro nd s s' hs h
    rw [leftMostOf] at h
    generalize nd.children = all at h
    suffices H : ∀ rest, leftMostLoop tree src (leftMostOf tree src n) all rest s = .ok s' → GoodSet (univ tree src) s' from H _ h
    intro rest
    induction rest with
    | nil => intro h; cases h; exact hs
    | cons c rest ih' =>
      intro h
      rw [leftMostLoop] at h
      obtain ⟨cd, hcd, h⟩ := bind_oks h
      split at h
      · split at h
        · cases h
        · refine foldlM_inv _ (fun s b _ s' hs h => ?_) s s' hs h
          obtain ⟨bd, -, h⟩ := bind_oks h
          exact ih bd s s' hs h
      · split at h
        · obtain ⟨_, -, h⟩ := bind_oks h
          obtain ⟨a, -, h⟩ := bind_oks h
          split at h
          · cases h; exact hs
          · exact ih a s s' hs h
        · split at h
          · exact ih cd s s' hs h
          · split at h
            · obtain ⟨x, hx, h⟩ := bind_oks h
              cases h
              exact hs.insert (refName_mem (getNode_mem hcd) hx)
            · exact ih' h

theorem leftMostAll_good {o : HashOrd} {n : Nat} {t t'} (ht : GoodTree (univ tree src) t) (h : leftMostOfAll tree src o n t = .ok t') : GoodTree (univ tree src) t' := by
  rw [leftMostOfAll] at h
  refine foldlM_inv (P := GoodTree (univ tree src)) _ (fun s b hb s' hs h => ?_) t t' ht h
  obtain ⟨k, -, h⟩ := bind_oks h
  obtain ⟨nd, -, h⟩ := bind_oks h
  split at h
  · cases h
  · obtain ⟨lm, hlm, h⟩ := bind_oks h
    cases h
    have hb : b ∈ univ tree src := by
      have := (List.mem_filter.1 hb).1
      exact ht.rulesKeys b (((o.ok _ _).map _).mem_iff.1 this)
    exact ⟨hs.rulesKeys, hs.referenced, hs.notLR, hs.leftMost.insert hb (leftMost_good n nd [] lm .nil hlm), hs.involved⟩
end

section
variable {U : List Bytes} {o : HashOrd}

theorem markPass_good {lbl pass : Nat} {m : Map (List Bytes)} (hm : GoodMap U m) {s : List Bytes} (hs : GoodSet U s) : GoodSet U (markPass o lbl pass m s) := by
  rw [markPass]
  refine foldl_inv _ (fun s b hb hs => ?_) s hs
  split
  · exact hs.insert (hm.2 b ((o.ok _ _).mem_iff.1 hb)).1
  · exact hs

theorem markLoop_good {lbl : Nat} {m : Map (List Bytes)} (hm : GoodMap U m) (n : Nat) : ∀ l pass s s', GoodSet U s → markLoop o lbl m n l pass s = .ok s' → GoodSet U s' := by
  induction n with
  | zero => intro l pass s s' _ h; cases h
  | succ n ih =>
    intro l pass s s' hs h
    rw [markLoop] at h
    split at h
    · cases h; exact hs
    · exact ih _ _ _ _ (markPass_good hm hs) h

theorem create_good {t : RuleCallTree} (ht : GoodTree U t) : GoodTree U (createInvolvedSets o t) := by
  rw [createInvolvedSets]
  refine foldl_inv (P := GoodTree U) _ (fun s b hb hs => ?_) t ht
  have hb := ht.leftMost.2 b ((o.ok _ _).mem_iff.1 hb)
  have : GoodSet U ((o.perm [4, s.involved.length] b.2).foldl (fun s' r => if s.notLR.contains r then s' else setInsert s' r) []) := by
    refine foldl_inv (P := GoodSet U) _ (fun s' r hr hs' => ?_) [] .nil
    split
    · exact hs'
    · exact hs'.insert (hb.2.2 r ((o.ok _ _).mem_iff.1 hr))
  simp only
  split
  · exact hs
  · exact ⟨hs.rulesKeys, hs.referenced, hs.notLR, hs.leftMost, hs.involved.insert hb.1 (this.insert hb.1)⟩

theorem union_good {s u : List Bytes} (hs : GoodSet U s) (hu : GoodSet U u) : GoodSet U (setUnion s u) := by
  rw [setUnion]
  exact foldl_inv (P := GoodSet U) _ (fun s' r hr hs' => hs'.insert (hu.2 r hr)) s hs

theorem merge_good {pass : Nat} {m m' : Map (List Bytes)} (hm : GoodMap U m) (h : mergeDependentSets o pass m = .ok m') : GoodMap U m' := by
  rw [mergeDependentSets] at h
  refine foldlM_inv (P := GoodMap U) _ (fun s b hb s' hs h => ?_) m m' hm h
  obtain ⟨u, hu, h⟩ := bind_oks h
  cases h
  have hb := hm.2 b ((o.ok _ _).mem_iff.1 hb)
  refine hs.insert hb.1 (foldlM_inv (P := GoodSet U) _ (fun s' r hr s'' hs' h => ?_) b.2 u hb.2 hu)
  split at h
  · cases h
  · next i hi => cases h; exact union_good hs' (hm.get hi)

end

/-- Taking what is missing from a set without repetitions is inserting its elements. -/
theorem union_filter (a : List Bytes) : ∀ {b : List Bytes}, b.Nodup → setUnion a b = a ++ b.filter fun x => !a.contains x := by
  intro b
  rw [setUnion]
  induction b generalizing a with
  | nil => simp
  | cons x b ih =>
    intro hn
    have hn := List.nodup_cons.1 hn
    rw [List.foldl_cons, ih _ hn.2]
    by_cases hx : a.contains x = true
    · have : setInsert a x = a := setInsert_of_mem (by simpa using hx)
      rw [this, List.filter_cons_of_neg (by simp at *; exact hx)]
    · have hx' : a.contains x = false := by simpa using hx
      rw [setInsert, if_neg hx, List.filter_cons_of_pos (by simpa using hx')]
      rw [List.append_assoc, List.singleton_append]
      congr 2
      refine List.filter_congr fun y hy => ?_
      have : y ≠ x := fun e => hn.1 (e ▸ hy)
      simp [this]

end PP.Rs
