import Verif.Spec.DTree
import Verif.Props.Safety

/-! # The syntax-node store: C19 (equality), C45 (editing), C46 (printing) -/
set_option linter.unusedSectionVars false
namespace PP
variable {R : Type} [DecidableEq R]

theorem DTree.size_pos (t : DTree R) : 0 < t.size := by cases t; rw [DTree.size]; omega

theorem DTree.size_kid {ts : List (DTree R)} {i : Nat} {t} (h : ts[i]? = some t) : t.size ≤ DTree.size.sizeL ts := by
  induction ts generalizing i with
  | nil => simp at h
  | cons u us ih =>
    rw [DTree.size.sizeL]
    cases i with
    | zero => simp at h; subst h; omega
    | succ i => have := ih (by simpa using h); omega

/-! ## C19 -/

theorem eqChildren_spec {rec : Nat → Nat → Out Bool} {as bs : List Nat} {ts us : List (DTree R)} (ha : ts.length = as.length)
    (hb : us.length = bs.length) (hab : as.length = bs.length)
    (h : ∀ (i : Nat) a b t u, as[i]? = some a → bs[i]? = some b → ts[i]? = some t → us[i]? = some u →
      ∃ x, rec a b = .ok x ∧ (x = true ↔ t = u)) :
    ∀ m index, m + index = as.length →
      ∃ x, Publisher.eqChildren rec as bs m index = .ok x ∧ (x = true ↔ ts.drop index = us.drop index) := by
  intro m
  induction m with
  | zero =>
    intro index hi
    refine ⟨true, rfl, ?_⟩
    rw [List.drop_eq_nil_of_le (by omega), List.drop_eq_nil_of_le (by omega)]
    simp
  | succ m ih =>
    intro index hi
    have h1 : index < as.length := by omega
    have h2 : index < bs.length := by omega
    have h3 : index < ts.length := by omega
    have h4 : index < us.length := by omega
    obtain ⟨x, hx, hxe⟩ := h index _ _ _ _ (List.getElem?_eq_getElem h1) (List.getElem?_eq_getElem h2)
      (List.getElem?_eq_getElem h3) (List.getElem?_eq_getElem h4)
    obtain ⟨y, hy, hye⟩ := ih (index + 1) (by omega)
    rw [List.drop_eq_getElem_cons h3, List.drop_eq_getElem_cons h4]
    simp only [Publisher.eqChildren, hab, ne_eq, not_true_eq_false, if_false, List.getElem?_eq_getElem h1,
      List.getElem?_eq_getElem h2, Out.ofOption_some, Out.bind_ok, hx]
    cases x with
    | false =>
      refine ⟨false, by simp, ?_⟩
      simp only [Bool.false_eq_true, false_iff, List.cons.injEq] at hxe ⊢
      exact fun h => hxe h.1
    | true =>
      refine ⟨y, by simp [hy], ?_⟩
      simp only [true_iff] at hxe
      rw [hye, List.cons.injEq]
      exact ⟨fun h => ⟨hxe, h⟩, fun h => h.2⟩

theorem partialEq_spec {self other : Publisher R} {i : Nat} {t : DTree R} (h : self.Reads i t) :
    ∀ n, t.size ≤ n → ∀ j u, other.Reads j u →
      ∃ x, Publisher.partialEqKernel self other n i j = .ok x ∧ (x = true ↔ t = u) := by
  induction h with
  | @mk k nd kids h1 h2 h3 ih =>
    intro n hn j u hu
    cases hu with
    | @mk _ nd' kids' g1 g2 g3 =>
      rw [DTree.size] at hn
      obtain ⟨n, rfl⟩ : ∃ m, n = m + 1 := ⟨n - 1, by omega⟩
      simp only [Publisher.partialEqKernel, Publisher.getNode, h1, g1, Out.ofOption_some, Out.bind_ok]
      by_cases he : Publisher.nodeEq nd nd' = true
      · simp only [he, if_true]
        have he' : nd.rule = nd'.rule ∧ nd.start = nd'.start ∧ nd.stop = nd'.stop ∧ nd.result = nd'.result ∧
            nd.children.length = nd'.children.length := by
          unfold Publisher.nodeEq at he; grind
        obtain ⟨e1, e2, e3, e4, e5⟩ := he'
        obtain ⟨x, hx, hxe⟩ := eqChildren_spec (rec := Publisher.partialEqKernel self other n) h2 g2 e5 (by
          intro i a b t u ha hb ht hu
          exact ih i a t ha ht n (by have := DTree.size_kid ht; omega) b u (g3 i b u hb hu))
          nd.children.length 0 (by omega)
        refine ⟨x, hx, ?_⟩
        rw [hxe]
        simp [e1, e2, e3, e4]
      · refine ⟨false, by simp [he], ?_⟩
        simp only [Bool.false_eq_true, false_iff]
        intro hh
        injection hh with e1 e2 e3 e4 e5
        apply he
        subst e5
        simp [Publisher.nodeEq, e1, e2, e3, e4, ← h2, ← g2]

/-- C19: `==` returns, and it is true exactly when the two stores read as the same tree: same rule, start, end, result and
shape everywhere.  Keys and unreachable nodes do not matter, as they do not occur in the trees. -/
theorem C19_eq_iff_same_tree {self other : Publisher R} {t u : DTree R} (h : self.Reads 0 t) (h' : other.Reads 0 u)
    {n : Nat} (hn : t.size ≤ n) : ∃ x, self.eq n other = .ok x ∧ (x = true ↔ t = u) :=
  partialEq_spec h n hn 0 u h'

/-- `self == other` evaluates to true (with some, hence with all large enough fuel). -/
def Publisher.EqualTo (self other : Publisher R) : Prop := ∃ N, ∀ n, N ≤ n → self.eq n other = .ok true

theorem same_iff {self other : Publisher R} {t u : DTree R} (h : self.Reads 0 t) (h' : other.Reads 0 u) :
    self.EqualTo other ↔ t = u := by
  constructor
  · rintro ⟨N, hN⟩
    obtain ⟨x, hx, hxe⟩ := C19_eq_iff_same_tree h h' (Nat.le_max_left t.size N)
    rw [hN _ (Nat.le_max_right _ _)] at hx
    exact hxe.mp (by injection hx with hx; exact hx.symm)
  · rintro rfl
    refine ⟨t.size, fun n hn => ?_⟩
    obtain ⟨x, hx, hxe⟩ := C19_eq_iff_same_tree h h' hn
    rw [hx, hxe.mpr rfl]

/-- C19: `==` is an equivalence on stores that hold a finite tree. -/
theorem C19_eq_is_equivalence {a b c : Publisher R} {t u v : DTree R} (ha : a.Reads 0 t) (hb : b.Reads 0 u)
    (hc : c.Reads 0 v) : a.EqualTo a ∧ (a.EqualTo b → b.EqualTo a) ∧ (a.EqualTo b → b.EqualTo c → a.EqualTo c) := by
  simp only [same_iff ha ha, same_iff ha hb, same_iff hb ha, same_iff hb hc, same_iff ha hc]
  grind

/-- Every node of a store whose child keys are valid and greater than the parent's reads as a tree. -/
theorem reads_of_order (p : Publisher R) (ho : ∀ (i : Nat) (nd : Node R), p.nodes[i]? = some nd →
    ∀ c ∈ nd.children, i < c ∧ c < p.nodes.length) : ∀ m i, i < p.nodes.length → p.nodes.length - i ≤ m → ∃ t, p.Reads i t := by
  intro m
  induction m with
  | zero => intro i h1 h2; omega
  | succ m ih =>
    intro i h1 h2
    obtain ⟨nd, hnd⟩ : ∃ nd, p.nodes[i]? = some nd := ⟨_, List.getElem?_eq_getElem h1⟩
    have key : ∀ cs : List Nat, (∀ c ∈ cs, i < c ∧ c < p.nodes.length) → ∃ ts : List (DTree R), ts.length = cs.length ∧
        ∀ (j : Nat) c t, cs[j]? = some c → ts[j]? = some t → p.Reads c t := by
      intro cs
      induction cs with
      | nil => intro _; exact ⟨[], rfl, by simp⟩
      | cons c cs ihc =>
        intro hcs
        obtain ⟨ts, e1, e2⟩ := ihc fun c' h' => hcs c' (by simp [h'])
        have := hcs c (by simp)
        obtain ⟨t, ht⟩ := ih c this.2 (by omega)
        refine ⟨t :: ts, by simp [e1], ?_⟩
        intro j c' t' hc' ht'
        cases j with
        | zero => simp at hc' ht'; subst hc'; subst ht'; exact ht
        | succ j => exact e2 j c' t' (by simpa using hc') (by simpa using ht')
    obtain ⟨ts, e1, e2⟩ := key nd.children (ho i nd hnd)
    exact ⟨_, .mk hnd e1 e2⟩

/-- C19: trees returned by `parse` hold a finite tree, so the two theorems above apply to them. -/
theorem C19_parse_results_are_comparable {U : Type} (P : Parser R U) (src : Source) (hh : P.HooksOK src) {n : Nat}
    {b : Bool} {q : Nat} {t : Publisher R} (hc : parse P src n = .ok (b, q, t)) : ∃ d, t.Reads 0 d := by
  have ho := (C16_parse_tree_is_a_forest P src hh hc).1
  obtain ⟨ks, h0, _⟩ := C49_parse_result_consistent P src hh hc
  refine reads_of_order t (fun i nd h => (ho i nd h).2) t.nodes.length 0 ?_ (by omega)
  rcases Nat.lt_or_ge 0 t.nodes.length with h | h
  · exact h
  · rw [List.getElem?_eq_none h] at h0; cases h0

/-! ## C45 -/

/-- The child list of a key. -/
def Publisher.childrenOf (p : Publisher R) (k : Nat) : Option (List Nat) := (p.nodes[k]?).map Node.children

/-- `p'` is `p` with the child list of `k` replaced by `cs` and nothing else changed. -/
def Publisher.OnlyChildren (p p' : Publisher R) (k : Nat) (cs : List Nat) : Prop :=
  p'.nodes.length = p.nodes.length ∧ (∀ j, j ≠ k → p'.nodes[j]? = p.nodes[j]?) ∧
  ∃ nd, p.nodes[k]? = some nd ∧ p'.nodes[k]? = some { nd with children := cs }

theorem modify_only {p p' : Publisher R} {k : Nat} {f : Node R → Node R} (h : p.modify k f = .ok p') :
    ∃ nd, p.nodes[k]? = some nd ∧ p'.nodes[k]? = some (f nd) ∧ p'.nodes.length = p.nodes.length ∧
      ∀ j, j ≠ k → p'.nodes[j]? = p.nodes[j]? := by
  unfold Publisher.modify at h
  split at h
  · cases h
  · next nd hnd =>
    cases h
    have hk : k < p.nodes.length := by
      rcases Nat.lt_or_ge k p.nodes.length with h | h
      · exact h
      · rw [List.getElem?_eq_none h] at hnd; cases hnd
    refine ⟨nd, hnd, by simp [hk], by simp, fun j hj => ?_⟩
    simp only [List.getElem?_set]
    rw [if_neg (fun h => hj h.symm)]

/-- C45: `connect` appends to the parent's child list and touches nothing else. -/
theorem C45_connect_appends {p p' : Publisher R} {a b : Nat} (h : p.connect a b = .ok p') :
    ∃ cs, p.childrenOf a = some cs ∧ p.OnlyChildren p' a (cs ++ [b]) := by
  unfold Publisher.connect at h
  split at h
  · cases h
  · obtain ⟨nd, h1, h2, h3, h4⟩ := modify_only h
    exact ⟨nd.children, by simp [Publisher.childrenOf, h1], h3, h4, nd, h1, h2⟩

/-- C45: `connect_front` prepends. -/
theorem C45_connect_front_prepends {p p' : Publisher R} {a b : Nat} (h : p.connectFront a b = .ok p') :
    ∃ cs, p.childrenOf a = some cs ∧ p.OnlyChildren p' a (b :: cs) := by
  unfold Publisher.connectFront at h
  split at h
  · cases h
  · obtain ⟨nd, h1, h2, h3, h4⟩ := modify_only h
    exact ⟨nd.children, by simp [Publisher.childrenOf, h1], h3, h4, nd, h1, h2⟩

/-- C45: `connect_if_not_connected` appends exactly if the child is not there yet; so it never introduces a duplicate. -/
theorem C45_connect_if_not_connected {p p' : Publisher R} {a b : Nat} (h : p.connectIfNotConnected a b = .ok p') :
    ∃ cs, p.childrenOf a = some cs ∧ p.OnlyChildren p' a (if b ∈ cs then cs else cs ++ [b]) ∧
      (cs.Nodup → ∃ cs', p'.childrenOf a = some cs' ∧ cs'.Nodup) := by
  obtain ⟨nd, h1, h2, h3, h4⟩ := modify_only h
  refine ⟨nd.children, by simp [Publisher.childrenOf, h1], ⟨h3, h4, nd, h1, ?_⟩, ?_⟩
  · rw [h2]
    by_cases hb : b ∈ nd.children <;> simp [hb]
  · intro hn
    by_cases hb : b ∈ nd.children
    · exact ⟨nd.children, by simp [Publisher.childrenOf, h2, hb], hn⟩
    · refine ⟨nd.children ++ [b], by simp [Publisher.childrenOf, h2, hb], ?_⟩
      rw [List.nodup_append]
      exact ⟨hn, by simp, by rintro x hx y hy rfl; simp at hy; subst hy; exact hb hx⟩

theorem publisher_ext {p p' : Publisher R} (h : ∀ j : Nat, p'.nodes[j]? = p.nodes[j]?) : p' = p := by
  cases p; cases p'
  congr 1
  exact List.ext_getElem? h

/-- C45: `connect_if_not_connected` is idempotent. -/
theorem C45_connect_if_not_connected_idempotent {p p' : Publisher R} {a b : Nat}
    (h : p.connectIfNotConnected a b = .ok p') : p'.connectIfNotConnected a b = .ok p' := by
  obtain ⟨nd, h1, h2, h3, h4⟩ := modify_only h
  have hmem : ∀ nd' : Node R, p'.nodes[a]? = some nd' → nd'.children.contains b = true := by
    intro nd' hnd'
    rw [h2] at hnd'
    obtain rfl := Option.some.inj hnd'
    by_cases hb : b ∈ nd.children <;> simp [hb]
  unfold Publisher.connectIfNotConnected Publisher.modify
  rw [h2]
  simp only
  rw [if_pos (hmem _ h2)]
  congr 1
  refine publisher_ext fun j => ?_
  simp only [List.getElem?_set]
  split
  · next hj =>
    subst hj
    split
    · exact h2.symm
    · next hl => rw [List.getElem?_eq_none (by omega)] at h2; cases h2
  · rfl

theorem lastPos_append (b : Nat) : ∀ (cs : List Nat) (i : Nat) (acc : Option Nat),
    Publisher.lastPos b i (cs ++ [b]) acc = some (i + cs.length) := by
  intro cs
  induction cs with
  | nil => intro i acc; simp [Publisher.lastPos]
  | cons c cs ih => intro i acc; simp [Publisher.lastPos, ih]; omega

/-- C45: `disconnect` undoes a preceding `connect`, even if the child had been connected before. -/
theorem C45_disconnect_undoes_connect {p p' : Publisher R} {a b : Nat} (h : p.connect a b = .ok p') :
    p'.disconnect a b = .ok p := by
  unfold Publisher.connect at h
  split at h
  · cases h
  · obtain ⟨nd, h1, h2, h3, h4⟩ := modify_only h
    unfold Publisher.disconnect Publisher.modify
    rw [h2]
    simp only [lastPos_append, Nat.zero_add]
    congr 1
    refine publisher_ext fun j => ?_
    simp only [List.getElem?_set]
    split
    · next hj =>
      subst hj
      split
      · rw [h1]
        simp [List.eraseIdx_append_of_length_le (Nat.le_refl _)]
      · next hl => rw [List.getElem?_eq_none (by omega)] at h2; cases h2
    · next hj => exact h4 j (fun h => hj h.symm)

theorem lastPos_none (b : Nat) : ∀ (cs : List Nat) (i : Nat), b ∉ cs → ∀ acc, Publisher.lastPos b i cs acc = acc := by
  intro cs
  induction cs with
  | nil => intro i _ acc; rfl
  | cons c cs ih =>
    intro i hb acc
    simp only [List.mem_cons, not_or] at hb
    simp [Publisher.lastPos, ih _ hb.2, Ne.symm hb.1]

/-- C45: disconnecting a child that is not connected changes nothing. -/
theorem C45_disconnect_absent {p : Publisher R} {a b : Nat} {cs : List Nat} (h : p.childrenOf a = some cs) (hb : b ∉ cs) :
    p.disconnect a b = .ok p := by
  unfold Publisher.childrenOf at h
  cases hn : p.nodes[a]? with
  | none => simp [hn] at h
  | some nd =>
    simp [hn] at h
    subst h
    unfold Publisher.disconnect Publisher.modify
    rw [hn]
    simp only [lastPos_none b _ 0 hb]
    congr 1
    refine publisher_ext fun j => ?_
    simp only [List.getElem?_set]
    split
    · next hj =>
      subst hj
      split
      · exact hn.symm
      · next hl => rw [List.getElem?_eq_none (by omega)] at hn; cases hn
    · rfl

theorem lastPos_split (b : Nat) (l2 : List Nat) (hb : b ∉ l2) : ∀ (l1 : List Nat) (i : Nat) (acc : Option Nat),
    Publisher.lastPos b i (l1 ++ b :: l2) acc = some (i + l1.length) := by
  intro l1
  induction l1 with
  | nil => intro i acc; simp [Publisher.lastPos, lastPos_none b l2 (i + 1) hb]
  | cons c l1 ih => intro i acc; simp [Publisher.lastPos, ih]; omega

/-- C45: `disconnect` removes exactly the last connection to the child: earlier connections and all other children stay, in order, and
no other node changes. -/
theorem C45_disconnect_removes_last {p : Publisher R} {a b : Nat} {l1 l2 : List Nat} (h : p.childrenOf a = some (l1 ++ b :: l2))
    (hb : b ∉ l2) : ∃ p', p.disconnect a b = .ok p' ∧ p'.childrenOf a = some (l1 ++ l2) ∧ p'.nodes.length = p.nodes.length ∧
      ∀ j, j ≠ a → p'.nodes[j]? = p.nodes[j]? := by
  unfold Publisher.childrenOf at h
  cases hn : p.nodes[a]? with
  | none => simp [hn] at h
  | some nd =>
    simp [hn] at h
    unfold Publisher.disconnect Publisher.modify
    rw [hn]
    simp only [h, lastPos_split b l2 hb, Nat.zero_add]
    have hl : a < p.nodes.length := by
      refine Decidable.byContradiction fun hl => ?_
      rw [List.getElem?_eq_none (by omega)] at hn
      cases hn
    refine ⟨_, rfl, ?_, by simp, fun j hj => by simp [Ne.symm hj]⟩
    simp [Publisher.childrenOf, hl, List.eraseIdx_append_of_length_le]

example : ∃ p : Publisher Nat, p.childrenOf 0 = some ([1, 2] ++ 1 :: [3]) ∧ 1 ∉ [3] :=
  ⟨⟨[⟨0, 0, 0, 0, true, [1, 2, 1, 3]⟩]⟩, rfl, by decide⟩

/-- C45: the operations panic exactly on an unknown parent key, or (for `connect`) on `parent = child`. -/
theorem C45_connect_ok_iff (p : Publisher R) (a b : Nat) :
    (∃ p', p.connect a b = .ok p') ↔ a ≠ b ∧ a < p.nodes.length := by
  unfold Publisher.connect Publisher.modify
  by_cases h : a = b
  · simp [h]
  · rw [if_neg h]
    by_cases hl : a < p.nodes.length
    · rw [List.getElem?_eq_getElem hl]; simp [h, hl]
    · rw [List.getElem?_eq_none (by omega)]; simp [hl]

/-! ## C46 -/

/-- The line printed for the node of a key, in the depth and colour given. -/
def Publisher.lineFor (p : Publisher R) (red : Nat → Bool) (x : Nat × Nat) : Publisher.Line R :=
  match p.nodes[x.2]? with
  | some nd => .node x.1 (red x.2) nd.index nd.rule nd.start nd.stop nd.result nd.children.length
  | none => .error

/-- Whether the node of a key matched. -/
def Publisher.resultOf (p : Publisher R) (k : Nat) : Bool := (p.nodes[k]?).any Node.result

theorem KTree.size_pos (t : KTree) : 0 < t.size := by cases t; rw [KTree.size]; omega

theorem printChildren_spec (p : Publisher R) {rec : Nat → Out (List (Publisher.Line R))} {keep red : Nat → Bool} {d : Nat} :
    ∀ (cs : List Nat) (ts : List KTree), ts.length = cs.length → (∀ c ∈ cs, c ≠ 0) →
    (∀ (i : Nat) c t, cs[i]? = some c → ts[i]? = some t → rec c = .ok ((t.preorder keep d).map (p.lineFor red))) →
    Publisher.printChildren rec cs = .ok ((KTree.preorder.preorderL keep d ts).map (p.lineFor red)) := by
  intro cs
  induction cs with
  | nil =>
    intro ts h _ _
    simp at h; subst h
    rfl
  | cons c cs ih =>
    intro ts h h0 hr
    cases ts with
    | nil => simp at h
    | cons t ts =>
      have h1 := hr 0 c t rfl rfl
      have h2 := ih ts (by simpa using h) (fun c' hc' => h0 c' (by simp [hc']))
        (fun i c' t' hc' ht' => hr (i + 1) c' t' (by simpa using hc') (by simpa using ht'))
      rw [KTree.preorder.preorderL]
      simp [Publisher.printChildren, h0 c (by simp), h1, h2]

theorem KTree.size_kid {ts : List KTree} {i : Nat} {t} (h : ts[i]? = some t) : t.size ≤ KTree.size.sizeL ts := by
  induction ts generalizing i with
  | nil => simp at h
  | cons u us ih =>
    rw [KTree.size.sizeL]
    cases i with
    | zero => simp at h; subst h; omega
    | succ i => have := ih (by simpa using h); omega

section
variable (p : Publisher R) (h0 : ∀ (i : Nat) (nd : Node R), p.nodes[i]? = some nd → ∀ c ∈ nd.children, c ≠ 0)
include h0

theorem print_spec {k : Nat} {t : KTree} (h : p.Keys k t) : ∀ n, t.size ≤ n → ∀ d,
    p.printTrue n k d = .ok ((t.preorder p.resultOf d).map (p.lineFor fun _ => false)) ∧
    p.printFalse n k d = .ok ((t.preorder (fun k => !p.resultOf k) d).map (p.lineFor fun _ => true)) ∧
    p.printAll n k d = .ok ((t.preorder (fun _ => true) d).map (p.lineFor fun k => !p.resultOf k)) := by
  induction h with
  | @mk k nd kids h1 h2 h3 ih =>
    intro n hn d
    rw [KTree.size] at hn
    obtain ⟨n, rfl⟩ : ∃ m, n = m + 1 := ⟨n - 1, by omega⟩
    have hres : p.resultOf k = nd.result := by simp [Publisher.resultOf, h1]
    have hc := h0 k nd h1
    have ih' : ∀ (i : Nat) c t, nd.children[i]? = some c → kids[i]? = some t → t.size ≤ n := by
      intro i c t _ ht; have := KTree.size_kid ht; omega
    have c1 := printChildren_spec p (rec := fun c => p.printTrue n c (d + 1)) (keep := p.resultOf)
      (red := fun _ => false) (d := d + 1) nd.children kids h2 hc
      (fun i c t a b => (ih i c t a b n (ih' i c t a b) (d + 1)).1)
    have c2 := printChildren_spec p (rec := fun c => p.printFalse n c (d + 1)) (keep := fun k => !p.resultOf k)
      (red := fun _ => true) (d := d + 1) nd.children kids h2 hc
      (fun i c t a b => (ih i c t a b n (ih' i c t a b) (d + 1)).2.1)
    have c3 := printChildren_spec p (rec := fun c => p.printAll n c (d + 1)) (keep := fun _ => true)
      (red := fun k => !p.resultOf k) (d := d + 1) nd.children kids h2 hc
      (fun i c t a b => (ih i c t a b n (ih' i c t a b) (d + 1)).2.2)
    simp only [Publisher.printTrue, Publisher.printFalse, Publisher.printAll, Publisher.getNode, h1, Out.ofOption_some,
      Out.bind_ok, c1, c2, c3, KTree.preorder]
    have hl : ∀ red : Nat → Bool, p.lineFor red (d, k) = Publisher.nodeLine d (red k) nd := by
      intro red; simp [Publisher.lineFor, h1, Publisher.nodeLine]
    cases hr : nd.result <;> simp [hres, hr, hl]

/-- C46: `print(k, Some(true))` prints, in pre-order and indented by depth, exactly the nodes reachable from `k` through
successful nodes; `Some(false)` the failed ones (in red); `None` all of them (failed ones in red). -/
theorem C46_print {k : Nat} {t : KTree} (h : p.Keys k t) {n : Nat} (hn : t.size ≤ n) :
    p.print n k (some true) = .ok ((t.preorder p.resultOf 0).map (p.lineFor fun _ => false)) ∧
    p.print n k (some false) = .ok ((t.preorder (fun k => !p.resultOf k) 0).map (p.lineFor fun _ => true)) ∧
    p.print n k none = .ok ((t.preorder (fun _ => true) 0).map (p.lineFor fun k => !p.resultOf k)) := by
  obtain ⟨a, b, c⟩ := print_spec p h0 h n hn 0
  exact ⟨by simpa [Publisher.print] using a, by simpa [Publisher.print] using b, by simpa [Publisher.print] using c⟩

omit h0 in
theorem Publisher.Keys.preorder_keys {keep : Nat → Bool} {k : Nat} {t : KTree} (h : p.Keys k t) : ∀ d x,
    x ∈ t.preorder keep d → ∃ nd, p.nodes[x.2]? = some nd := by
  induction h with
  | @mk k nd kids h1 h2 h3 ih =>
    intro d x hx
    rw [KTree.preorder] at hx
    split at hx
    · rcases List.mem_cons.mp hx with rfl | hx
      · exact ⟨nd, h1⟩
      · have key : ∀ (cs : List Nat) (ts : List KTree), ts.length = cs.length →
            (∀ (i : Nat) c t, cs[i]? = some c → ts[i]? = some t → ∀ d x, x ∈ t.preorder keep d →
              ∃ nd, p.nodes[x.2]? = some nd) →
            ∀ d x, x ∈ KTree.preorder.preorderL keep d ts → ∃ nd, p.nodes[x.2]? = some nd := by
          intro cs
          induction cs with
          | nil => intro ts h _ d x hx; simp at h; subst h; cases hx
          | cons c cs ihc =>
            intro ts h hh d x hx
            cases ts with
            | nil => simp at h
            | cons t ts =>
              rw [KTree.preorder.preorderL] at hx
              rcases List.mem_append.mp hx with hx | hx
              · exact hh 0 c t rfl rfl d x hx
              · exact ihc ts (by simpa using h)
                  (fun i c' t' a b => hh (i + 1) c' t' (by simpa using a) (by simpa using b)) d x hx
        exact key nd.children kids h2 ih _ _ hx
    · cases hx

/-- C46: the "Error found Key(0)" line is never printed. -/
theorem C46_no_error_line {k : Nat} {t : KTree} (h : p.Keys k t) {n : Nat} (hn : t.size ≤ n) (mode : Option Bool)
    {ls : List (Publisher.Line R)} (hp : p.print n k mode = .ok ls) : Publisher.Line.error ∉ ls := by
  have none_err : ∀ (keep red : Nat → Bool), Publisher.Line.error ∉ (t.preorder keep 0).map (p.lineFor red) := by
    intro keep red hm
    obtain ⟨x, hx, he⟩ := List.mem_map.mp hm
    obtain ⟨nd, hnd⟩ := Publisher.Keys.preorder_keys p h 0 x hx
    simp [Publisher.lineFor, hnd] at he
  obtain ⟨a, b, c⟩ := C46_print p h0 h hn
  rcases mode with _ | _ | _
  · rw [c] at hp; injection hp with hp; subst hp; exact none_err _ _
  · rw [b] at hp; injection hp with hp; subst hp; exact none_err _ _
  · rw [a] at hp; injection hp with hp; subst hp; exact none_err _ _

end

/-- Keys of a forest with increasing keys unfold to a finite key tree. -/
theorem keys_of_order (p : Publisher R) (ho : ∀ (i : Nat) (nd : Node R), p.nodes[i]? = some nd →
    ∀ c ∈ nd.children, i < c ∧ c < p.nodes.length) : ∀ m i, i < p.nodes.length → p.nodes.length - i ≤ m → ∃ t, p.Keys i t := by
  intro m
  induction m with
  | zero => intro i h1 h2; omega
  | succ m ih =>
    intro i h1 h2
    obtain ⟨nd, hnd⟩ : ∃ nd, p.nodes[i]? = some nd := ⟨_, List.getElem?_eq_getElem h1⟩
    have key : ∀ cs : List Nat, (∀ c ∈ cs, i < c ∧ c < p.nodes.length) → ∃ ts : List KTree, ts.length = cs.length ∧
        ∀ (j : Nat) c t, cs[j]? = some c → ts[j]? = some t → p.Keys c t := by
      intro cs
      induction cs with
      | nil => intro _; exact ⟨[], rfl, by simp⟩
      | cons c cs ihc =>
        intro hcs
        obtain ⟨ts, e1, e2⟩ := ihc fun c' h' => hcs c' (by simp [h'])
        have := hcs c (by simp)
        obtain ⟨t, ht⟩ := ih c this.2 (by omega)
        refine ⟨t :: ts, by simp [e1], ?_⟩
        intro j c' t' hc' ht'
        cases j with
        | zero => simp at hc' ht'; subst hc'; subst ht'; exact ht
        | succ j => exact e2 j c' t' (by simpa using hc') (by simpa using ht')
    obtain ⟨ts, e1, e2⟩ := key nd.children (ho i nd hnd)
    exact ⟨_, .mk hnd e1 e2⟩

/-- C46 applies to every node of every tree returned by `parse`. -/
theorem C46_parse_results_are_printable {U : Type} (P : Parser R U) (src : Source) (hh : P.HooksOK src) {n : Nat}
    {b : Bool} {q : Nat} {t : Publisher R} (hc : parse P src n = .ok (b, q, t)) (k : Nat) (hk : k < t.nodes.length) :
    (∀ (i : Nat) (nd : Node R), t.nodes[i]? = some nd → ∀ c ∈ nd.children, c ≠ 0) ∧ ∃ kt, t.Keys k kt := by
  have ho := (C16_parse_tree_is_a_forest P src hh hc).1
  refine ⟨fun i nd h c hc => ?_, keys_of_order t (fun i nd h => (ho i nd h).2) t.nodes.length k hk (by omega)⟩
  have := ((ho i nd h).2 c hc).1
  omega

/-! ## The hypotheses are met: the tree of "1-2-" by example 5 -/

/-- The tree returned by `parse` for "1-2-". -/
def ex5Tree : Publisher Ex5 :=
  ⟨[⟨0, .r_grammar, 0, 0, true, [2]⟩, ⟨1, .r_grammar, 0, 0, true, []⟩, ⟨2, .r_grammar, 0, 3, true, [3]⟩,
    ⟨3, .r_expr, 0, 3, true, [4, 6]⟩, ⟨4, .r_expr, 0, 1, true, [5]⟩, ⟨5, .r_num, 0, 1, true, []⟩,
    ⟨6, .r_num, 2, 3, true, []⟩]⟩

theorem ex5Tree_parse : parse ex5Parser ⟨[49, 45, 50, 45]⟩ 40 = .ok (true, 3, ex5Tree) := by decide +kernel

example : ∃ d, ex5Tree.Reads 0 d :=
  C19_parse_results_are_comparable _ _ (plain_hooksOK _ _ _) ex5Tree_parse
example : ∃ kt, ex5Tree.Keys 3 kt :=
  (C46_parse_results_are_printable _ _ (plain_hooksOK _ _ _) ex5Tree_parse 3 (by decide)).2
example : ∃ p', ex5Tree.connect 3 1 = .ok p' := ⟨_, rfl⟩
example : ∃ p', ex5Tree.connectIfNotConnected 3 4 = .ok p' := ⟨_, rfl⟩
example : ex5Tree.childrenOf 3 = some [4, 6] ∧ 5 ∉ [4, 6] := ⟨rfl, by decide⟩

end PP
