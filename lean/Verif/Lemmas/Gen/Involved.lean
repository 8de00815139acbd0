import Verif.Lemmas.Gen.Marks
import Verif.Spec.GenSpec

/-! # The involved sets of the cycle detector -/
namespace PP.Gen

section
variable {ord : HashOrd}

/-! ### Starting sets -/

/-- One step of `create_involved_sets`. -/
def invStep (ord : HashOrd) (M : List Bytes) (inv : Map (List Bytes)) (p : Bytes × List Bytes) : Map (List Bytes) :=
  let s := (ord.perm [4, inv.length] p.2).foldl (fun s r => if M.contains r then s else setInsert s r) []
  if s.isEmpty then inv else inv.insert p.1 (setInsert s p.1)

theorem create_eq {t : RuleCallTree} : createInvolvedSets ord t =
    { t with involved := (ord.perm [4] t.leftMost).foldl (invStep ord t.notLR) t.involved } := by
  unfold createInvolvedSets
  generalize ord.perm [4] t.leftMost = l
  have : ∀ (l : Map (List Bytes)) (inv : Map (List Bytes)), l.foldl (fun t p =>
    let s := (ord.perm [4, t.involved.length] p.2).foldl (fun s r =>
      if t.notLR.contains r then s else setInsert s r) []
    if s.isEmpty then t else { t with involved := t.involved.insert p.1 (setInsert s p.1) }) { t with involved := inv } =
      { t with involved := l.foldl (invStep ord t.notLR) inv } := by
    intro l
    induction l with
    | nil => intro inv; rfl
    | cons p l ih =>
      intro inv
      simp only [List.foldl_cons]
      rw [← ih]
      congr 1
      simp only [invStep]
      split <;> rfl
  exact this l t.involved

theorem filter_fold {M l acc : List Bytes} : (acc.Nodup → (l.foldl (fun s r => if M.contains r then s else setInsert s r) acc).Nodup) ∧
    ∀ y, y ∈ l.foldl (fun s r => if M.contains r then s else setInsert s r) acc ↔ y ∈ acc ∨ (y ∈ l ∧ y ∉ M) := by
  induction l generalizing acc with
  | nil => exact ⟨fun h => h, fun y => by simp⟩
  | cons a l ih =>
    simp only [List.foldl_cons]
    by_cases ha : a ∈ M
    · have : M.contains a = true := by simpa using ha
      simp only [this, if_true]
      refine ⟨ih.1, fun y => ?_⟩
      rw [ih.2, List.mem_cons]
      constructor
      · rintro (h | ⟨h, h'⟩)
        · exact Or.inl h
        · exact Or.inr ⟨Or.inr h, h'⟩
      · rintro (h | ⟨rfl | h, h'⟩)
        · exact Or.inl h
        · exact absurd ha h'
        · exact Or.inr ⟨h, h'⟩
    · have : M.contains a = false := by simpa using ha
      simp only [this, Bool.false_eq_true, if_false]
      refine ⟨fun h => ih.1 (setInsert_nodup h), fun y => ?_⟩
      rw [ih.2, List.mem_cons, mem_setInsert]
      constructor
      · rintro ((h | rfl) | ⟨h, h'⟩)
        · exact Or.inl h
        · exact Or.inr ⟨Or.inl rfl, ha⟩
        · exact Or.inr ⟨Or.inr h, h'⟩
      · rintro (h | ⟨rfl | h, h'⟩)
        · exact Or.inl (Or.inl h)
        · exact Or.inl (Or.inr rfl)
        · exact Or.inr ⟨h, h'⟩

/-- A starting set: the name itself and its unmarked leftmost references, of which there are some. -/
def StartSet (M : List Bytes) (x : Bytes) (lefts s : List Bytes) : Prop :=
  s.Nodup ∧ (∃ y ∈ lefts, y ∉ M) ∧ ∀ y, y ∈ s ↔ y = x ∨ (y ∈ lefts ∧ y ∉ M)

theorem inv_fold {M : List Bytes} {l : List (Bytes × List Bytes)} : ∀ {inv : Map (List Bytes)},
    (inv.keys.Nodup → (l.foldl (invStep ord M) inv).keys.Nodup) ∧
    (∀ x s, (l.foldl (invStep ord M) inv).get x = some s → inv.get x = some s ∨ ∃ lefts, (x, lefts) ∈ l ∧ StartSet M x lefts s) ∧
    (∀ x, (x ∈ inv.keys ∨ ∃ lefts, (x, lefts) ∈ l ∧ ∃ y ∈ lefts, y ∉ M) → x ∈ (l.foldl (invStep ord M) inv).keys) := by
  induction l with
  | nil => intro inv; exact ⟨fun h => h, fun x s h => Or.inl h, fun x h => by simpa using h⟩
  | cons p l ih =>
    intro inv
    rw [List.foldl_cons]
    obtain ⟨i1, i2, i3⟩ := @ih (invStep ord M inv p)
    have hf := @filter_fold M (ord.perm [4, inv.length] p.2) []
    have hm : ∀ y, y ∈ (ord.perm [4, inv.length] p.2).foldl (fun s r => if M.contains r then s else setInsert s r) [] ↔ y ∈ p.2 ∧ y ∉ M := by
      intro y; rw [hf.2, (ord.ok _ _).mem_iff]; simp
    have hstep : invStep ord M inv p = if ((ord.perm [4, inv.length] p.2).foldl (fun s r => if M.contains r then s else setInsert s r) []).isEmpty then inv
        else inv.insert p.1 (setInsert ((ord.perm [4, inv.length] p.2).foldl (fun s r => if M.contains r then s else setInsert s r) []) p.1) := rfl
    generalize hs0 : (ord.perm [4, inv.length] p.2).foldl (fun s r => if M.contains r then s else setInsert s r) [] = s0 at *
    by_cases he : s0.isEmpty = true
    · rw [if_pos he] at hstep
      have he' : s0 = [] := List.isEmpty_iff.mp he
      rw [hstep] at i1 i2 i3 ⊢
      refine ⟨i1, fun x s h => ?_, fun x h => i3 x ?_⟩
      · rcases i2 x s h with h | ⟨lefts, h, h'⟩
        · exact Or.inl h
        · exact Or.inr ⟨lefts, by simp [h], h'⟩
      · rcases h with h | ⟨lefts, h, y, hy⟩
        · exact Or.inl h
        · rcases List.mem_cons.mp h with rfl | h
          · have := (hm y).mpr hy
            rw [he'] at this; cases this
          · exact Or.inr ⟨lefts, h, y, hy⟩
    · rw [if_neg he] at hstep
      have hne : ∃ y, y ∈ s0 := by
        cases s0 with
        | nil => simp at he
        | cons a s => exact ⟨a, by simp⟩
      rw [hstep] at i1 i2 i3 ⊢
      refine ⟨fun h => i1 (by rw [Map.keys_insert]; exact setInsert_nodup h), fun x s h => ?_, fun x h => i3 x ?_⟩
      · rcases i2 x s h with h1 | ⟨lefts, h, h'⟩
        · clear h
          have h := h1
          clear h1
          rw [Map.get_insert] at h
          split at h
          · next hx =>
            injection h with h0
            subst hx h0
            obtain ⟨y, hy⟩ := hne
            refine Or.inr ⟨p.2, by simp, setInsert_nodup (hf.1 List.nodup_nil), ⟨y, ((hm y).mp hy).1, ((hm y).mp hy).2⟩, fun z => ?_⟩
            rw [mem_setInsert, hm]
            exact or_comm
          · exact Or.inl h
        · exact Or.inr ⟨lefts, by simp [h], h'⟩
      · rw [Map.keys_insert, mem_setInsert]
        rcases h with h | ⟨lefts, h, hy⟩
        · exact Or.inl (Or.inl h)
        · rcases List.mem_cons.mp h with rfl | h
          · exact Or.inl (Or.inr rfl)
          · exact Or.inr ⟨lefts, h, hy⟩

/-! ### Merging -/

/-- What a merge makes of a set. -/
structure Merged (m : Map (List Bytes)) (s s' : List Bytes) : Prop where
  pre : s <+: s'
  nodup : s.Nodup → s'.Nodup
  mem : ∀ y, y ∈ s' ↔ y ∈ s ∨ ∃ r ∈ s, ∃ i, m.get r = some i ∧ y ∈ i

theorem setAdd_prefix {s l : List Bytes} : s <+: setAdd s l := by
  induction l generalizing s with
  | nil => exact List.prefix_refl _
  | cons x l ih => exact setInsert_prefix.trans ih

theorem merge_set {m : Map (List Bytes)} {l acc : List Bytes} (h : ∀ r ∈ l, r ∈ m.keys) :
    ∃ s', l.foldlM (fun s r => match m.get r with | none => .panic .explicit | some i => .ok (setUnion s i)) acc = (.ok s' : Out _) ∧
      acc <+: s' ∧ (acc.Nodup → s'.Nodup) ∧ ∀ y, y ∈ s' ↔ y ∈ acc ∨ ∃ r ∈ l, ∃ i, m.get r = some i ∧ y ∈ i := by
  induction l generalizing acc with
  | nil => exact ⟨acc, rfl, List.prefix_refl _, fun h => h, fun y => by simp⟩
  | cons a l ih =>
    obtain ⟨i, hi⟩ := Map.get_some_of_key (h a (by simp))
    obtain ⟨s', h1, h2, h3, h4⟩ := ih (acc := setUnion acc i) fun r hr => h r (by simp [hr])
    refine ⟨s', by simp only [List.foldlM_cons, hi, Out.bind_ok, h1], (setAdd_prefix (l := i)).trans h2, fun h => h3 (setAdd_nodup (l := i) h), fun y => ?_⟩
    have : y ∈ setUnion acc i ↔ y ∈ acc ∨ y ∈ i := mem_setAdd
    rw [h4, this]
    constructor
    · rintro ((h | h) | ⟨r, hr, hh⟩)
      · exact Or.inl h
      · exact Or.inr ⟨a, by simp, i, hi, h⟩
      · exact Or.inr ⟨r, by simp [hr], hh⟩
    · rintro (h | ⟨r, hr, j, hj, hy⟩)
      · exact Or.inl (Or.inl h)
      · rcases List.mem_cons.mp hr with rfl | hr
        · cases hi.symm.trans hj
          exact Or.inl (Or.inr hy)
        · exact Or.inr ⟨r, hr, j, hj, hy⟩

theorem merge_set_panic {m : Map (List Bytes)} {l acc : List Bytes} (h : ∃ r ∈ l, r ∉ m.keys) :
    l.foldlM (fun s r => match m.get r with | none => .panic .explicit | some i => .ok (setUnion s i)) acc = (.panic .explicit : Out (List Bytes)) := by
  induction l generalizing acc with
  | nil => obtain ⟨r, hr, _⟩ := h; cases hr
  | cons a l ih =>
    simp only [List.foldlM_cons]
    cases hi : m.get a with
    | none => rfl
    | some i =>
      simp only [Out.bind_ok]
      refine ih ?_
      obtain ⟨r, hr, hk⟩ := h
      rcases List.mem_cons.mp hr with rfl | hr
      · exact absurd (Map.key_of_get hi) hk
      · exact ⟨r, hr, hk⟩

def mergeStep (ord : HashOrd) (pass : Nat) (m acc : Map (List Bytes)) (p : Bytes × List Bytes) : Out (Map (List Bytes)) := do
  let s ← (ord.perm [5, pass, acc.length] p.2).foldlM (fun s r =>
    match m.get r with
    | none => .panic .explicit
    | some i => .ok (setUnion s i)) p.2
  .ok (acc.insert p.1 s)

theorem setInsert_of_mem {s : List Bytes} {x} (h : x ∈ s) : setInsert s x = s := by
  unfold setInsert; rw [if_pos (by simpa using h)]

theorem merge_fold {pass : Nat} {m : Map (List Bytes)} {l : List (Bytes × List Bytes)} : ∀ {acc : Map (List Bytes)},
    (∀ p ∈ l, p.1 ∈ acc.keys ∧ ∀ r ∈ p.2, r ∈ m.keys) →
    ∃ m', l.foldlM (mergeStep ord pass m) acc = .ok m' ∧ m'.keys = acc.keys ∧
      ∀ x s', m'.get x = some s' → (acc.get x = some s' ∧ x ∉ l.map (·.1)) ∨ ∃ s, (x, s) ∈ l ∧ Merged m s s' := by
  induction l with
  | nil => intro acc _; exact ⟨acc, rfl, rfl, fun x s h => Or.inl ⟨h, by simp⟩⟩
  | cons p l ih =>
    intro acc h
    have hp := h p (by simp)
    obtain ⟨s', h1, h2, h3, h4⟩ := merge_set (m := m) (l := ord.perm [5, pass, acc.length] p.2) (acc := p.2)
      fun r hr => hp.2 r ((ord.ok _ _).mem_iff.mp hr)
    have hk : (acc.insert p.1 s').keys = acc.keys := by rw [Map.keys_insert, setInsert_of_mem hp.1]
    obtain ⟨m', i1, i2, i3⟩ := ih (acc := acc.insert p.1 s') fun q hq => by rw [hk]; exact h q (by simp [hq])
    have hM : Merged m p.2 s' := ⟨h2, h3, fun y => by
      rw [h4]
      constructor
      · rintro (h | ⟨r, hr, hh⟩)
        · exact Or.inl h
        · exact Or.inr ⟨r, (ord.ok _ _).mem_iff.mp hr, hh⟩
      · rintro (h | ⟨r, hr, hh⟩)
        · exact Or.inl h
        · exact Or.inr ⟨r, (ord.ok _ _).mem_iff.mpr hr, hh⟩⟩
    refine ⟨m', ?_, i2.trans hk, fun x s hx => ?_⟩
    · simp only [List.foldlM_cons, mergeStep, h1, Out.bind_ok]
      exact i1
    · rcases i3 x s hx with ⟨h, hn⟩ | ⟨s1, hs, hh⟩
      · rw [Map.get_insert] at h
        split at h
        · next e =>
          injection h with h
          subst h e
          exact Or.inr ⟨p.2, by simp, hM⟩
        · next e =>
          refine Or.inl ⟨h, ?_⟩
          simp only [List.map_cons, List.mem_cons, not_or]
          exact ⟨fun h => e h.symm, hn⟩
      · exact Or.inr ⟨s1, by simp [hs], hh⟩

theorem merge_ok {pass : Nat} {m : Map (List Bytes)} (hn : m.keys.Nodup) (h : ∀ x s, m.get x = some s → ∀ r ∈ s, r ∈ m.keys) :
    ∃ m', mergeDependentSets ord pass m = .ok m' ∧ m'.keys = m.keys ∧ ∀ x s', m'.get x = some s' → ∃ s, m.get x = some s ∧ Merged m s s' := by
  obtain ⟨m', h1, h2, h3⟩ := merge_fold (ord := ord) (pass := pass) (m := m) (l := ord.perm [5, pass] m) (acc := m) (by
    rintro ⟨x, s⟩ hp
    have hp := (ord.ok _ _).mem_iff.mp hp
    exact ⟨List.mem_map.mpr ⟨_, hp, rfl⟩, h x s ((Map.mem_iff hn).mp hp)⟩)
  refine ⟨m', h1, h2, fun x s' hx => ?_⟩
  rcases h3 x s' hx with ⟨h4, h5⟩ | ⟨s, h4, h5⟩
  · exact absurd (((ord.ok _ _).map _).mem_iff.mpr (Map.key_of_get h4)) h5
  · exact ⟨s, (Map.mem_iff hn).mp ((ord.ok _ _).mem_iff.mp h4), h5⟩

theorem merge_fold_panic {pass : Nat} {m : Map (List Bytes)} {l : List (Bytes × List Bytes)} : ∀ {acc : Map (List Bytes)},
    (∃ p ∈ l, ∃ r ∈ p.2, r ∉ m.keys) → l.foldlM (mergeStep ord pass m) acc = .panic .explicit := by
  induction l with
  | nil => rintro acc ⟨p, h, _⟩; cases h
  | cons p l ih =>
    intro acc h
    simp only [List.foldlM_cons, mergeStep]
    by_cases hp : ∃ r ∈ p.2, r ∉ m.keys
    · rw [merge_set_panic (by obtain ⟨r, h1, h2⟩ := hp; exact ⟨r, (ord.ok _ _).mem_iff.mpr h1, h2⟩)]
      rfl
    · have : ∀ r ∈ ord.perm [5, pass, acc.length] p.2, r ∈ m.keys := by
        intro r hr
        exact Classical.byContradiction fun hk => hp ⟨r, (ord.ok _ _).mem_iff.mp hr, hk⟩
      obtain ⟨s', h1, _⟩ := merge_set (acc := p.2) this
      rw [h1]
      simp only [Out.bind_ok]
      refine ih ?_
      obtain ⟨q, hq, r, hr, hk⟩ := h
      rcases List.mem_cons.mp hq with rfl | hq
      · exact absurd ⟨r, hr, hk⟩ hp
      · exact ⟨q, hq, r, hr, hk⟩

/-- The number of names in all sets. -/
def total (m : Map (List Bytes)) : Nat := (m.map fun p => p.2.length).sum

theorem count_eq {pass : Nat} {m : Map (List Bytes)} : involvedRuleCount ord pass m = total m := by
  have : ∀ (l : Map (List Bytes)) c, l.foldl (fun c p => c + p.2.length) c = c + total l := by
    intro l
    induction l with
    | nil => intro c; simp [total]
    | cons p l ih => intro c; rw [List.foldl_cons, ih]; simp [total]; omega
  unfold involvedRuleCount
  rw [this, Nat.zero_add]
  exact ((ord.ok _ m).map _).sum_nat

theorem total_le {m m' : Map (List Bytes)} (hk : m'.keys = m.keys) (hn : m.keys.Nodup)
    (h : ∀ x s s', m.get x = some s → m'.get x = some s' → s <+: s') :
    total m ≤ total m' ∧ (total m' = total m → ∀ x, m'.get x = m.get x) := by
  induction m generalizing m' with
  | nil =>
    have : m' = [] := by simpa [Map.keys] using hk
    subst this
    exact ⟨Nat.le_refl _, fun _ _ => rfl⟩
  | cons p m ih =>
    cases m' with
    | nil => simp [Map.keys] at hk
    | cons p' m' =>
      obtain ⟨a, s⟩ := p
      obtain ⟨a', s'⟩ := p'
      simp only [Map.keys, List.map_cons, List.cons.injEq] at hk
      obtain ⟨rfl, hk⟩ := hk
      simp only [Map.keys, List.map_cons, List.nodup_cons] at hn
      have hs : s <+: s' := h a' s s' (by simp [Map.get]) (by simp [Map.get])
      have hne : ∀ x v, Map.get m x = some v → x ≠ a' := by
        rintro x v hx rfl
        exact hn.1 (Map.key_of_get hx)
      have hget : ∀ (m : Map (List Bytes)) (s : List Bytes) x, x ≠ a' → Map.get ((a', s) :: m) x = m.get x := by
        intro m s x hx
        have : ¬ a' = x := fun e => hx e.symm
        simp [Map.get, this]
      obtain ⟨i1, i2⟩ := ih (m' := m') hk hn.2 (fun x u v h1 h2 => h x u v (by rw [hget _ _ _ (hne x u h1)]; exact h1)
        (by rw [hget _ _ _ (hne x u h1)]; exact h2))
      have hl := hs.length_le
      refine ⟨by simp only [total, List.map_cons, List.sum_cons] at i1 ⊢; omega, fun e x => ?_⟩
      simp only [total, List.map_cons, List.sum_cons] at e i1
      have e1 : s = s' := hs.eq_of_length (by omega)
      by_cases hx : x = a'
      · subst hx; simp [Map.get, e1]
      · rw [hget _ _ _ hx, hget _ _ _ hx]
        exact i2 (by simp only [total]; omega) x

theorem total_bound {m : Map (List Bytes)} {K : Nat} (h : ∀ p ∈ m, p.2.length ≤ K) : total m ≤ m.length * K := by
  induction m with
  | nil => simp [total]
  | cons p m ih =>
    have := ih fun q hq => h q (by simp [hq])
    have h0 := h p (by simp)
    simp only [total, List.map_cons, List.sum_cons, List.length_cons, Nat.succ_mul] at this ⊢
    omega

/-- Chains through the starting sets. -/
inductive Chain (I : Map (List Bytes)) : Bytes → Bytes → Prop where
  | one {x s y} : I.get x = some s → y ∈ s → Chain I x y
  | step {x s y z} : I.get x = some s → y ∈ s → Chain I y z → Chain I x z

theorem Chain.trans {I x y z} (h : Chain I x y) (h' : Chain I y z) : Chain I x z := by
  induction h with
  | one h1 h2 => exact .step h1 h2 h'
  | step h1 h2 _ ih => exact .step h1 h2 (ih h')

/-- The starting sets only hold keys. -/
structure Start (I : Map (List Bytes)) : Prop where
  keys : I.keys.Nodup
  nodup : ∀ x s, I.get x = some s → s.Nodup
  closed : ∀ x s, I.get x = some s → ∀ y ∈ s, y ∈ I.keys

structure MergeInv (I m : Map (List Bytes)) : Prop where
  keys : m.keys = I.keys
  nodup : ∀ x s, m.get x = some s → s.Nodup
  base : ∀ x s s0, m.get x = some s → I.get x = some s0 → ∀ y ∈ s0, y ∈ s
  sound : ∀ x s, m.get x = some s → ∀ y ∈ s, y ∈ I.keys ∧ Chain I x y

theorem MergeInv.step {I m : Map (List Bytes)} (hI : Start I) (h : MergeInv I m) {pass : Nat} :
    ∃ m', mergeDependentSets ord pass m = .ok m' ∧ MergeInv I m' ∧ total m ≤ total m' ∧
      (total m' = total m → (∀ x, m'.get x = m.get x) ∧ ∀ x s, m.get x = some s → ∀ y, y ∈ s ↔ Chain I x y) := by
  have hn : m.keys.Nodup := h.keys ▸ hI.keys
  obtain ⟨m', h1, h2, h3⟩ := merge_ok (ord := ord) (pass := pass) hn (fun x s hx r hr => h.keys ▸ (h.sound x s hx r hr).1)
  have ht := total_le h2 hn (fun x s s' hx hx' => by
    obtain ⟨s1, g1, g2⟩ := h3 x s' hx'
    cases g1.symm.trans hx
    exact g2.pre)
  refine ⟨m', h1, ⟨h2.trans h.keys, ?_, ?_, ?_⟩, ht.1, fun e => ⟨ht.2 e, ?_⟩⟩
  · intro x s' hx
    obtain ⟨s, g1, g2⟩ := h3 x s' hx
    exact g2.nodup (h.nodup x s g1)
  · intro x s' s0 hx h0 y hy
    obtain ⟨s, g1, g2⟩ := h3 x s' hx
    exact g2.pre.subset (h.base x s s0 g1 h0 y hy)
  · intro x s' hx y hy
    obtain ⟨s, g1, g2⟩ := h3 x s' hx
    rcases (g2.mem y).mp hy with hy | ⟨r, hr, i, hi, hy⟩
    · exact h.sound x s g1 y hy
    · exact ⟨(h.sound r i hi y hy).1, (h.sound x s g1 r hr).2.trans (h.sound r i hi y hy).2⟩
  · have he := ht.2 e
    have closed : ∀ x s, m.get x = some s → ∀ r ∈ s, ∀ i, m.get r = some i → ∀ y ∈ i, y ∈ s := by
      intro x s hx r hr i hi y hy
      obtain ⟨s1, g1, g2⟩ := h3 x s ((he x).trans hx)
      cases g1.symm.trans hx
      exact (g2.mem y).mpr (Or.inr ⟨r, hr, i, hi, hy⟩)
    have get_of : ∀ x s0, I.get x = some s0 → ∃ s, m.get x = some s := fun x s0 h0 =>
      Map.get_some_of_key (h.keys ▸ Map.key_of_get h0)
    have comp : ∀ x y, Chain I x y → ∀ s, m.get x = some s → y ∈ s := by
      intro x y hc
      induction hc with
      | @one x s0 y h0 hy => intro s hs; exact h.base x s s0 hs h0 y hy
      | @step x s0 y z h0 hy _ ih =>
        intro s hs
        have hys := h.base x s s0 hs h0 y hy
        obtain ⟨i, hi⟩ := Map.get_some_of_key (m := m) (k := y) (h.keys ▸ hI.closed x s0 h0 y hy)
        exact closed x s hs y hys i hi z (ih i hi)
    exact fun x s hx y => ⟨fun hy => (h.sound x s hx y hy).2, fun hc => comp x y hc s hx⟩

/-- The merged sets: everything a chain leads to. -/
structure Closure (I m : Map (List Bytes)) : Prop where
  keys : m.keys = I.keys
  nodup : ∀ x s, m.get x = some s → s.Nodup
  mem : ∀ x s, m.get x = some s → ∀ y, y ∈ s ↔ Chain I x y

theorem MergeInv.total_bound {I m : Map (List Bytes)} (hI : Start I) (h : MergeInv I m) : total m ≤ I.keys.length * I.keys.length := by
  have hn : m.keys.Nodup := h.keys ▸ hI.keys
  have : m.length = I.keys.length := by rw [← h.keys]; simp [Map.keys]
  rw [← this]
  refine PP.Gen.total_bound ?_
  rintro ⟨x, s⟩ hp
  have hx := (Map.mem_iff hn).mp hp
  rw [this]
  exact nodup_length_le (h.nodup x s hx) fun y hy => (h.sound x s hx y hy).1

theorem merge_loop {I : Map (List Bytes)} (hI : Start I) : ∀ (d : Nat) {last : Option Nat} {pass : Nat} {m : Map (List Bytes)},
    MergeInv I m → I.keys.length * I.keys.length - total m ≤ d → (last = some (total m) → ∀ x s, m.get x = some s → ∀ y, y ∈ s ↔ Chain I x y) →
    ∃ m', Closure I m' ∧ Conv (fun n => mergeLoop ord n last pass m) (.ok m') := by
  have zero : ∀ {last pass m}, mergeLoop ord 0 last pass m = .oof := by intros; rfl
  have stop : ∀ {pass : Nat} {m : Map (List Bytes)}, Conv (fun n => mergeLoop ord n (some (total m)) pass m) (.ok m) := by
    intro pass m
    exact Conv.succ zero ((Conv.ok _).congr fun n => by simp [mergeLoop, count_eq])
  have e0 : ∀ {last pass m m'}, last ≠ some (total m) → mergeDependentSets ord pass m = .ok m' → ∀ n, mergeLoop ord (n + 1) last pass m =
      mergeLoop ord n (some (total m)) (pass + 1) m' := by
    intro last pass m m' h1 h2 n
    simp only [mergeLoop, count_eq, if_neg h1, h2, Out.bind_ok]
  intro d
  induction d with
  | zero =>
    intro last pass m hm hd hl
    by_cases h : last = some (total m)
    · subst h
      exact ⟨m, ⟨hm.keys, hm.nodup, hl rfl⟩, stop⟩
    · obtain ⟨m', h1, h2, h3, h4⟩ := hm.step (ord := ord) (pass := pass) hI
      have := h2.total_bound hI
      have h5 := h4 (by omega)
      refine ⟨m', ⟨h2.keys, h2.nodup, fun x s hx => h5.2 x s ((h5.1 x).symm.trans hx)⟩, ?_⟩
      refine Conv.succ zero (Conv.congr ?_ (e0 h h1))
      rw [show total m = total m' by omega]
      exact stop
  | succ d ih =>
    intro last pass m hm hd hl
    by_cases h : last = some (total m)
    · subst h
      exact ⟨m, ⟨hm.keys, hm.nodup, hl rfl⟩, stop⟩
    · obtain ⟨m', h1, h2, h3, h4⟩ := hm.step (ord := ord) (pass := pass) hI
      by_cases he : total m' = total m
      · have h5 := h4 he
        refine ⟨m', ⟨h2.keys, h2.nodup, fun x s hx => h5.2 x s ((h5.1 x).symm.trans hx)⟩, ?_⟩
        refine Conv.succ zero (Conv.congr ?_ (e0 h h1))
        rw [← he]
        exact stop
      · obtain ⟨M, g1, g2⟩ := ih (last := some (total m)) (pass := pass + 1) h2 (by omega) (by
          intro e; injection e with e; exact absurd e.symm he)
        exact ⟨M, g1, Conv.succ zero (g2.congr (e0 h h1))⟩

theorem merge_conv {I : Map (List Bytes)} (hI : Start I) : ∃ m, Closure I m ∧ Conv (fun n => mergeLoop ord n none 0 I) (.ok m) :=
  merge_loop hI _ ⟨rfl, hI.nodup, fun x s s0 h1 h2 y hy => by cases h1.symm.trans h2; exact hy,
    fun x s h y hy => ⟨hI.closed x s h y hy, .one h hy⟩⟩ (Nat.le_refl _) (by intro h; cases h)

theorem merge_panic {I : Map (List Bytes)} (h : ∃ x s y, (x, s) ∈ I ∧ y ∈ s ∧ y ∉ I.keys) :
    Conv (fun n => mergeLoop ord n none 0 I) (.panic .explicit) := by
  have zero : ∀ {last pass m}, mergeLoop ord 0 last pass m = .oof := by intros; rfl
  refine Conv.succ zero ((Conv.const (v := .panic .explicit) (by simp)).congr fun n => ?_)
  obtain ⟨x, s, y, h1, h2, h3⟩ := h
  have : mergeDependentSets ord 0 I = .panic .explicit :=
    merge_fold_panic ⟨(x, s), (ord.ok _ _).mem_iff.mpr h1, y, h2, h3⟩
  simp only [mergeLoop]
  rw [if_neg (by simp), this]
  rfl

end

/-! ### The result of the detector -/

/-- The left-recursion information of a grammar: exactly the flagged rules, each with the flagged rules it leads to. -/
structure LRTable (g : DGrammar) (m : Map (List Bytes)) : Prop where
  flagged : ∀ x, (∃ s, m.get x = some s) ↔ g.Flagged x
  nodup : ∀ x s, m.get x = some s → s.Nodup
  mem : ∀ x s, m.get x = some s → ∀ y, y ∈ s ↔ g.Flagged y ∧ g.Leads x y

theorem DGrammar.Leads.flagged {g : DGrammar} {x y} (h : g.Leads x y) (hx : ∃ r, g.lookup x = some r) (hy : g.Flagged y) : g.Flagged x := by
  obtain ⟨_, z, hz, hb⟩ := hy
  exact ⟨hx, z, h.trans hz, hb⟩

theorem build_conv {tree : Publisher Dsl} {src : Bytes} (ord : HashOrd) {g : DGrammar} (hw : g.WF) {nd : Node Dsl} (h1 : tree.getNode 0 = .ok nd)
    (h : UnfL tree.nodes nd.children (g.trees 0)) (hs : src = g.text) :
    (g.Dangling ∧ Conv (fun n => leftRecursionRules tree src ord n) (.panic .explicit)) ∨
    (¬ g.Dangling ∧ ∃ m, LRTable g m ∧ Conv (fun n => leftRecursionRules tree src ord n) (.ok m)) := by
  obtain ⟨t, ht, hc⟩ := walk_conv hw h1 h hs
  obtain ⟨M1, c1, n1, k1⟩ := mark_conv (ord := ord) (lbl := 1) (m := t.referenced) (base := t.notLR) (by rw [ht.notLR]; exact List.nodup_nil)
  obtain ⟨m2, T2, c2⟩ := leftMost_conv ht ord M1
  obtain ⟨M2, c3, n3, k3⟩ := mark_conv (ord := ord) (lbl := 3) (m := m2) (base := M1) n1
  have hM := marks_iff (g := g) (by rw [ht.refKeys]; exact setAdd_nodup List.nodup_nil) ht.refs (by rw [ht.notLR] at k1; exact k1) T2 k3
  obtain ⟨f1, f2, f3⟩ := inv_fold (ord := ord) (M := M2) (l := ord.perm [4] m2) (inv := [])
  generalize hI : (ord.perm [4] m2).foldl (invStep ord M2) [] = I at f1 f2 f3
  -- the keys are the flagged rules
  have hget : ∀ x s, I.get x = some s → ∃ r, g.lookup x = some r ∧ x ∉ M1 ∧ StartSet M2 x (setAdd [] r.rhs.lefts) s := by
    intro x s hx
    rcases f2 x s hx with hx | ⟨lefts, hl, hss⟩
    · simp [Map.get] at hx
    · have := (Map.mem_iff T2.nodup).mp ((ord.ok _ _).mem_iff.mp hl)
      rw [T2.get] at this
      split at this
      · cases this
      · next hx1 =>
        cases hr : g.lookup x with
        | none => rw [hr] at this; cases this
        | some r =>
          rw [hr] at this
          injection this with this
          have this : setAdd [] r.rhs.lefts = lefts := this
          exact ⟨r, rfl, hx1, this ▸ hss⟩
  have hkey : ∀ x, x ∈ I.keys ↔ g.Flagged x := by
    intro x
    constructor
    · intro hx
      obtain ⟨s, hs⟩ := Map.get_some_of_key hx
      obtain ⟨r, hr, _, _, ⟨y, hy, hyM⟩, _⟩ := hget x s hs
      refine Classical.byContradiction fun hf => ?_
      have := (DGrammar.ends_iff ⟨r, hr⟩).mpr hf
      exact hyM ((hM y).mpr (this.inv.2 y ⟨r, hr, mem_add.mp hy⟩))
    · intro hf
      have hf0 := hf
      obtain ⟨⟨r, hr⟩, _⟩ := hf
      have hx2 : x ∉ M2 := fun h => ((hM x).mp h).not_flagged hf0
      have hx1 : x ∉ M1 := fun h => hx2 ((k3 x).mpr (.base h))
      refine f3 x (Or.inr ⟨setAdd [] r.rhs.lefts, (ord.ok _ _).mem_iff.mpr ((Map.mem_iff T2.nodup).mpr ?_), ?_⟩)
      · rw [T2.get, if_neg hx1, hr]; rfl
      · refine Classical.byContradiction fun hn => hx2 ((hM x).mpr (.mk hr fun y hy => (hM y).mp ?_))
        exact Classical.byContradiction fun hyM => hn ⟨y, mem_add.mpr hy, hyM⟩
  have hset : ∀ x s, I.get x = some s → ∀ y, y ∈ s ↔ y = x ∨ (g.Left x y ∧ ¬ g.Ends y) := by
    intro x s hx y
    obtain ⟨r, hr, _, _, _, h3⟩ := hget x s hx
    rw [h3, mem_add, hM]
    constructor
    · rintro (h | ⟨h, h'⟩)
      · exact Or.inl h
      · exact Or.inr ⟨⟨r, hr, h⟩, h'⟩
    · rintro (h | ⟨⟨r', hr', h⟩, h'⟩)
      · exact Or.inl h
      · cases hr.symm.trans hr'
        exact Or.inr ⟨h, h'⟩
  have hkn : I.keys.Nodup := f1 List.nodup_nil
  -- the whole computation
  have e0 : ∀ n, leftRecursionRules tree src ord n = (walkNodeChildren tree src n nd .empty >>= fun t =>
      markLoop ord 1 t.referenced n none 0 t.notLR >>= fun M1 =>
      leftMostOfAll tree src ord n { t with notLR := M1 } >>= fun t =>
      markLoop ord 3 t.leftMost n none 0 t.notLR >>= fun M2 =>
      mergeLoop ord n none 0 (createInvolvedSets ord { t with notLR := M2 }).involved) := by
    intro n
    unfold leftRecursionRules RuleCallTree.build
    rw [h1, Out.bind_ok]
    cases walkNodeChildren tree src n nd .empty with
    | oof => rfl
    | panic p => rfl
    | ok t =>
      simp only [Out.bind_ok]
      cases markLoop ord 1 t.referenced n none 0 t.notLR with
      | oof => rfl
      | panic p => rfl
      | ok M1 =>
        simp only [Out.bind_ok]
        cases leftMostOfAll tree src ord n { t with notLR := M1 } with
        | oof => rfl
        | panic p => rfl
        | ok t =>
          simp only [Out.bind_ok]
          cases markLoop ord 3 t.leftMost n none 0 t.notLR with
          | oof => rfl
          | panic p => rfl
          | ok M2 =>
            simp only [Out.bind_ok]
            cases mergeLoop ord n none 0 (createInvolvedSets ord { t with notLR := M2 }).involved <;> rfl
  have whole : ∀ v, Conv (fun n => mergeLoop ord n none 0 I) v → Conv (fun n => leftRecursionRules tree src ord n) v := by
    intro v hv
    refine Conv.congr ?_ e0
    refine Conv.bind_ok hc ?_
    refine Conv.bind_ok c1 ?_
    refine Conv.bind_ok c2 ?_
    refine Conv.bind_ok c3 ?_
    refine hv.congr fun n => ?_
    rw [create_eq]
    show mergeLoop ord n none 0 ((ord.perm [4] m2).foldl (invStep ord M2) t.involved) = _
    rw [ht.involved, hI]
  by_cases hd : g.Dangling
  · refine Or.inl ⟨hd, whole _ (merge_panic ?_)⟩
    obtain ⟨x, y, hl, hy⟩ := hd
    obtain ⟨r, hr, hyl⟩ := id hl
    have hfx : g.Flagged x := ⟨⟨r, hr⟩, y, .step hl (.refl _), Or.inl hy⟩
    obtain ⟨s, hs⟩ := Map.get_some_of_key ((hkey x).mpr hfx)
    refine ⟨x, s, y, (Map.mem_iff hkn).mpr hs, (hset x s hs y).mpr (Or.inr ⟨hl, ?_⟩), fun hk => ?_⟩
    · intro he
      obtain ⟨r', hr'⟩ := he.inv.1
      rw [hy] at hr'; cases hr'
    · obtain ⟨⟨r', hr'⟩, _⟩ := (hkey y).mp hk
      rw [hy] at hr'; cases hr'
  · have hleft : ∀ x y, g.Left x y → ∃ r, g.lookup y = some r := by
      intro x y hl
      cases hy : g.lookup y with
      | some r => exact ⟨r, rfl⟩
      | none => exact absurd ⟨x, y, hl, hy⟩ hd
    have hset' : ∀ x s, I.get x = some s → ∀ y, y ∈ s ↔ y = x ∨ (g.Left x y ∧ g.Flagged y) := by
      intro x s hx y
      rw [hset x s hx]
      constructor
      · rintro (h | ⟨h, h'⟩)
        · exact Or.inl h
        · refine Or.inr ⟨h, Classical.byContradiction fun hf => h' ((DGrammar.ends_iff (hleft x y h)).mpr hf)⟩
      · rintro (h | ⟨h, h'⟩)
        · exact Or.inl h
        · exact Or.inr ⟨h, fun he => he.not_flagged h'⟩
    have hstart : Start I := ⟨hkn, fun x s hx => by
        obtain ⟨r, hr, _, hss⟩ := hget x s hx
        exact hss.1, fun x s hx y hy => by
        rcases (hset' x s hx y).mp hy with rfl | ⟨_, hf⟩
        · exact Map.key_of_get hx
        · exact (hkey y).mpr hf⟩
    obtain ⟨m, hm, hmc⟩ := merge_conv (ord := ord) hstart
    have hchain : ∀ x y, g.Flagged x → (Chain I x y ↔ g.Flagged y ∧ g.Leads x y) := by
      intro x y hfx
      constructor
      · intro h
        induction h with
        | @one x s y h0 hy =>
          rcases (hset' x s h0 y).mp hy with rfl | ⟨hl, hf⟩
          · exact ⟨hfx, .refl _⟩
          · exact ⟨hf, .step hl (.refl _)⟩
        | @step x s y z h0 hy _ ih =>
          rcases (hset' x s h0 y).mp hy with rfl | ⟨hl, hf⟩
          · exact ih hfx
          · exact ⟨(ih hf).1, .step hl (ih hf).2⟩
      · rintro ⟨hfy, hl⟩
        induction hl with
        | refl x =>
          obtain ⟨s, hs⟩ := Map.get_some_of_key ((hkey x).mpr hfx)
          exact .one hs ((hset' x s hs x).mpr (Or.inl rfl))
        | @step x z y hl hly ih =>
          obtain ⟨s, hs⟩ := Map.get_some_of_key ((hkey x).mpr hfx)
          have hfz : g.Flagged z := hly.flagged (hleft x z hl) hfy
          exact .step hs ((hset' x s hs z).mpr (Or.inr ⟨hl, hfz⟩)) (ih hfz hfy)
    refine Or.inr ⟨hd, m, ⟨fun x => ?_, hm.nodup, fun x s hx y => ?_⟩, whole _ hmc⟩
    · rw [← hkey, ← hm.keys]
      exact ⟨fun ⟨s, h⟩ => Map.key_of_get h, fun h => Map.get_some_of_key h⟩
    · rw [hm.mem x s hx]
      exact hchain x y ((hkey x).mp (hm.keys ▸ Map.key_of_get hx))

end PP.Gen
