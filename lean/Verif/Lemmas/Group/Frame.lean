import Verif.Lemmas.Group.TreeEval

/-! # What every run over trees leaves alone -/
set_option linter.unusedSectionVars false
namespace PP
variable {R : Type} [DecidableEq R]
variable {body : R → Expr R} {src : Source}

/-- Keys in the memo table are allocated. -/
def KeysOK (s : TSt R) : Prop := ∀ r p b q k, s.cache.memo r p = some (b, q, k) → k < s.next

/-- `s'` differs from `s` only in keys from `n0` on. -/
structure TFr (n0 : Nat) (s s' : TSt R) : Prop where
  next : s.next ≤ s'.next
  tree : ∀ j, j < n0 → s'.tree j = s.tree j
  memo : ∀ r p b q k, s'.cache.memo r p = some (b, q, k) → s.cache.memo r p = some (b, q, k) ∨ n0 ≤ k
  keys : KeysOK s'

theorem TFr.refl {n0 : Nat} {s : TSt R} (h : KeysOK s) : TFr n0 s s :=
  ⟨Nat.le_refl _, fun _ _ => rfl, fun _ _ _ _ _ h => Or.inl h, h⟩

theorem TFr.trans {n0 : Nat} {s s' s'' : TSt R} (h : TFr n0 s s') (h' : TFr n0 s' s'') : TFr n0 s s'' :=
  ⟨Nat.le_trans h.next h'.next, fun j hj => (h'.tree j hj).trans (h.tree j hj), fun r p b q k hm => by
    rcases h'.memo r p b q k hm with hm | hm
    · exact h.memo r p b q k hm
    · exact Or.inr hm, h'.keys⟩

theorem TFr.weaken {n0 n1 : Nat} {s s' : TSt R} (h : TFr n0 s s') (hn : n1 ≤ n0) : TFr n1 s s' :=
  ⟨h.next, fun j hj => h.tree j (by omega), fun r p b q k hm => (h.memo r p b q k hm).imp id (by omega), h.keys⟩

/-- the next step, whose own keys start later -/
theorem TFr.then {s s' s'' : TSt R} (h : TFr s.next s s') (h' : TFr s'.next s' s'') : TFr s.next s s'' :=
  h.trans (h'.weaken h.next)

/-- the trees of keys obtained before the second step -/
theorem TFr.map {s s' : TSt R} (h : TFr s.next s s') {ks : List Nat} (hk : ∀ k ∈ ks, k < s.next) :
    ks.map s'.tree = ks.map s.tree := List.map_congr_left fun k hk' => h.tree k (hk k hk')

theorem TFr.put {n0 : Nat} {s s' : TSt R} {r p b q k ks} (h : TFr n0 s s') (hk : n0 ≤ k) (hk' : k < s'.next) :
    TFr n0 s (s'.put r p b q k ks) := by
  refine ⟨h.next, fun j hj => ?_, fun r' p' b' q' k' hm => ?_, fun r' p' b' q' k' hm => ?_⟩
  · simp only [TSt.put, TSt.setTree]
    rw [if_neg (by omega)]
    exact h.tree j hj
  · simp only [TSt.put, Cache.insert] at hm
    split at hm
    · simp only [Option.some.injEq, Prod.mk.injEq] at hm
      exact Or.inr (by omega)
    · exact h.memo _ _ _ _ _ hm
  · simp only [TSt.put, Cache.insert] at hm
    split at hm
    · simp only [Option.some.injEq, Prod.mk.injEq] at hm
      simp only [TSt.put, TSt.setTree]
      omega
    · exact h.keys _ _ _ _ _ hm

theorem TPick.fr {n0 : Nat} {r : R} {p ck b0 q0 ks} {s s1 s2 : TSt R} {ck' b q} (h : TFr n0 s s1) (hck : n0 ≤ ck)
    (hck' : ck < s1.next) (hp : TPick r p ck b0 q0 ks s1 ck' b q s2) :
    TFr n0 s s2 ∧ ck' < s2.next ∧ s2.cache = s1.cache ∧ s2.next = s1.next := by
  cases hp with
  | own hm =>
    refine ⟨⟨h.next, fun j hj => ?_, h.memo, h.keys⟩, hck', rfl, rfl⟩
    simp only [TSt.setTree]
    rw [if_neg (by omega)]
    exact h.tree j hj
  | memo hm => exact ⟨h, h.keys _ _ _ _ _ hm, rfl, rfl⟩

theorem TFr.cache {n0 : Nat} {s s' : TSt R} (h : TFr n0 s s') {c : Cache R} (hc : c.memo = s'.cache.memo) :
    TFr n0 s { s' with cache := c } :=
  ⟨h.next, h.tree, fun r p b q k hm => by rw [show c.memo = s'.cache.memo from hc] at hm; exact h.memo _ _ _ _ _ hm,
    fun r p b q k hm => h.keys r p b q k (by rw [← hc]; exact hm)⟩

theorem tfr_all : ∀ n : Nat,
    (∀ e pre p (s : TSt R) b q ks s', TEv body src n e pre p s b q ks s' → KeysOK s →
      TFr s.next s s' ∧ s'.cache.active = s.cache.active ∧ ∀ k ∈ ks, k < s'.next) ∧
    (∀ r p prev last lk ck (s : TSt R) b q k s', TGrow body src n r p prev last lk ck s b q k s' → KeysOK s →
      ∀ n0 s0, TFr n0 s0 s → (n0 ≤ lk ∨ s0.cache.memo r p = some (last.1, last.2, lk)) → n0 ≤ ck → lk < s.next → ck < s.next →
      TFr n0 s0 s' ∧ s'.cache.active = prev ∧ k < s'.next) := by
  intro n
  induction n using Nat.strongRecOn with
  | _ n ih =>
  have two : ∀ {m1 m2 : Nat} {a c : Expr R} {pre pre' p p' b b' q q' ks ks'} {s s1 s' : TSt R}, m1 < n → m2 < n →
      TEv body src m1 a pre p s b q ks s1 → TEv body src m2 c pre' p' s1 b' q' ks' s' → KeysOK s →
      TFr s.next s s' ∧ s'.cache.active = s.cache.active ∧ ∀ k ∈ ks ++ ks', k < s'.next := by
    intro m1 m2 a c pre pre' p p' b b' q q' ks ks' s s1 s' h1 h2 e1 e2 hk
    obtain ⟨i1, i2, i3⟩ := (ih m1 h1).1 _ _ _ _ _ _ _ _ e1 hk
    obtain ⟨j1, j2, j3⟩ := (ih m2 h2).1 _ _ _ _ _ _ _ _ e2 i1.keys
    refine ⟨i1.then j1, j2.trans i2, fun k hk => ?_⟩
    rcases List.mem_append.mp hk with hk | hk
    · have := i3 k hk
      have := j1.next
      omega
    · exact j3 k hk
  refine ⟨?_, ?_⟩
  · intro e pre p s b q ks s' h hk
    cases h with
    | terminal h | string h | range h => exact ⟨.refl hk, rfl, by simp⟩
    | andP hm h | notP hm h | opt_some hm h | opt_none hm h | sub_ok hm h | sub_fail hm h | seq_fail1 hm h
    | choice_left hm h | star_stop hm h | plus_fail hm h | inl hm h => exact (ih _ hm).1 _ _ _ _ _ _ _ _ h hk
    | seq_fail2 h1 h2 e1 e2 | seq_ok h1 h2 e1 e2 | choice_right h1 h2 e1 e2 | choice_fail h1 h2 e1 e2
    | star_step h1 h2 e1 e2 | plus_ok h1 h2 e1 e2 => exact two h1 h2 e1 e2 hk
    | ref_hit hm => exact ⟨.refl hk, rfl, by simpa using hk _ _ _ _ _ hm⟩
    | ref_miss hm hn h =>
      have hk0 : KeysOK { s with next := s.next + 1 } := fun r p b q k h => Nat.lt_succ_of_lt (hk r p b q k h)
      obtain ⟨i1, i2, i3⟩ := (ih _ hm).1 _ _ _ _ _ _ _ _ h hk0
      have hnx := i1.next
      have i1' := i1.weaken (Nat.le_succ s.next)
      have j : TFr s.next s _ := ⟨Nat.le_trans (Nat.le_succ _) i1'.next, i1'.tree, i1'.memo, i1'.keys⟩
      refine ⟨j.put (Nat.le_refl _) (Nat.lt_of_succ_le hnx), i2, ?_⟩
      simpa [TSt.put, TSt.setTree] using Nat.lt_of_succ_le hnx
    | @lr_eval _ m inv r A pa hh _ _ _ _ _ ks0 s0 hm ha hh1 hor hmem h =>
      have hk0 : KeysOK (TSt.mk (s.cache.putHead A pa { hh with evalSet := hh.evalSet.filter (· ≠ r) }) s.tree (s.next + 1)) :=
        fun r p b q k h => Nat.lt_succ_of_lt (hk r p b q k h)
      obtain ⟨i1, i2, i3⟩ := (ih _ hm).1 _ _ _ _ _ _ _ _ h hk0
      have hnx := i1.next
      have i1' := i1.weaken (Nat.le_succ s.next)
      have j : TFr s.next s s0 := ⟨Nat.le_trans (Nat.le_succ _) i1'.next, i1'.tree, i1'.memo, i1'.keys⟩
      refine ⟨j.put (Nat.le_refl _) (Nat.lt_of_succ_le hnx), i2, ?_⟩
      simpa [TSt.put, TSt.setTree] using Nat.lt_of_succ_le hnx
    | lr_memo ha hh hor hmem hm =>
      refine ⟨.refl hk, rfl, fun k hk' => ?_⟩
      split at hk'
      · cases hk'
      · simp only [List.mem_singleton] at hk'
        subst hk'
        exact hk _ _ _ _ _ hm
    | lr_none => exact ⟨.refl hk, rfl, by simp⟩
    | @lr_grow _ m inv r _ _ _ _ _ k s0 hm hno h =>
      have hk0 : KeysOK (s.startGrowth inv r p) := fun r p b q k h => by
        have := hk r p b q k h
        simp only [TSt.startGrowth]
        omega
      obtain ⟨i1, i2, i3⟩ := (ih _ hm).2 _ _ _ _ _ _ _ _ _ _ _ h hk0 s.next s ⟨by simp [TSt.startGrowth], fun j hj => by
          simp only [TSt.startGrowth, TSt.setTree]
          rw [if_neg (by omega)], fun r p b q k hm => Or.inl hm, hk0⟩ (Or.inl (Nat.le_refl _)) (Nat.le_succ _)
        (by simp [TSt.startGrowth]) (by simp [TSt.startGrowth])
      exact ⟨i1, i2, by simpa using i3⟩
  · intro r p prev last lk ck s b q k s' h hk n0 s0 hf hlk hck hlk' hck'
    have round : ∀ {m hh b0 q0 ks s1}, m < n → TEv body src m (body r) [] p
        { s with cache := s.cache.putHead r p hh } b0 q0 ks s1 → TFr n0 s0 s1 ∧ s.next ≤ s1.next := by
      intro m hh b0 q0 ks s1 hm h
      obtain ⟨i1, i2, i3⟩ := (ih _ hm).1 _ _ _ _ _ _ _ _ h (fun r p b q k h => hk r p b q k h)
      have i1' := i1.weaken (n1 := n0) (by simp only; omega)
      exact ⟨hf.trans ⟨i1'.next, i1'.tree, i1'.memo, i1'.keys⟩, i1.next⟩
    cases h with
    | stop hm hh h hp hs =>
      obtain ⟨i1, i2⟩ := round hm h
      obtain ⟨j1, j2, j3, j4⟩ := hp.fr i1 hck (by omega)
      refine ⟨⟨j1.next, j1.tree, fun r' p' b' q' k' hm => ?_, fun r' p' b' q' k' hm => ?_⟩, rfl, ?_⟩
      · simp only [TSt.endGrowth, Cache.insert, Cache.setActive] at hm
        split at hm
        · next heq =>
          simp only [Option.some.injEq, Prod.mk.injEq] at hm
          obtain ⟨rfl, rfl, rfl⟩ := hm
          obtain ⟨rfl, rfl⟩ := heq
          exact hlk.symm
        · exact j1.memo _ _ _ _ _ hm
      · simp only [TSt.endGrowth, Cache.insert, Cache.setActive] at hm
        split at hm
        · simp only [Option.some.injEq, Prod.mk.injEq] at hm
          simp only [TSt.endGrowth]
          omega
        · exact j1.keys _ _ _ _ _ hm
      · simp only [TSt.endGrowth]; omega
    | @step _ m1 m2 _ _ _ _ _ _ _ hh b0 q0 ks s1 ck' q2 s2 _ _ _ _ hm1 hm2 hh1 h hp hs hg =>
      obtain ⟨i1, i2⟩ := round hm1 h
      obtain ⟨j1, j2, j3, j4⟩ := hp.fr i1 hck (by omega)
      have hk2 : KeysOK { s2 with next := s2.next + 1 } := fun r p b q k h => Nat.lt_succ_of_lt (j1.keys r p b q k h)
      have hlk2 : n0 ≤ ck' ∨ s0.cache.memo r p = some (true, q2, ck') := by
        cases hp with
        | own => exact Or.inl hck
        | memo hm => exact (i1.memo _ _ _ _ _ hm).symm
      refine (ih _ hm2).2 _ _ _ _ _ _ _ _ _ _ _ hg hk2 n0 s0 ?_ hlk2 ?_ (Nat.lt_succ_of_lt j2) (Nat.lt_succ_self _)
      · exact ⟨Nat.le_trans j1.next (Nat.le_succ _), j1.tree, j1.memo, hk2⟩
      · omega

/-- A run over trees leaves earlier keys alone. -/
theorem TEv.fr {n e pre p} {s s' : TSt R} {b q ks} (h : TEv body src n e pre p s b q ks s') (hk : KeysOK s) :
    TFr s.next s s' := ((tfr_all n).1 _ _ _ _ _ _ _ _ h hk).1

theorem TEv.active {n e pre p} {s s' : TSt R} {b q ks} (h : TEv body src n e pre p s b q ks s') (hk : KeysOK s) :
    s'.cache.active = s.cache.active := ((tfr_all n).1 _ _ _ _ _ _ _ _ h hk).2.1

theorem TEv.kids {n e pre p} {s s' : TSt R} {b q ks} (h : TEv body src n e pre p s b q ks s') (hk : KeysOK s) :
    ∀ k ∈ ks, k < s'.next := ((tfr_all n).1 _ _ _ _ _ _ _ _ h hk).2.2

end PP
