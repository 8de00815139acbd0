import Verif.Lemmas.Group.Loop

/-! # Start rules: from the idle state to the first growth -/
set_option linter.unusedSectionVars false
namespace PP
variable {R : Type} [DecidableEq R]
variable {body : R → Expr R} {role : R → Role R} {src : Source}

/-- Expressions without left-recursive references touch no growth. -/
theorem TEv.heads_eq : ∀ (n : Nat) {e : Expr R} {pre p s b q ks s'}, TEv body src n e pre p s b q ks s' →
    (∀ B, ¬ CallsLR body e B) → s'.cache.heads = s.cache.heads := by
  intro n
  induction n using Nat.strongRecOn with
  | _ n ih =>
  intro e pre p s b q ks s' h hno
  cases h with
  | terminal _ | string _ | range _ => rfl
  | andP hm h1 => exact ih _ hm h1 fun B hB => hno B (.andP hB)
  | notP hm h1 => exact ih _ hm h1 fun B hB => hno B (.notP hB)
  | opt_some hm h1 | opt_none hm h1 => exact ih _ hm h1 fun B hB => hno B (.opt hB)
  | sub_ok hm h1 | sub_fail hm h1 => exact ih _ hm h1 fun B hB => hno B (.sub hB)
  | seq_fail1 hm h1 => exact ih _ hm h1 fun B hB => hno B (.fst hB)
  | seq_fail2 hm1 hm2 h1 h2 | seq_ok hm1 hm2 h1 h2 =>
    exact (ih _ hm2 h2 fun B hB => hno B (.snd hB)).trans (ih _ hm1 h1 fun B hB => hno B (.fst hB))
  | choice_left hm h1 => exact ih _ hm h1 fun B hB => hno B (.left hB)
  | choice_right hm1 hm2 h1 h2 | choice_fail hm1 hm2 h1 h2 =>
    exact (ih _ hm2 h2 fun B hB => hno B (.right hB)).trans (ih _ hm1 h1 fun B hB => hno B (.left hB))
  | star_stop hm h1 => exact ih _ hm h1 fun B hB => hno B (.star hB)
  | star_step hm1 hm2 h1 h2 => exact (ih _ hm2 h2 hno).trans (ih _ hm1 h1 fun B hB => hno B (.star hB))
  | plus_fail hm h1 => exact ih _ hm h1 fun B hB => hno B (.plus hB)
  | plus_ok hm1 hm2 h1 h2 =>
    refine (ih _ hm2 h2 fun B hB => ?_).trans (ih _ hm1 h1 fun B hB => hno B (.plus hB))
    cases hB with
    | star hB => exact hno B (.plus hB)
  | inl hm h1 => exact ih _ hm h1 fun B hB => hno B (.inl hB)
  | ref_hit _ => rfl
  | ref_miss hm _ h1 =>
    have := ih _ hm h1 fun B hB => hno B (.ref hB)
    exact this
  | lr_eval _ _ _ _ _ _ | lr_memo _ _ _ _ _ | lr_none _ _ _ _ _ | lr_grow _ _ _ => exact absurd .lr (hno _)

/-- Idle, and nothing grown so far. -/
structure Fresh (body : R → Expr R) (role : R → Role R) (src : Source) (s : TSt R) : Prop where
  ok : GOK body role src [] s
  active : s.cache.active = none
  heads : ∀ r p, s.cache.heads r p = none

theorem gsolo (hG : GroupLR body role) : ∀ (n : Nat) {e : Expr R} {pre p s b q ks s'}, Solo body e → e.GRefs role →
    Fresh body role src s → (∀ k ∈ pre, k < s.next) → TEv body src n e pre p s b q ks s' →
    GT body role src (pre.map s.tree) e p b q (ks.map s'.tree) ∧ GOK body role src [] s' := by
  intro n
  induction n using Nat.strongRecOn with
  | _ n ih =>
  intro e pre p s b q ks s' hso he hf hpre h
  have none_ : ∀ {m e pre p s b q ks s'}, (∀ B, ¬ CallsLR body e B) → e.GRefs role → GOK body role src [] s →
      s.cache.active = none → (∀ k ∈ pre, k < s.next) → TEv body src m e pre p s b q ks s' →
      GT body role src (pre.map s.tree) e p b q (ks.map s'.tree) ∧ GOK body role src [] s' := by
    intro m e pre p s b q ks s' hno he ho hact hpre h
    obtain ⟨h1, h2, _⟩ := gclaim_all hG m e [] pre p s b q ks s' he ho (by simp [GSafe])
      (fun A pa ha => by rw [hact] at ha; cases ha) (fun _ => hno) hpre h
    exact ⟨h1, h2⟩
  have app : ∀ {m e1 ks1 s1 b1 q1}, TEv body src m e1 pre p s b1 q1 ks1 s1 → ∀ k ∈ pre ++ ks1, k < s1.next := by
    intro m e1 ks1 s1 b1 q1 h1 k hk
    rcases List.mem_append.mp hk with hk | hk
    · exact Nat.lt_of_lt_of_le (hpre k hk) (h1.fr hf.ok.keys).next
    · exact h1.kids hf.ok.keys k hk
  have pm : ∀ {m e1 ks1 s1 b1 q1}, TEv body src m e1 pre p s b1 q1 ks1 s1 →
      (pre ++ ks1).map s1.tree = pre.map s.tree ++ ks1.map s1.tree := by
    intro m e1 ks1 s1 b1 q1 h1
    rw [List.map_append, (h1.fr hf.ok.keys).map hpre]
  have km : ∀ {m m' e1 e2 pre' p' ks1 s1 b1 q1 ks2 s2 b2 q2}, TEv body src m e1 pre p s b1 q1 ks1 s1 → KeysOK s1 →
      TEv body src m' e2 pre' p' s1 b2 q2 ks2 s2 → (ks1 ++ ks2).map s2.tree = ks1.map s1.tree ++ ks2.map s2.tree := by
    intro m m' e1 e2 pre' p' ks1 s1 b1 q1 ks2 s2 b2 q2 h1 ho1 h2
    rw [List.map_append, (h2.fr ho1).map (h1.kids hf.ok.keys)]
  have act : ∀ {m e1 ks1 s1 b1 q1}, TEv body src m e1 pre p s b1 q1 ks1 s1 → s1.cache.active = none :=
    fun h1 => (h1.active hf.ok.keys).trans hf.active
  -- both parts of a sequence or choice
  have pairL : ∀ {m1 m2 a c b1 q1 b2 p2 q2 ks1 ks2 s1 s2}, m1 < n → Solo body a → a.GRefs role → (∀ B, ¬ CallsLR body c B) →
      c.GRefs role → TEv body src m1 a pre p s b1 q1 ks1 s1 → TEv body src m2 c (pre ++ ks1) p2 s1 b2 q2 ks2 s2 →
      GT body role src (pre.map s.tree) a p b1 q1 (ks1.map s1.tree) ∧
      GT body role src (pre.map s.tree ++ ks1.map s1.tree) c p2 b2 q2 (ks2.map s2.tree) ∧ GOK body role src [] s2 ∧
      (ks1 ++ ks2).map s2.tree = ks1.map s1.tree ++ ks2.map s2.tree := by
    intro m1 m2 a c b1 q1 b2 p2 q2 ks1 ks2 s1 s2 hm1 ha har hc hcr h1 h2
    obtain ⟨g1, g2⟩ := ih m1 hm1 ha har hf hpre h1
    obtain ⟨i1, i2⟩ := none_ hc hcr g2 (act h1) (app h1) h2
    rw [pm h1] at i1
    exact ⟨g1, i1, i2, km h1 g2.keys h2⟩
  have pairR : ∀ {m1 m2 a c b1 q1 b2 p2 q2 ks1 ks2 s1 s2}, m2 < n → (∀ B, ¬ CallsLR body a B) → a.GRefs role → Solo body c →
      c.GRefs role → TEv body src m1 a pre p s b1 q1 ks1 s1 → TEv body src m2 c (pre ++ ks1) p2 s1 b2 q2 ks2 s2 →
      GT body role src (pre.map s.tree) a p b1 q1 (ks1.map s1.tree) ∧
      GT body role src (pre.map s.tree ++ ks1.map s1.tree) c p2 b2 q2 (ks2.map s2.tree) ∧ GOK body role src [] s2 ∧
      (ks1 ++ ks2).map s2.tree = ks1.map s1.tree ++ ks2.map s2.tree := by
    intro m1 m2 a c b1 q1 b2 p2 q2 ks1 ks2 s1 s2 hm2 ha har hc hcr h1 h2
    obtain ⟨g1, g2⟩ := none_ ha har hf.ok hf.active hpre h1
    obtain ⟨i1, i2⟩ := ih m2 hm2 hc hcr ⟨g2, act h1, fun r p => by rw [h1.heads_eq _ ha]; exact hf.heads r p⟩ (app h1) h2
    rw [pm h1] at i1
    exact ⟨g1, i1, i2, km h1 g2.keys h2⟩
  cases hso with
  | none hno => exact none_ hno he hf.ok hf.active hpre h
  | sub hso =>
    cases h with
    | sub_ok hm h1 => obtain ⟨g1, g2⟩ := ih _ hm hso he hf hpre h1; exact ⟨.sub_ok g1, g2⟩
    | sub_fail hm h1 => obtain ⟨g1, g2⟩ := ih _ hm hso he hf hpre h1; exact ⟨.sub_fail g1, g2⟩
  | opt hso =>
    cases h with
    | opt_some hm h1 => obtain ⟨g1, g2⟩ := ih _ hm hso he hf hpre h1; exact ⟨.opt_some g1, g2⟩
    | opt_none hm h1 => obtain ⟨g1, g2⟩ := ih _ hm hso he hf hpre h1; exact ⟨.opt_none g1, g2⟩
  | andP hso =>
    cases h with
    | andP hm h1 =>
      obtain ⟨g1, g2⟩ := ih _ hm hso he hf hpre h1
      cases b with
      | true => exact ⟨.and_ok g1, g2⟩
      | false => exact ⟨.and_fail g1, g2⟩
  | notP hso =>
    cases h with
    | @notP _ _ _ _ _ _ b0 _ _ _ hm h1 =>
      obtain ⟨g1, g2⟩ := ih _ hm hso he hf hpre h1
      cases b0 with
      | true => exact ⟨.not_fail g1, g2⟩
      | false => exact ⟨.not_ok g1, g2⟩
  | fst hso hno =>
    cases h with
    | seq_fail1 hm h1 => obtain ⟨g1, g2⟩ := ih _ hm hso he.1 hf hpre h1; exact ⟨.seq_fail1 g1, g2⟩
    | seq_fail2 hm1 hm2 h1 h2 =>
      obtain ⟨g1, g2, g3, g4⟩ := pairL hm1 hso he.1 hno he.2 h1 h2
      rw [g4]; exact ⟨.seq_fail2 g1 g2, g3⟩
    | seq_ok hm1 hm2 h1 h2 =>
      obtain ⟨g1, g2, g3, g4⟩ := pairL hm1 hso he.1 hno he.2 h1 h2
      rw [g4]; exact ⟨.seq_ok g1 g2, g3⟩
  | snd hno hso =>
    cases h with
    | seq_fail1 hm h1 => obtain ⟨g1, g2⟩ := none_ hno he.1 hf.ok hf.active hpre h1; exact ⟨.seq_fail1 g1, g2⟩
    | seq_fail2 hm1 hm2 h1 h2 =>
      obtain ⟨g1, g2, g3, g4⟩ := pairR hm2 hno he.1 hso he.2 h1 h2
      rw [g4]; exact ⟨.seq_fail2 g1 g2, g3⟩
    | seq_ok hm1 hm2 h1 h2 =>
      obtain ⟨g1, g2, g3, g4⟩ := pairR hm2 hno he.1 hso he.2 h1 h2
      rw [g4]; exact ⟨.seq_ok g1 g2, g3⟩
  | left hso hno =>
    cases h with
    | choice_left hm h1 => obtain ⟨g1, g2⟩ := ih _ hm hso he.1 hf hpre h1; exact ⟨.choice_left g1, g2⟩
    | choice_right hm1 hm2 h1 h2 =>
      obtain ⟨g1, g2, g3, g4⟩ := pairL hm1 hso he.1 hno he.2 h1 h2
      rw [g4]; exact ⟨.choice_right g1 g2, g3⟩
    | choice_fail hm1 hm2 h1 h2 =>
      obtain ⟨g1, g2, g3, g4⟩ := pairL hm1 hso he.1 hno he.2 h1 h2
      rw [g4]; exact ⟨.choice_fail g1 g2, g3⟩
  | right hno hso =>
    cases h with
    | choice_left hm h1 => obtain ⟨g1, g2⟩ := none_ hno he.1 hf.ok hf.active hpre h1; exact ⟨.choice_left g1, g2⟩
    | choice_right hm1 hm2 h1 h2 =>
      obtain ⟨g1, g2, g3, g4⟩ := pairR hm2 hno he.1 hso he.2 h1 h2
      rw [g4]; exact ⟨.choice_right g1 g2, g3⟩
    | choice_fail hm1 hm2 h1 h2 =>
      obtain ⟨g1, g2, g3, g4⟩ := pairR hm2 hno he.1 hso he.2 h1 h2
      rw [g4]; exact ⟨.choice_fail g1 g2, g3⟩
  | @inl r hso =>
    cases h with
    | inl hm h1 =>
      have hr : role r = .plain := he
      obtain ⟨g1, g2⟩ := ih _ hm hso (hG.refs r hr) hf hpre h1
      exact ⟨.inl g1, g2⟩
  | @ref r hso =>
    cases h with
    | @ref_hit _ _ _ _ _ _ _ k hm =>
      have hr : role r = .plain := he
      have := hf.ok.memo r p b q k (by simp) hm
      simp only [MOK, hr] at this
      refine ⟨?_, hf.ok⟩
      simp only [List.map_cons, List.map_nil]
      generalize s.tree k = t at this
      cases this with
      | ref h => exact .ref h
    | @ref_miss _ m _ _ _ _ _ _ ks0 s0 hm hmm h1 =>
      have hr : role r = .plain := he
      obtain ⟨g1, g2⟩ := ih m hm hso (hG.refs r hr) (s := { s with next := s.next + 1 })
        ⟨hf.ok.alloc 1, hf.active, hf.heads⟩ (by simp) h1
      have hfr := h1.fr (hf.ok.alloc 1).keys
      have hfresh := alloc_fresh (s := s) (by rfl) hf.ok.keys hfr
      have hnx : s.next < s0.next := hfr.next
      have hgt : ∀ pre', GT body role src pre' (.varName r) p b q [Tree.mk r p b q (ks0.map s0.tree)] :=
        fun _ => .ref (by simpa using g1)
      refine ⟨?_, g2.put hnx hfresh (fun _ => by simp only [MOK, hr]; exact hgt []) (fun d hd => by rw [hr] at hd; cases hd)
        (fun A hA => by rw [hr] at hA; cases hA)⟩
      simp only [List.map_cons, List.map_nil, put_tree_self]
      exact hgt _
  | @lr inv r =>
    cases h with
    | lr_eval _ ha _ _ _ _ => rw [hf.active] at ha; cases ha
    | lr_memo ha _ _ _ _ => rw [hf.active] at ha; cases ha
    | lr_none ha _ _ _ _ => rw [hf.active] at ha; cases ha
    | @lr_grow _ m _ _ _ _ _ _ _ k _ hm hno h1 =>
      obtain ⟨d, hd, rfl⟩ := he
      obtain ⟨g1, g2, g3⟩ := ggrow (N := n) (fun n' _ => gclaim_all hG n') hG hd (by simp [GSafe]) (n := m) (by omega) hf.ok
        (hf.heads r p) h1
      exact ⟨g1.unpre _, g2⟩

end PP
