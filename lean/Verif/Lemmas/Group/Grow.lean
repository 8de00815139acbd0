import Verif.Lemmas.Group.GroupLR

/-! # One round of growth -/
set_option linter.unusedSectionVars false
namespace PP
variable {R : Type} [DecidableEq R]
variable {body : R → Expr R} {role : R → Role R} {src : Source}

section HT
variable {N : Nat} (hC : ∀ n, n < N → GClaim body role src n) (hG : GroupLR body role)
variable {A : R} {d : LRDecl R} (hd : role A = .head d) {p : Nat} {stk : List (R × Nat)} (hpos : ∀ x ∈ stk, x.2 ≤ p)

/-- A reference to a rule of the group while it is grown: evaluated or answered from the memo table. -/
theorem ref_cases {s : TSt R} (ha : s.cache.active = some (A, p)) {h : Head R} (hh : s.cache.heads A p = some h) {r : R}
    (hr : s.cache.heads r p ≠ none ∨ r ∈ h.involved) {inv n pre b q ks s'}
    (he : TEv body src n (.varNameLR inv r) pre p s b q ks s') :
    (∃ m ks0 s0, m < n ∧ r ∈ h.evalSet ∧ TEv body src m (body r) [] p
      { s with next := s.next + 1, cache := s.cache.putHead A p { h with evalSet := h.evalSet.filter (· ≠ r) } } b q ks0 s0 ∧
      ks = [s.next] ∧ s' = s0.put r p b q s.next ks0) ∨
    (∃ k, r ∉ h.evalSet ∧ s.cache.memo r p = some (b, q, k) ∧ ks = (if k ∈ pre then [] else [k]) ∧ s' = s) ∨
    (r ∉ h.evalSet ∧ s.cache.memo r p = none ∧ b = false ∧ q = p ∧ ks = [] ∧ s' = s) := by
  cases he with
  | lr_eval hm ha' hh' _ hin hev =>
    rw [ha] at ha'
    simp only [Option.some.injEq, Prod.mk.injEq] at ha'
    obtain ⟨rfl, rfl⟩ := ha'
    rw [hh] at hh'
    cases hh'
    exact Or.inl ⟨_, _, _, hm, hin, hev, rfl, rfl⟩
  | lr_memo ha' hh' _ hin hm =>
    rw [ha] at ha'
    simp only [Option.some.injEq, Prod.mk.injEq] at ha'
    obtain ⟨rfl, rfl⟩ := ha'
    rw [hh] at hh'
    cases hh'
    exact Or.inr (Or.inl ⟨_, hin, hm, rfl, rfl⟩)
  | lr_none ha' hh' _ hin hm =>
    rw [ha] at ha'
    simp only [Option.some.injEq, Prod.mk.injEq] at ha'
    obtain ⟨rfl, rfl⟩ := ha'
    rw [hh] at hh'
    cases hh'
    exact Or.inr (Or.inr ⟨hin, hm, rfl, rfl, rfl, rfl⟩)
  | lr_grow _ hno _ =>
    obtain ⟨h1, h', h2, h3⟩ := hno A p ha
    rw [hh] at h2
    cases h2
    rcases hr with hr | hr
    · exact absurd h1 hr
    · exact absurd hr h3

theorem G0.getHead {sd : Option (Nat × Tree R)} {s : TSt R} (hl : G0 body role src A p stk sd s) :
    ∃ h, s.cache.heads A p = some h ∧ ES s A p = h.evalSet := by
  cases hh : s.cache.heads A p with
  | none => exact absurd hh hl.head
  | some h => exact ⟨h, rfl, ES.eq hh⟩

theorem alloc_fresh {s : TSt R} {c : Cache R} (hc : c.memo = s.cache.memo) (hk : KeysOK s) {s0 : TSt R}
    (hf : TFr (s.next + 1) ⟨c, s.tree, s.next + 1⟩ s0) : ∀ r' p' b' q', s0.cache.memo r' p' ≠ some (b', q', s.next) := by
  intro r' p' b' q' hm
  rcases hf.memo _ _ _ _ _ hm with h | h
  · simp only [hc] at h
    exact absurd (hk _ _ _ _ _ h) (Nat.lt_irrefl _)
  · omega

include hd in
theorem member_ne {X : R} (hX : role X = .member A) : X ≠ A := by
  rintro rfl
  rw [hd] at hX; cases hX

include hC hG hd hpos in
/-- A recursive expression at level 0. -/
theorem gt0 (hnot : (A, p) ∉ stk) {ch : Bool} {e t : Expr R} {ms : List R} (hg : GTail body role d.involved A ch e t ms) :
    t.GRefs role → (∀ B, CallsLR body t B → CallsLR body d.tail B) → ∀ {n}, n ≤ N → ∀ {pre s b q ks s'} {sd},
    G0 body role src A p stk sd s → (∀ k ∈ pre, k < s.next) → TEv body src n e pre p s b q ks s' →
    G0 body role src A p stk sd s' ∧ HF role A p stk s s' ∧ (b = true → p < q) ∧
    ∀ pend, (pend = [] ∨ (ch = false ∧ ∀ x ∈ ms, x ∉ pend)) → CW body role src A d p pend s sd →
      CW body role src A d p pend s' sd ∧ HTV body role src A p sd (pre.map s.tree) e b q (ks.map s'.tree) := by
  induction hg with
  | @head ch =>
    intro _ _ n hn pre s b q ks s' sd hl hpre he
    obtain ⟨h, hh, hes⟩ := hl.getHead
    rcases ref_cases hl.active hh (Or.inl hl.head) he with ⟨m, ks0, s0, hm, hin, _⟩ | ⟨k, hin, hm, rfl, rfl⟩ |
      ⟨hin, hm, rfl, rfl, rfl, rfl⟩
    · exact absurd (hes ▸ hin) hl.es
    · cases sd with
      | none =>
        obtain ⟨rfl, hf⟩ := hl.am b q k hm
        refine ⟨hl, .refl, fun h => (by cases h), fun pend _ hcw => ⟨hcw, rfl, ?_⟩⟩
        split
        · simp
        · simpa using hf
      | some v =>
        obtain ⟨k', h1, h2, h3⟩ := hl.am
        rw [hm] at h1
        simp only [Option.some.injEq, Prod.mk.injEq] at h1
        obtain ⟨rfl, rfl, rfl⟩ := h1
        refine ⟨hl, .refl, fun _ => h3, fun pend _ hcw => ⟨hcw, ?_⟩⟩
        split
        · next hin => exact HV.head_dup (by rw [← h2]; exact List.mem_map_of_mem hin)
        · simp only [List.map_cons, List.map_nil, h2]
          exact HV.head
    · refine ⟨hl, .refl, fun h => (by cases h), fun pend _ hcw => ⟨hcw, ?_⟩⟩
      cases sd with
      | none => exact ⟨rfl, by simp⟩
      | some v =>
        obtain ⟨k', h1, _⟩ := hl.am
        rw [hm] at h1; cases h1
  | @member ch X t ms hX hXi hXms hg ih =>
    intro ht hcall n hn pre s b q ks s' sd hl hpre he
    obtain ⟨h, hh, hes⟩ := hl.getHead
    obtain ⟨d', hd', hinv, _⟩ := hl.ok.inv _ _ _ hh
    rw [hd] at hd'; cases hd'
    rcases ref_cases hl.active hh (Or.inr ((hinv X).mpr hXi)) he with ⟨m, ks0, s0, hm, hin, hev, rfl, rfl⟩ |
      ⟨k, hin, hm, rfl, rfl⟩ | ⟨hin, hm, rfl, rfl, rfl, rfl⟩
    · obtain ⟨hl1, hf1, hes1⟩ := hl.remove hnot hh X
      obtain ⟨i1, i2, i3, i4⟩ := ih ht hcall (n := m) (by omega) hl1 (by simp) hev
      have hfr := hev.fr hl1.ok.keys
      have hfresh := alloc_fresh (s := s) (by rfl) hl.ok.keys hfr
      have hnx : s.next < s0.next := hfr.next
      obtain ⟨j1, j2, j3⟩ := i1.putMember hnot hd hX (b := b) (q := q) (ks := ks0) hnx hfresh i3
      have hXs : X ∈ ES s A p := by rw [hes]; exact hin
      refine ⟨j1, ⟨hf1.trans (i2.fr.trans j2), j3.trans i2.memoA, fun x hx => ?_, fun Y hY hYn => ?_⟩, i3, fun pend hp hcw => ?_⟩
      · have := i2.es x hx
        rw [hes1] at this
        exact (List.mem_filter.mp this).1
      · have hYX : Y ≠ X := fun h => hYn (h ▸ hXs)
        rw [put_memo (fun h => hYX h.1)]
        exact i2.mem Y hY (by rw [hes1]; exact fun h => hYn (List.mem_filter.mp h).1)
      · obtain ⟨k1, k2⟩ := i4 (X :: pend) (Or.inr ⟨rfl, fun x hx hx' => by
          rcases List.mem_cons.mp hx' with rfl | hx'
          · exact hXms hx
          · rcases hp with rfl | ⟨_, hp⟩
            · cases hx'
            · exact hp x (List.mem_cons_of_mem _ hx) hx'⟩) (fun Y hY hYi hYn hYp => by
          have hYX : Y ≠ X := fun h => hYp (by simp [h])
          refine hcw Y hY hYi (fun hYe => hYn ?_) (fun h => hYp (List.mem_cons_of_mem _ h))
          rw [hes1]
          exact List.mem_filter.mpr ⟨hYe, by simpa using hYX⟩)
        refine ⟨fun Y hY hYi hYn hYp => ?_, ?_⟩
        · by_cases hYX : Y = X
          · subst hYX
            exact MC.self k2
          · exact (k1 Y hY hYi hYn (by simp [hYX, hYp])).put hYX hfresh
        · simp only [List.map_cons, List.map_nil, put_tree_self]
          exact HTV.member hX k2
    · refine ⟨hl, .refl, fun hb => ?_, fun pend hp hcw => ⟨hcw, ?_⟩⟩
      · subst hb; exact hl.pos X q k hX hm
      · refine HTV.memo hX (hcw X hX hXi (by rw [hes]; exact hin) ?_) hm
        rcases hp with rfl | ⟨_, hp⟩
        · simp
        · exact hp X (by simp)
    · refine ⟨hl, .refl, fun h => (by cases h), fun pend hp hcw => ⟨hcw, ?_⟩⟩
      cases sd with
      | none => exact ⟨rfl, by simp⟩
      | some v =>
        obtain ⟨b', q', k', us, h1, _⟩ := hcw X hX hXi (by rw [hes]; exact hin) (by
          rcases hp with rfl | ⟨_, hp⟩
          · simp
          · exact hp X (by simp))
        rw [hm] at h1; cases h1
  | @seq ch e t ms c hg ih =>
    intro ht hcall n hn pre s b q ks s' sd hl hpre he
    cases he with
    | seq_fail1 hm h1 =>
      obtain ⟨i1, i2, i3, i4⟩ := ih ht.1 (fun B hB => hcall B (.fst hB)) (by omega) hl hpre h1
      exact ⟨i1, i2, fun h => (by cases h), fun pend hp hcw => ⟨(i4 pend hp hcw).1, (i4 pend hp hcw).2.seq_fail1⟩⟩
    | @seq_fail2 _ m1 m2 _ _ _ _ _ q1 q2 ks1 ks2 s1 _ hm1 hm2 h1 h2 =>
      obtain ⟨i1, i2, i3, i4⟩ := ih ht.1 (fun B hB => hcall B (.fst hB)) (by omega) hl hpre h1
      have f1 := h1.fr hl.ok.keys
      have k1 := h1.kids hl.ok.keys
      have hpre' : ∀ k ∈ pre ++ ks1, k < s1.next := fun k hk => by
        rcases List.mem_append.mp hk with hk | hk
        · exact Nat.lt_of_lt_of_le (hpre k hk) f1.next
        · exact k1 k hk
      obtain ⟨j1, j2, j3, j4⟩ := tail_step hC hG hd hpos ht.2 (fun B hB => hcall B (.snd hB)) (by omega) (i3 rfl) i1 hpre' h2
      have f2 := h2.fr i1.ok.keys
      refine ⟨j2, i2.trans j3, fun h => (by cases h), fun pend hp hcw => ⟨((i4 pend hp hcw).1).mono i1.ok.keys f2 j3 j4, ?_⟩⟩
      rw [List.map_append, f1.map hpre] at j1
      rw [List.map_append, f2.map k1]
      exact (i4 pend hp hcw).2.seq j1
    | @seq_ok _ m1 m2 _ _ _ _ _ q1 q2 ks1 ks2 s1 _ hm1 hm2 h1 h2 =>
      obtain ⟨i1, i2, i3, i4⟩ := ih ht.1 (fun B hB => hcall B (.fst hB)) (by omega) hl hpre h1
      have f1 := h1.fr hl.ok.keys
      have k1 := h1.kids hl.ok.keys
      have hpre' : ∀ k ∈ pre ++ ks1, k < s1.next := fun k hk => by
        rcases List.mem_append.mp hk with hk | hk
        · exact Nat.lt_of_lt_of_le (hpre k hk) f1.next
        · exact k1 k hk
      obtain ⟨j1, j2, j3, j4⟩ := tail_step hC hG hd hpos ht.2 (fun B hB => hcall B (.snd hB)) (by omega) (i3 rfl) i1 hpre' h2
      have f2 := h2.fr i1.ok.keys
      have hb := (j1.peg hG ht.2).bounds.2
      have := i3 rfl
      refine ⟨j2, i2.trans j3, fun _ => by omega, fun pend hp hcw => ⟨((i4 pend hp hcw).1).mono i1.ok.keys f2 j3 j4, ?_⟩⟩
      rw [List.map_append, f1.map hpre] at j1
      rw [List.map_append, f2.map k1]
      exact (i4 pend hp hcw).2.seq j1
  | @sub ch e t ms hg ih =>
    intro ht hcall n hn pre s b q ks s' sd hl hpre he
    cases he with
    | sub_ok hm h1 =>
      obtain ⟨i1, i2, i3, i4⟩ := ih ht hcall (by omega) hl hpre h1
      exact ⟨i1, i2, i3, fun pend hp hcw => ⟨(i4 pend hp hcw).1, (i4 pend hp hcw).2.sub_ok⟩⟩
    | sub_fail hm h1 =>
      obtain ⟨i1, i2, i3, i4⟩ := ih ht hcall (by omega) hl hpre h1
      exact ⟨i1, i2, fun h => (by cases h), fun pend hp hcw => ⟨(i4 pend hp hcw).1, (i4 pend hp hcw).2.sub_fail⟩⟩
  | @choice e t ms e' t' ms' hg hg' ih ih' =>
    intro ht hcall n hn pre s b q ks s' sd hl hpre he
    have two : ∀ {m1 m2 q1 b2 q2 ks1 ks2 s1}, m1 < n → m2 < n → TEv body src m1 e pre p s false q1 ks1 s1 →
        TEv body src m2 e' (pre ++ ks1) p s1 b2 q2 ks2 s' →
        G0 body role src A p stk sd s' ∧ HF role A p stk s s' ∧ (b2 = true → p < q2) ∧
        ∀ pend, (pend = [] ∨ (true = false ∧ ∀ x ∈ ms, x ∉ pend)) → CW body role src A d p pend s sd →
          CW body role src A d p pend s' sd ∧
          HTV body role src A p sd (pre.map s.tree) (.orderedChoice e e') b2 (if b2 then q2 else p) ((ks1 ++ ks2).map s'.tree) := by
      intro m1 m2 q1 b2 q2 ks1 ks2 s1 hm1 hm2 h1 h2
      obtain ⟨i1, i2, i3, i4⟩ := ih ht.1 (fun B hB => hcall B (.left hB)) (by omega) hl hpre h1
      have f1 := h1.fr hl.ok.keys
      have k1 := h1.kids hl.ok.keys
      have hpre' : ∀ k ∈ pre ++ ks1, k < s1.next := fun k hk => by
        rcases List.mem_append.mp hk with hk | hk
        · exact Nat.lt_of_lt_of_le (hpre k hk) f1.next
        · exact k1 k hk
      obtain ⟨j1, j2, j3, j4⟩ := ih' ht.2 (fun B hB => hcall B (.right hB)) (by omega) i1 hpre' h2
      have f2 := h2.fr i1.ok.keys
      refine ⟨j1, i2.trans j2, j3, fun pend hp hcw => ?_⟩
      have hp0 : pend = [] := by
        rcases hp with h | h
        · exact h
        · cases h.1
      obtain ⟨v1, v2⟩ := i4 pend (Or.inl hp0) hcw
      obtain ⟨w1, w2⟩ := j4 pend (Or.inl hp0) v1
      refine ⟨w1, ?_⟩
      rw [List.map_append, f1.map hpre] at w2
      rw [List.map_append, f2.map k1]
      exact v2.choice_right w2
    cases he with
    | choice_left hm h1 =>
      obtain ⟨i1, i2, i3, i4⟩ := ih ht.1 (fun B hB => hcall B (.left hB)) (by omega) hl hpre h1
      refine ⟨i1, i2, i3, fun pend hp hcw => ?_⟩
      have hp0 : pend = [] := by
        rcases hp with h | h
        · exact h
        · cases h.1
      exact ⟨(i4 pend (Or.inl hp0) hcw).1, (i4 pend (Or.inl hp0) hcw).2.choice_left⟩
    | choice_right hm1 hm2 h1 h2 => exact two hm1 hm2 h1 h2
    | choice_fail hm1 hm2 h1 h2 =>
      obtain ⟨g1, g2, g3, g4⟩ := two hm1 hm2 h1 h2
      exact ⟨g1, g2, fun h => (by cases h), g4⟩

theorem TFr.map' {n0 : Nat} {s s' : TSt R} (h : TFr n0 s s') {ks : List Nat} (hk : ∀ k ∈ ks, k < n0) :
    ks.map s'.tree = ks.map s.tree := List.map_congr_left fun k hk' => h.tree k (hk k hk')

/-- The tree `t1` of one evaluation of the body of `A` at `p` for the seed `sd`. -/
def FSt (body : R → Expr R) (role : R → Role R) (src : Source) (A : R) (d : LRDecl R) (p : Nat) (sd : Option (Nat × Tree R))
    (b : Bool) (q : Nat) (t1 : Tree R) : Prop :=
  ∃ us, t1 = Tree.mk A p b q us ∧
    match sd with
    | some (q0, t0) => (∃ e, body A = .orderedChoice e d.first ∧ b = true ∧ HV body role src A p q0 t0 [] e true q us) ∨
        (Peg (groupBody body role) src d.tail.deLR q0 false q0 ∧ Peg (groupBody body role) src d.first.deLR p b q)
    | none => ∃ fs ts, us = fs ++ ts ∧ (∀ f ∈ fs, Tree.Failed f) ∧ GT body role src fs d.first p b q ts

include hC hG hd in
/-- The non-recursive alternatives, while growing `(A, p)`. -/
theorem gfirst (hs : GSafe body role stk (.varNameLR d.involved A) p) {n : Nat} (hn : n < N) {pre s b q ks s'}
    {sd : Option (Nat × Tree R)} (hl : G0 body role src A p stk sd s) (hpre : ∀ k ∈ pre, k < s.next)
    (he : TEv body src n d.first pre p s b q ks s') :
    GT body role src (pre.map s.tree) d.first p b q (ks.map s'.tree) ∧ G0 body role src A p stk sd s' ∧ HF role A p stk s s' ∧
      ES s' A p = ES s A p := by
  have lift : ∀ r, FReach (groupBody body role) d.first.deLR r → FReach (groupBody body role) (groupBody body role A) r := by
    intro r h
    rw [groupBody_head hd]
    exact h.lift fun _ h => .fst h
  obtain ⟨h1, h2, h3⟩ := hC n hn d.first ((A, p) :: stk) pre p s b q ks s' (hG.refsHead A d hd).1 hl.ok (by
      intro x hx
      rcases List.mem_cons.mp hx with rfl | hx
      · exact ⟨Nat.le_refl _, fun _ h => FReach.irrefl hG.wf A (lift _ h)⟩
      · obtain ⟨h1, h2⟩ := hs x hx
        exact ⟨h1, fun h3 h4 => h2 h3 (.step .ref (lift _ h4))⟩) (by
      intro A' pa ha' d' hd' B hB
      rw [hl.active] at ha'
      obtain ⟨rfl, rfl⟩ : A = A' ∧ p = pa := by simpa using ha'
      rw [hd] at hd'; cases hd'
      exact hG.noReentry A d hd B (Or.inl hB)) (fun h => by rw [hl.active] at h; cases h) hpre he
  exact ⟨h1, hl.of_fr h2 (he.active hl.ok.keys) (he.fr hl.ok.keys) h3⟩

include hG hd in
theorem first_pos {q : Nat} (h : Peg (groupBody body role) src d.first.deLR p true q) : p < q := by
  rcases h.bounds.2 with h' | h'
  · exact absurd (h.mayBeEmpty rfl h') (hG.firstConsumes A d hd)
  · exact h'.1

include hC hG hd in
/-- The body at level 0. -/
theorem gbody0 (hnot : (A, p) ∉ stk) (hs : GSafe body role stk (.varNameLR d.involved A) p) {n : Nat} (hn : n ≤ N)
    {s b q ks s'} {sd : Option (Nat × Tree R)} (hl : G0 body role src A p stk sd s) (hcw : CW body role src A d p [] s sd)
    (he : TEv body src n (body A) [] p s b q ks s') :
    G0 body role src A p stk sd s' ∧ HF role A p stk s s' ∧ (b = true → p < q) ∧
      FSt body role src A d p sd b q (Tree.mk A p b q (ks.map s'.tree)) := by
  have hpos : ∀ x ∈ stk, x.2 ≤ p := fun x hx => (hs x hx).1
  obtain ⟨_, e, ms, hbody, hg⟩ := hG.shape A d hd
  have two : ∀ {m1 m2 q1 b2 q2 ks1 ks2 s1}, m1 < n → m2 < n → TEv body src m1 e [] p s false q1 ks1 s1 →
      TEv body src m2 d.first ([] ++ ks1) p s1 b2 q2 ks2 s' →
      G0 body role src A p stk sd s' ∧ HF role A p stk s s' ∧ (b2 = true → p < q2) ∧
      FSt body role src A d p sd b2 (if b2 then q2 else p) (Tree.mk A p b2 (if b2 then q2 else p) ((ks1 ++ ks2).map s'.tree)) := by
    intro m1 m2 q1 b2 q2 ks1 ks2 s1 hm1 hm2 h1 h2
    obtain ⟨i1, i2, i3, i4⟩ := gt0 hC hG hd hpos hnot hg (hG.refsHead A d hd).2 (fun _ h => h) (by omega) hl (by simp) h1
    obtain ⟨v1, v2⟩ := i4 [] (Or.inl rfl) hcw
    have k1 := h1.kids hl.ok.keys
    obtain ⟨j1, j2, j3, j4⟩ := gfirst hC hG hd hs (by omega) i1 (by simpa using k1) h2
    have f2 := h2.fr i1.ok.keys
    have hpeg := j1.peg hG (hG.refsHead A d hd).1
    have hq2 : (if b2 then q2 else p) = q2 := by
      cases b2 with
      | true => rfl
      | false => exact (hpeg.bounds.1 rfl).symm
    rw [hq2]
    refine ⟨j2, i2.trans j3, fun hb => ?_, _, rfl, ?_⟩
    · subst hb
      exact first_pos hG hd hpeg
    · cases sd with
      | none =>
        refine ⟨ks1.map s1.tree, ks2.map s'.tree, by rw [List.map_append, f2.map k1], v2.2, by simpa using j1⟩
      | some v =>
        refine Or.inr ⟨?_, hpeg⟩
        exact (HV.peg hG v2 hd hg (hG.refsHead A d hd).2).2 rfl
  rw [hbody] at he
  cases he with
  | choice_left hm h1 =>
    obtain ⟨i1, i2, i3, i4⟩ := gt0 hC hG hd hpos hnot hg (hG.refsHead A d hd).2 (fun _ h => h) (by omega) hl (by simp) h1
    obtain ⟨v1, v2⟩ := i4 [] (Or.inl rfl) hcw
    refine ⟨i1, i2, i3, _, rfl, ?_⟩
    cases sd with
    | none => cases v2.1
    | some v => exact Or.inl ⟨e, hbody, rfl, v2⟩
  | choice_right hm1 hm2 h1 h2 => exact two hm1 hm2 h1 h2
  | choice_fail hm1 hm2 h1 h2 =>
    obtain ⟨g1, g2, g3, g4⟩ := two hm1 hm2 h1 h2
    exact ⟨g1, g2, fun h => (by cases h), g4⟩

/-- State while growing `(A, p)` in which a reference to `A` will evaluate the body. -/
structure G1 (body : R → Expr R) (role : R → Role R) (src : Source) (A : R) (d : LRDecl R) (p : Nat) (stk : List (R × Nat))
    (path : List R) (sd : Option (Nat × Tree R)) (s : TSt R) : Prop where
  ok : GOK body role src ((A, p) :: stk) s
  active : s.cache.active = some (A, p)
  es : A ∈ ES s A p
  am : AM A p s sd
  pos : ∀ X q k, role X = .member A → s.cache.memo X p = some (true, q, k) → p < q
  mc : ∀ X, role X = .member A → X ∈ d.involved → X ∉ ES s A p ∨ X ∈ path → MC body role src A p s X sd

theorem G1.getHead {path : List R} {sd : Option (Nat × Tree R)} {s : TSt R} (hl : G1 body role src A d p stk path sd s) :
    ∃ h, s.cache.heads A p = some h ∧ ES s A p = h.evalSet := by
  cases hh : s.cache.heads A p with
  | none => have := hl.es; simp [ES, hh] at this
  | some h => exact ⟨h, rfl, ES.eq hh⟩

/-- The seed the next round starts from. -/
def seedOf (b : Bool) (q : Nat) (t : Tree R) : Option (Nat × Tree R) := if b then some (q, t) else none

/-- Removing a rule from the evaluation set, level 1. -/
theorem G1.remove {path : List R} {sd : Option (Nat × Tree R)} {s : TSt R} (hl : G1 body role src A d p stk path sd s)
    (hnot : (A, p) ∉ stk) {h : Head R} (hh : s.cache.heads A p = some h) (r : R) :
    GOK body role src ((A, p) :: stk)
      { s with next := s.next + 1, cache := s.cache.putHead A p { h with evalSet := h.evalSet.filter (· ≠ r) } } ∧
    GrFr role stk s
      { s with next := s.next + 1, cache := s.cache.putHead A p { h with evalSet := h.evalSet.filter (· ≠ r) } } ∧
    ES { s with next := s.next + 1, cache := s.cache.putHead A p { h with evalSet := h.evalSet.filter (· ≠ r) } } A p =
      (ES s A p).filter (· ≠ r) := by
  have hes : ∀ x ∈ h.evalSet.filter (· ≠ r), x ∈ h.involved := by
    obtain ⟨_, _, _, g⟩ := hl.ok.inv _ _ _ hh
    exact fun x hx => g x (List.mem_filter.mp hx).1
  refine ⟨(hl.ok.putHead hh hes).alloc 1, ⟨fun _ _ => rfl, fun x hx => ?_, fun _ _ _ _ => rfl⟩, ?_⟩
  · simp only [Cache.putHead]
    rw [if_neg]
    rintro ⟨h1, h2⟩
    exact hnot (by rw [← h1, ← h2]; exact hx)
  · rw [ES.eq hh]
    simp [ES, Cache.putHead]

end HT
end PP
