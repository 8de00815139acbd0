import Verif.Lemmas.Group.Grow

/-! # A full round of growth: the body of `A` while `A` is in the evaluation set -/
set_option linter.unusedSectionVars false
namespace PP
variable {R : Type} [DecidableEq R]
variable {body : R → Expr R} {role : R → Role R} {src : Source}

section HT
variable {N : Nat} (hC : ∀ n, n < N → GClaim body role src n) (hG : GroupLR body role)
variable {A : R} {d : LRDecl R} (hd : role A = .head d) {p : Nat} {stk : List (R × Nat)}

/-- After the nested evaluation of `A`: `(b1, q1, t1)` is recorded, and the members `ms` fit it. -/
structure R1 (body : R → Expr R) (role : R → Role R) (src : Source) (A : R) (d : LRDecl R) (p : Nat) (stk : List (R × Nat))
    (sd : Option (Nat × Tree R)) (ms : List R) (s s' : TSt R) (b1 : Bool) (q1 : Nat) (t1 : Tree R) : Prop where
  memo : ∃ k, s'.cache.memo A p = some (b1, q1, k) ∧ s'.tree k = t1
  fst : FSt body role src A d p sd b1 q1 t1
  g0 : G0 body role src A p stk (seedOf b1 q1 t1) s'
  fr : GrFr role stk s s'
  es : ∀ x ∈ ES s' A p, x ∈ ES s A p
  mc : ∀ X ∈ ms, role X = .member A ∧ X ∉ ES s' A p ∧ MC body role src A p s' X (seedOf b1 q1 t1)

theorem R1.step {sd : Option (Nat × Tree R)} {ms : List R} {s s' s'' : TSt R} {b1 : Bool} {q1 : Nat} {t1 : Tree R}
    (h : R1 body role src A d p stk sd ms s s' b1 q1 t1) (hg : G0 body role src A p stk (seedOf b1 q1 t1) s'')
    (hf : HF role A p stk s' s'') (ht : TFr s'.next s' s'') : R1 body role src A d p stk sd ms s s'' b1 q1 t1 := by
  refine ⟨?_, h.fst, hg, h.fr.trans hf.fr, fun x hx => h.es x (hf.es x hx), fun X hX => ?_⟩
  · obtain ⟨k, h1, h2⟩ := h.memo
    exact ⟨k, hf.memoA.trans h1, (ht.tree k (h.g0.ok.keys _ _ _ _ _ h1)).trans h2⟩
  · obtain ⟨h1, h2, h3⟩ := h.mc X hX
    exact ⟨h1, fun hx => h2 (hf.es X hx), h3.mono h.g0.ok.keys ht (hf.mem X h1 h2)⟩

/-- Recording the head's nested result. -/
theorem G0.putSelf {sd : Option (Nat × Tree R)} {s : TSt R} (hl : G0 body role src A p stk sd s) (hnot : (A, p) ∉ stk)
    {d : LRDecl R} (hd : role A = .head d) {b q k ks} (hk : k < s.next)
    (hfresh : ∀ r' p' b' q', s.cache.memo r' p' ≠ some (b', q', k)) (hb : b = true → p < q) :
    G0 body role src A p stk (seedOf b q (Tree.mk A p b q (ks.map s.tree))) (s.put A p b q k ks) ∧
    GrFr role stk s (s.put A p b q k ks) := by
  refine ⟨⟨hl.ok.put hk hfresh (fun h => absurd (List.mem_cons_self) h) (fun _ _ => hl.head)
    (fun A' h => by rw [hd] at h; cases h), hl.active, hl.head, hl.es, ?_, fun Y q' k' hY hm => ?_⟩,
    ⟨fun x hx => ?_, fun _ _ => rfl, fun x hx Y hY => ?_⟩⟩
  · cases b with
    | false =>
      intro b' q' k' hm
      rw [put_memo_self] at hm
      simp only [Option.some.injEq, Prod.mk.injEq] at hm
      obtain ⟨rfl, rfl, rfl⟩ := hm
      exact ⟨rfl, by rw [put_tree_self]; rfl⟩
    | true => exact ⟨k, put_memo_self, put_tree_self, hb rfl⟩
  · rw [put_memo (fun h => member_ne hd hY h.1)] at hm
    exact hl.pos Y q' k' hY hm
  · rw [put_memo]
    rintro ⟨h1, h2⟩
    exact hnot (by rw [← h1, ← h2]; exact hx)
  · rw [put_memo]
    rintro ⟨h1, h2⟩
    rw [h1, hd] at hY
    cases hY

include hC hG hd in
/-- A recursive expression at level 1. -/
theorem gt1 (hnot : (A, p) ∉ stk) (hs : GSafe body role stk (.varNameLR d.involved A) p) {ch : Bool} {e t : Expr R}
    {ms : List R} (hg : GTail body role d.involved A ch e t ms) :
    t.GRefs role → (∀ B, CallsLR body t B → CallsLR body d.tail B) → ∀ {n}, n ≤ N → ∀ {path pre s b q ks s'} {sd},
    (∀ X ∈ ms, X ∈ path) → (∀ X ∈ ms, X ∈ ES s A p) →
    G1 body role src A d p stk path sd s → (∀ k ∈ pre, k < s.next) → TEv body src n e pre p s b q ks s' →
    ∃ b1 q1 t1, R1 body role src A d p stk sd ms s s' b1 q1 t1 ∧ (b = true → p < q) ∧
      (ch = false → HTV body role src A p (seedOf b1 q1 t1) (pre.map s.tree) e b q (ks.map s'.tree)) := by
  have hpos : ∀ x ∈ stk, x.2 ≤ p := fun x hx => (hs x hx).1
  induction hg with
  | @head ch =>
    intro _ _ n hn path pre s b q ks s' sd _ _ hl hpre he
    obtain ⟨h, hh, hes⟩ := hl.getHead
    rcases ref_cases hl.active hh (Or.inl (by rw [hh]; simp)) he with ⟨m, ks0, s0, hm, hin, hev, rfl, rfl⟩ |
      ⟨k, hin, hm, rfl, rfl⟩ | ⟨hin, hm, rfl, rfl, rfl, rfl⟩
    · obtain ⟨r1, r2, r3⟩ := hl.remove hnot hh A
      have hl1 : G0 body role src A p stk sd
          { s with next := s.next + 1, cache := s.cache.putHead A p { h with evalSet := h.evalSet.filter (· ≠ A) } } :=
        ⟨r1, hl.active, by simp [Cache.putHead], by rw [r3]; simp, hl.am, hl.pos⟩
      obtain ⟨i1, i2, i3, i4⟩ := gbody0 hC hG hd hnot hs (n := m) (by omega) hl1 (fun X hX hXi hXn _ => by
        rw [r3] at hXn
        refine hl.mc X hX hXi (Or.inl fun hXe => hXn ?_)
        exact List.mem_filter.mpr ⟨hXe, by simpa using member_ne hd hX⟩) hev
      have hfr := hev.fr hl1.ok.keys
      have hfresh := alloc_fresh (s := s) (by rfl) hl.ok.keys hfr
      have hnx : s.next < s0.next := hfr.next
      obtain ⟨j1, j2⟩ := i1.putSelf hnot hd (b := b) (q := q) (ks := ks0) hnx hfresh i3
      refine ⟨b, q, _, ⟨⟨_, put_memo_self, put_tree_self⟩, i4, j1, r2.trans (i2.fr.trans j2), fun x hx => ?_, by simp⟩, i3,
        fun _ => ?_⟩
      · have := i2.es x hx
        rw [r3] at this
        exact (List.mem_filter.mp this).1
      · simp only [List.map_cons, List.map_nil, put_tree_self]
        cases b with
        | true => exact HV.head
        | false => exact ⟨rfl, by simp [Tree.mk, Tree.Failed, Tree.span]⟩
    · exact absurd (hes ▸ hl.es) hin
    · exact absurd (hes ▸ hl.es) hin
  | @member ch X t ms hX hXi hXms hg ih =>
    intro ht hcall n hn path pre s b q ks s' sd hpath hms hl hpre he
    obtain ⟨h, hh, hes⟩ := hl.getHead
    obtain ⟨d', hd', hinv, _⟩ := hl.ok.inv _ _ _ hh
    rw [hd] at hd'; cases hd'
    have hXe : X ∈ h.evalSet := by rw [← hes]; exact hms X (by simp)
    rcases ref_cases hl.active hh (Or.inr ((hinv X).mpr hXi)) he with ⟨m, ks0, s0, hm, hin, hev, rfl, rfl⟩ |
      ⟨k, hin, hm, rfl, rfl⟩ | ⟨hin, hm, rfl, rfl, rfl, rfl⟩
    · obtain ⟨r1, r2, r3⟩ := hl.remove hnot hh X
      have hl1 : G1 body role src A d p stk path sd
          { s with next := s.next + 1, cache := s.cache.putHead A p { h with evalSet := h.evalSet.filter (· ≠ X) } } :=
        ⟨r1, hl.active, by
          rw [r3]; exact List.mem_filter.mpr ⟨hl.es, by simpa using (member_ne hd hX).symm⟩, hl.am, hl.pos, fun Y hY hYi hYn => by
          refine hl.mc Y hY hYi ?_
          rcases hYn with hYn | hYp
          · rw [r3] at hYn
            by_cases hYX : Y = X
            · right; rw [hYX]; exact hpath X (by simp)
            · left
              exact fun hYe => hYn (List.mem_filter.mpr ⟨hYe, by simpa using hYX⟩)
          · exact Or.inr hYp⟩
      obtain ⟨b1, q1, t1, i1, i2, i3⟩ := ih ht hcall (n := m) (by omega) (fun Y hY => hpath Y (by simp [hY])) (fun Y hY => by
        rw [r3]
        exact List.mem_filter.mpr ⟨hms Y (by simp [hY]), by simpa using fun h : Y = X => hXms (h ▸ hY)⟩) hl1 (by simp) hev
      have hfr := hev.fr hl1.ok.keys
      have hfresh := alloc_fresh (s := s) (by rfl) hl.ok.keys hfr
      have hnx : s.next < s0.next := hfr.next
      obtain ⟨j1, j2, j3⟩ := i1.g0.putMember hnot hd hX (b := b) (q := q) (ks := ks0) hnx hfresh i2
      refine ⟨b1, q1, t1, ⟨?_, i1.fst, j1, r2.trans (i1.fr.trans j2), fun x hx => ?_, fun Y hY => ?_⟩, i2, fun _ => ?_⟩
      · obtain ⟨k, k1, k2⟩ := i1.memo
        refine ⟨k, j3.trans k1, ?_⟩
        rw [put_tree]
        · exact k2
        · rintro rfl; exact hfresh _ _ _ _ k1
      · have := i1.es x hx
        rw [r3] at this
        exact (List.mem_filter.mp this).1
      · by_cases hYX : Y = X
        · subst hYX
          refine ⟨hX, fun hx => ?_, MC.self (i3 rfl)⟩
          have := i1.es Y hx
          rw [r3] at this
          simpa using (List.mem_filter.mp this).2
        · obtain ⟨y1, y2, y3⟩ := i1.mc Y (by
            rcases List.mem_cons.mp hY with h | h
            · exact absurd h hYX
            · exact h)
          exact ⟨y1, y2, y3.put hYX hfresh⟩
      · simp only [List.map_cons, List.map_nil, put_tree_self]
        exact HTV.member hX (i3 rfl)
    · exact absurd hXe hin
    · exact absurd hXe hin
  | @seq ch e t ms c hg ih =>
    intro ht hcall n hn path pre s b q ks s' sd hpath hms hl hpre he
    have two : ∀ {m1 m2 q1 b2 q2 ks1 ks2 s1}, m1 < n → m2 < n → TEv body src m1 e pre p s true q1 ks1 s1 →
        TEv body src m2 c (pre ++ ks1) q1 s1 b2 q2 ks2 s' →
        ∃ b1 q1' t1, R1 body role src A d p stk sd ms s s' b1 q1' t1 ∧ (b2 = true → p < q2) ∧
          (ch = false → HTV body role src A p (seedOf b1 q1' t1) (pre.map s.tree) (.sequence e c) b2 (if b2 then q2 else p)
            ((ks1 ++ ks2).map s'.tree)) := by
      intro m1 m2 q1 b2 q2 ks1 ks2 s1 hm1 hm2 h1 h2
      obtain ⟨b1, q1', t1, i1, i2, i3⟩ := ih ht.1 (fun B hB => hcall B (.fst hB)) (by omega) hpath hms hl hpre h1
      have f1 := h1.fr hl.ok.keys
      have k1 := h1.kids hl.ok.keys
      have hpre' : ∀ k ∈ pre ++ ks1, k < s1.next := fun k hk => by
        rcases List.mem_append.mp hk with hk | hk
        · exact Nat.lt_of_lt_of_le (hpre k hk) f1.next
        · exact k1 k hk
      obtain ⟨j1, j2, j3, j4⟩ := tail_step hC hG hd hpos ht.2 (fun B hB => hcall B (.snd hB)) (by omega) (i2 rfl) i1.g0 hpre' h2
      have f2 := h2.fr i1.g0.ok.keys
      have hb := (j1.peg hG ht.2).bounds.2
      have := i2 rfl
      refine ⟨b1, q1', t1, i1.step j2 j3 f2, fun _ => by omega, fun hch => ?_⟩
      rw [List.map_append, f1.map hpre] at j1
      rw [List.map_append, f2.map k1]
      exact (i3 hch).seq j1
    cases he with
    | seq_fail1 hm h1 =>
      obtain ⟨b1, q1, t1, i1, i2, i3⟩ := ih ht.1 (fun B hB => hcall B (.fst hB)) (by omega) hpath hms hl hpre h1
      exact ⟨b1, q1, t1, i1, fun h => (by cases h), fun hch => (i3 hch).seq_fail1⟩
    | seq_fail2 hm1 hm2 h1 h2 =>
      obtain ⟨b1, q1, t1, g1, g2, g3⟩ := two hm1 hm2 h1 h2
      exact ⟨b1, q1, t1, g1, fun h => (by cases h), g3⟩
    | seq_ok hm1 hm2 h1 h2 => exact two hm1 hm2 h1 h2
  | @sub ch e t ms hg ih =>
    intro ht hcall n hn path pre s b q ks s' sd hpath hms hl hpre he
    cases he with
    | sub_ok hm h1 =>
      obtain ⟨b1, q1, t1, i1, i2, i3⟩ := ih ht hcall (by omega) hpath hms hl hpre h1
      exact ⟨b1, q1, t1, i1, i2, fun hch => (i3 hch).sub_ok⟩
    | sub_fail hm h1 =>
      obtain ⟨b1, q1, t1, i1, i2, i3⟩ := ih ht hcall (by omega) hpath hms hl hpre h1
      exact ⟨b1, q1, t1, i1, fun h => (by cases h), fun hch => (i3 hch).sub_fail⟩
  | @choice e t ms e' t' ms' hg hg' ih ih' =>
    intro ht hcall n hn path pre s b q ks s' sd hpath hms hl hpre he
    have two : ∀ {m1 m2 q1 b2 q2 ks1 ks2 s1}, m1 < n → m2 < n → TEv body src m1 e pre p s false q1 ks1 s1 →
        TEv body src m2 e' (pre ++ ks1) p s1 b2 q2 ks2 s' →
        ∃ b1 q1' t1, R1 body role src A d p stk sd ms s s' b1 q1' t1 ∧ (b2 = true → p < q2) := by
      intro m1 m2 q1 b2 q2 ks1 ks2 s1 hm1 hm2 h1 h2
      obtain ⟨b1, q1', t1, i1, i2, i3⟩ := ih ht.1 (fun B hB => hcall B (.left hB)) (by omega) hpath hms hl hpre h1
      have f1 := h1.fr hl.ok.keys
      have k1 := h1.kids hl.ok.keys
      have hpre' : ∀ k ∈ pre ++ ks1, k < s1.next := fun k hk => by
        rcases List.mem_append.mp hk with hk | hk
        · exact Nat.lt_of_lt_of_le (hpre k hk) f1.next
        · exact k1 k hk
      obtain ⟨j1, j2, j3, j4⟩ := gt0 hC hG hd hpos hnot hg' ht.2 (fun B hB => hcall B (.right hB)) (by omega) i1.g0 hpre' h2
      exact ⟨b1, q1', t1, i1.step j1 j2 (h2.fr i1.g0.ok.keys), j3⟩
    cases he with
    | choice_left hm h1 =>
      obtain ⟨b1, q1, t1, i1, i2, i3⟩ := ih ht.1 (fun B hB => hcall B (.left hB)) (by omega) hpath hms hl hpre h1
      exact ⟨b1, q1, t1, i1, i2, fun h => (by cases h)⟩
    | choice_right hm1 hm2 h1 h2 =>
      obtain ⟨b1, q1, t1, g1, g2⟩ := two hm1 hm2 h1 h2
      exact ⟨b1, q1, t1, g1, g2, fun h => (by cases h)⟩
    | choice_fail hm1 hm2 h1 h2 =>
      obtain ⟨b1, q1, t1, g1, g2⟩ := two hm1 hm2 h1 h2
      exact ⟨b1, q1, t1, g1, fun h => (by cases h), fun h => (by cases h)⟩

include hC hG hd in
/-- The body at level 1. -/
theorem gbody1 (hnot : (A, p) ∉ stk) (hs : GSafe body role stk (.varNameLR d.involved A) p) {e ms}
    (hbody : body A = .orderedChoice e d.first) (hg : GTail body role d.involved A true e d.tail ms) {n : Nat} (hn : n ≤ N)
    {s b q ks s'} {sd : Option (Nat × Tree R)} (hms : ∀ X ∈ ms, X ∈ ES s A p) (hl : G1 body role src A d p stk ms sd s)
    (he : TEv body src n (body A) [] p s b q ks s') : ∃ b1 q1 t1, R1 body role src A d p stk sd ms s s' b1 q1 t1 := by
  have two : ∀ {m1 m2 q1 b2 q2 ks1 ks2 s1}, m1 < n → m2 < n → TEv body src m1 e [] p s false q1 ks1 s1 →
      TEv body src m2 d.first ([] ++ ks1) p s1 b2 q2 ks2 s' → ∃ b1 q1 t1, R1 body role src A d p stk sd ms s s' b1 q1 t1 := by
    intro m1 m2 q1 b2 q2 ks1 ks2 s1 hm1 hm2 h1 h2
    obtain ⟨b1, q1', t1, i1, i2, i3⟩ := gt1 hC hG hd hnot hs hg (hG.refsHead A d hd).2 (fun _ h => h) (by omega) (fun _ h => h)
      hms hl (by simp) h1
    have k1 := h1.kids hl.ok.keys
    obtain ⟨j1, j2, j3, j4⟩ := gfirst hC hG hd hs (by omega) i1.g0 (by simpa using k1) h2
    exact ⟨b1, q1', t1, i1.step j2 j3 (h2.fr i1.g0.ok.keys)⟩
  rw [hbody] at he
  cases he with
  | choice_left hm h1 =>
    obtain ⟨b1, q1', t1, i1, i2, i3⟩ := gt1 hC hG hd hnot hs hg (hG.refsHead A d hd).2 (fun _ h => h) (by omega) (fun _ h => h)
      hms hl (by simp) h1
    exact ⟨b1, q1', t1, i1⟩
  | choice_right hm1 hm2 h1 h2 => exact two hm1 hm2 h1 h2
  | choice_fail hm1 hm2 h1 h2 => exact two hm1 hm2 h1 h2

end HT
end PP
