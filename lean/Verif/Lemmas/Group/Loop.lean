import Verif.Lemmas.Group.Round
import Verif.Lemmas.DirectLR

/-! # The growth loop of a group, and the main theorem -/
set_option linter.unusedSectionVars false
namespace PP
variable {R : Type} [DecidableEq R]
variable {body : R → Expr R} {role : R → Role R} {src : Source}

theorem GTail.mem {inv : List R} {A : R} {ch e t ms} (h : GTail body role inv A ch e t ms) :
    ∀ X ∈ ms, role X = .member A ∧ X ∈ inv := by
  induction h with
  | head => simp
  | member h1 h2 _ _ ih =>
    intro X hX
    rcases List.mem_cons.mp hX with rfl | hX
    · exact ⟨h1, h2⟩
    · exact ih X hX
  | seq _ ih | sub _ ih => exact ih
  | choice _ _ ih _ => exact ih

section HT
variable {N : Nat} (hC : ∀ n, n < N → GClaim body role src n) (hG : GroupLR body role)
variable {A : R} {d : LRDecl R} (hd : role A = .head d) {p : Nat} {stk : List (R × Nat)}

/-- Where the growth stands: nothing found yet, or the tree so far in the memo table. -/
inductive GPhase (body : R → Expr R) (role : R → Role R) (src : Source) (A : R) (d : LRDecl R) (p : Nat) (ms : List R)
    (s : TSt R) : Bool × Nat → Nat → Prop where
  | zero {lk} : s.cache.memo A p = none → (∀ X, role X = .member A → s.cache.memo X p = none) → s.tree lk = .node A none [] →
      GPhase body role src A d p ms s (false, p) lk
  | one {q0 lk} : s.cache.memo A p = some (true, q0, lk) → GGrown body role src A d p q0 (s.tree lk) → p < q0 →
      (∀ q, Peg (groupBody body role) src d.first.deLR p true q → q ≤ q0) →
      (∀ X ∈ ms, MC body role src A p s X (some (q0, s.tree lk))) →
      (∀ X q k, role X = .member A → s.cache.memo X p = some (true, q, k) → p < q) →
      GPhase body role src A d p ms s (true, q0) lk

/-- The seed of a phase. -/
def phaseSeed (s : TSt R) (last : Bool × Nat) (lk : Nat) : Option (Nat × Tree R) := seedOf last.1 last.2 (s.tree lk)

/-- Closing a growth. -/
theorem GOK.endGrowth {s : TSt R} (h : GOK body role src ((A, p) :: stk) s) (hd : role A = .head d) (hnot : (A, p) ∉ stk)
    (hh : s.cache.heads A p ≠ none) {prev last lk} (hlk : lk < s.next)
    (hgt : GT body role src [] (.varNameLR d.involved A) p last.1 last.2 [s.tree lk]) :
    GOK body role src stk (s.endGrowth prev A p last lk) ∧ GrFr role stk s (s.endGrowth prev A p last lk) := by
  refine ⟨⟨fun r p' b q k hm => ?_, fun r p' b q k hns hm => ?_, fun r p' h' hns hh' => ?_, fun B d' p' hB hm => ?_,
    fun X B p' hX hm => ?_, h.inv, fun x hx => h.stk x (List.mem_cons_of_mem _ hx)⟩, ⟨fun x hx => ?_, fun _ _ => rfl,
    fun x hx X hX => ?_⟩⟩
  · simp only [TSt.endGrowth, Cache.insert, Cache.setActive] at hm
    split at hm
    · simp only [Option.some.injEq, Prod.mk.injEq] at hm
      simp only [TSt.endGrowth]; omega
    · exact h.keys _ _ _ _ _ hm
  · simp only [TSt.endGrowth, Cache.insert, Cache.setActive] at hm
    split at hm
    · next heq =>
      obtain ⟨rfl, rfl⟩ := heq
      simp only [Option.some.injEq, Prod.mk.injEq] at hm
      obtain ⟨rfl, rfl, rfl⟩ := hm
      simp only [MOK, hd]
      exact hgt
    · next hne =>
      exact h.memo _ _ _ _ _ (fun hx => by
        rcases List.mem_cons.mp hx with hx | hx
        · simp only [Prod.mk.injEq] at hx
          exact hne hx
        · exact hns hx) hm
  · simp only [TSt.endGrowth, Cache.insert, Cache.setActive] at hh' ⊢
    split
    · simp
    · next hne =>
      exact h.heads _ _ _ (fun hx => by
        rcases List.mem_cons.mp hx with hx | hx
        · simp only [Prod.mk.injEq] at hx
          exact hne hx
        · exact hns hx) hh'
  · simp only [TSt.endGrowth, Cache.insert, Cache.setActive] at hm ⊢
    split at hm
    · next heq => obtain ⟨rfl, rfl⟩ := heq; exact hh
    · exact h.memoHead _ _ _ hB hm
  · simp only [TSt.endGrowth, Cache.insert, Cache.setActive] at hm ⊢
    rw [if_neg] at hm
    · exact h.memoMem _ _ _ hX hm
    · rintro ⟨rfl, _⟩
      rw [hd] at hX; cases hX
  · simp only [TSt.endGrowth, Cache.insert, Cache.setActive]
    rw [if_neg]
    rintro ⟨h1, h2⟩
    exact hnot (by rw [← h1, ← h2]; exact hx)
  · simp only [TSt.endGrowth, Cache.insert, Cache.setActive]
    rw [if_neg]
    rintro ⟨rfl, _⟩
    rw [hd] at hX; cases hX

include hG hd in
theorem tail_pos {q0 q : Nat} (h : Peg (groupBody body role) src d.tail.deLR q0 true q) : q0 < q := by
  rcases h.bounds.2 with h' | h'
  · have := hG.wf.noLoop A
    rw [groupBody_head hd] at this
    exact absurd (h.mayBeEmpty rfl h') this.2.1
  · exact h'.1

include hC hG hd in
/-- One round. -/
theorem ground (hnot : (A, p) ∉ stk) (hs : GSafe body role stk (.varNameLR d.involved A) p) {e ms}
    (hbody : body A = .orderedChoice e d.first) (hg : GTail body role d.involved A true e d.tail ms) {n : Nat} (hn : n ≤ N)
    {s last lk} (ho : GOK body role src ((A, p) :: stk) s) (hact : s.cache.active = some (A, p)) {h : Head R}
    (hh : s.cache.heads A p = some h) (hp : GPhase body role src A d p ms s last lk) {b0 q0 ks s1}
    (he : TEv body src n (body A) [] p { s with cache := s.cache.putHead A p { h with evalSet := h.involved } } b0 q0 ks s1) :
    ∃ b1 q1 t1, R1 body role src A d p stk (phaseSeed s last lk) ms
      { s with cache := s.cache.putHead A p { h with evalSet := h.involved } } s1 b1 q1 t1 ∧ GrFr role stk s s1 := by
  obtain ⟨d', hd', hinv, hsub⟩ := ho.inv _ _ _ hh
  rw [hd] at hd'; cases hd'
  have hAi := (hG.shape A d hd).1
  have hes : ES { s with cache := s.cache.putHead A p { h with evalSet := h.involved } } A p = h.involved := by
    simp [ES, Cache.putHead]
  have ho' := ho.putHead hh (es := h.involved) (fun _ hx => hx)
  have fr0 : GrFr role stk s { s with cache := s.cache.putHead A p { h with evalSet := h.involved } } :=
    ⟨fun _ _ => rfl, fun x hx => by
      simp only [Cache.putHead]
      rw [if_neg]
      rintro ⟨h1, h2⟩
      exact hnot (by rw [← h1, ← h2]; exact hx), fun _ _ _ _ => rfl⟩
  have hl : G1 body role src A d p stk ms (phaseSeed s last lk)
      { s with cache := s.cache.putHead A p { h with evalSet := h.involved } } := by
    cases hp with
    | zero h1 h2 h3 =>
      refine ⟨ho', hact, by rw [hes]; exact (hinv A).mpr hAi, fun b q k hm => ?_, fun X q k hX hm => ?_, fun X hX hXi _ b q k hm => ?_⟩
      · rw [show ({ s with cache := s.cache.putHead A p { h with evalSet := h.involved } } : TSt R).cache.memo A p = _ from h1] at hm
        cases hm
      · rw [show ({ s with cache := s.cache.putHead A p { h with evalSet := h.involved } } : TSt R).cache.memo X p = _ from
          h2 X hX] at hm
        cases hm
      · rw [show ({ s with cache := s.cache.putHead A p { h with evalSet := h.involved } } : TSt R).cache.memo X p = _ from
          h2 X hX] at hm
        cases hm
    | one h1 h2 h3 h4 h5 h6 =>
      refine ⟨ho', hact, by rw [hes]; exact (hinv A).mpr hAi, ⟨_, h1, rfl, h3⟩, h6, fun X hX hXi hXn => ?_⟩
      rcases hXn with hXn | hXn
      · rw [hes] at hXn
        exact absurd ((hinv X).mpr hXi) hXn
      · exact h5 X hXn
  obtain ⟨b1, q1, t1, i⟩ := gbody1 hC hG hd hnot hs hbody hg hn (fun X hX => by
    rw [hes]; exact (hinv X).mpr (hg.mem X hX).2) hl he
  exact ⟨b1, q1, t1, i, fr0.trans i.fr⟩

include hC hG hd in
/-- The growth loop. -/
theorem gloop (hnot : (A, p) ∉ stk) (hs : GSafe body role stk (.varNameLR d.involved A) p) {e ms}
    (hbody : body A = .orderedChoice e d.first) (hg : GTail body role d.involved A true e d.tail ms) : ∀ (n : Nat), n ≤ N →
    ∀ {prev last lk ck s b q k s'}, GOK body role src ((A, p) :: stk) s → s.cache.active = some (A, p) →
    s.cache.heads A p ≠ none → lk < s.next → GPhase body role src A d p ms s last lk →
    TGrow body src n A p prev last lk ck s b q k s' →
    GT body role src [] (.varNameLR d.involved A) p b q [s'.tree k] ∧ GOK body role src stk s' ∧ GrFr role stk s s' := by
  intro n
  induction n using Nat.strongRecOn with
  | _ n ih =>
  intro hn prev last lk ck s b q k s' ho hact hhd hlk hp he
  cases he with
  | @stop _ m _ _ _ _ _ _ _ h b0 q0 ks s1 ck' b1 q1 s2 hm hh hev hpick hstop =>
    obtain ⟨b1', q1', t1, i, ifr⟩ := ground hC hG hd hnot hs hbody hg (n := m) (by omega) ho hact hh hp hev
    have hko : KeysOK { s with cache := s.cache.putHead A p { h with evalSet := h.involved } } := ho.keys
    have tf := hev.fr hko
    obtain ⟨km, hm1, hm2⟩ := i.memo
    have hp2 : b1 = b1' ∧ q1 = q1' ∧ s2 = s1 := by
      cases hpick with
      | own h => rw [hm1] at h; cases h
      | memo h =>
        rw [hm1] at h
        simp only [Option.some.injEq, Prod.mk.injEq] at h
        exact ⟨h.1.symm, h.2.1.symm, rfl⟩
    obtain ⟨rfl, rfl, rfl⟩ := hp2
    have htl : s2.tree lk = s.tree lk := tf.tree lk hlk
    have hlk' : lk < s2.next := Nat.lt_of_lt_of_le hlk tf.next
    have hgt : GT body role src [] (.varNameLR d.involved A) p last.1 last.2 [s2.tree lk] := by
      rw [htl]
      obtain ⟨us, hus, hfs⟩ := i.fst
      cases hp with
      | zero g1 g2 g3 =>
        rw [g3]
        refine .lr_fail hd ?_
        obtain ⟨fs, ts, _, _, hgt⟩ := hfs
        have hpeg := hgt.peg hG (hG.refsHead A d hd).1
        cases b1 with
        | false => exact hpeg.self
        | true =>
          have := first_pos hG hd hpeg
          rcases hstop with h | h
          · cases h
          · exact absurd h (by simpa using this)
      | one g1 g2 g3 g4 g5 g6 =>
        refine .lr_ok hd g2 ?_
        rcases hfs with ⟨e', he', rfl, hv⟩ | ⟨hv, _⟩
        · rw [hbody] at he'
          cases he'
          have := tail_pos hG hd ((HV.peg hG hv hd hg (hG.refsHead A d hd).2).1 rfl)
          rcases hstop with h | h
          · cases h
          · exact absurd h (by simpa using this)
        · exact hv
    obtain ⟨r1, r2⟩ := i.g0.ok.endGrowth hd hnot i.g0.head (prev := prev) hlk' hgt
    exact ⟨hgt, r1, ifr.trans r2⟩
  | @step _ m1 m2 _ _ _ _ _ _ _ h b0 q0 ks s1 ck' q1 s2 _ _ _ _ hm1 hm2 hh hev hpick hlt hrest =>
    obtain ⟨b1', q1', t1, i, ifr⟩ := ground hC hG hd hnot hs hbody hg (n := m1) (by omega) ho hact hh hp hev
    have hko : KeysOK { s with cache := s.cache.putHead A p { h with evalSet := h.involved } } := ho.keys
    have tf := hev.fr hko
    obtain ⟨km, hm1', hm2'⟩ := i.memo
    have hp2 : true = b1' ∧ q1 = q1' ∧ s2 = s1 ∧ km = ck' := by
      cases hpick with
      | own h => rw [hm1'] at h; cases h
      | memo h =>
        rw [hm1'] at h
        simp only [Option.some.injEq, Prod.mk.injEq] at h
        exact ⟨h.1.symm, h.2.1.symm, rfl, h.2.2⟩
    obtain ⟨rfl, rfl, rfl, rfl⟩ := hp2
    have hq : p < q1 := by
      obtain ⟨_, _, _, h⟩ := i.g0.am
      exact h
    have hnew : GGrown body role src A d p q1 t1 ∧
        ∀ q, Peg (groupBody body role) src d.first.deLR p true q → q ≤ q1 := by
      obtain ⟨us, hus, hfs⟩ := i.fst
      rw [hus]
      cases hp with
      | zero g1 g2 g3 =>
        obtain ⟨fs, ts, rfl, hf, hgt⟩ := hfs
        refine ⟨.seed hf hgt, fun q hq' => ?_⟩
        exact Nat.le_of_eq ((hgt.peg hG (hG.refsHead A d hd).1).det hq').2.symm
      | one g1 g2 g3 g4 g5 g6 =>
        rcases hfs with ⟨e', he', _, hv⟩ | ⟨_, hv⟩
        · exact ⟨.grow g2 he' hv, fun q hq' => by have := g4 q hq'; simp only at hlt; omega⟩
        · have := g4 q1 hv
          simp only at hlt; omega
    have hp' : GPhase body role src A d p ms { s2 with next := s2.next + 1 } (true, q1) km := by
      refine .one hm1' ?_ hq hnew.2 (fun X hX => ?_) i.g0.pos
      · rw [show ({ s2 with next := s2.next + 1 } : TSt R).tree km = t1 from hm2']; exact hnew.1
      · rw [show ({ s2 with next := s2.next + 1 } : TSt R).tree km = t1 from hm2']
        exact (i.mc X hX).2.2
    obtain ⟨r1, r2, r3⟩ := ih m2 hm2 (by omega) (i.g0.ok.alloc 1) i.g0.active i.g0.head
      (Nat.lt_succ_of_lt (i.g0.ok.keys _ _ _ _ _ hm1')) hp' hrest
    refine ⟨r1, r2, ifr.trans ?_⟩
    exact (show GrFr role stk s2 { s2 with next := s2.next + 1 } from ⟨fun _ _ => rfl, fun _ _ => rfl, fun _ _ _ _ => rfl⟩).trans r3

/-- Opening a growth. -/
theorem GOK.startGrowth {s : TSt R} (h : GOK body role src stk s) (hd : role A = .head d) (hnot : (A, p) ∉ stk)
    (hh : s.cache.heads A p = none) :
    GOK body role src ((A, p) :: stk) (s.startGrowth d.involved A p) ∧ GrFr role stk s (s.startGrowth d.involved A p) := by
  have hm : s.cache.memo A p = none := by
    cases hm : s.cache.memo A p with
    | none => rfl
    | some v => exact absurd hh (h.memoHead A d p hd (by rw [hm]; simp))
  refine ⟨⟨fun r p' b q k hm => ?_, fun r p' b q k hns hm => ?_, fun r p' h' hns hh' => ?_, fun B d' p' hB hm => ?_,
    fun X B p' hX hm => ?_, fun r p' h' hh' => ?_, fun x hx => ?_⟩, ⟨fun _ _ => rfl, fun x hx => ?_, fun _ _ _ _ => rfl⟩⟩
  · exact Nat.lt_of_lt_of_le (h.keys _ _ _ _ _ hm) (Nat.le_add_right _ _)
  · have := h.keys _ _ _ _ _ hm
    rw [show (s.startGrowth d.involved A p).tree k = s.tree k by
      simp only [TSt.startGrowth, TSt.setTree]
      rw [if_neg (by omega)]]
    exact h.memo _ _ _ _ _ (fun hx => hns (List.mem_cons_of_mem _ hx)) hm
  · simp only [TSt.startGrowth, Cache.setHead, Cache.putHead, Cache.setActive] at hh'
    rw [if_neg (fun hx => hns (by simp [hx.1, hx.2]))] at hh'
    exact h.heads _ _ _ (fun hx => hns (List.mem_cons_of_mem _ hx)) hh'
  · simp only [TSt.startGrowth, Cache.setHead, Cache.putHead, Cache.setActive]
    split
    · simp
    · exact h.memoHead _ _ _ hB hm
  · simp only [TSt.startGrowth, Cache.setHead, Cache.putHead, Cache.setActive]
    split
    · simp
    · exact h.memoMem _ _ _ hX hm
  · simp only [TSt.startGrowth, Cache.setHead, Cache.putHead, Cache.setActive] at hh'
    split at hh'
    · next heq =>
      obtain ⟨rfl, rfl⟩ := heq
      simp only [Option.some.injEq] at hh'
      subst hh'
      exact ⟨d, hd, fun x => mem_toBTreeSet _ _, fun _ hx => hx⟩
    · exact h.inv _ _ _ hh'
  · rcases List.mem_cons.mp hx with rfl | hx
    · exact ⟨d, hd⟩
    · exact h.stk x hx
  · simp only [TSt.startGrowth, Cache.setHead, Cache.putHead, Cache.setActive]
    rw [if_neg]
    rintro ⟨h1, h2⟩
    exact hnot (by rw [← h1, ← h2]; exact hx)

include hC hG hd in
/-- A reference that starts a growth. -/
theorem ggrow (hs : GSafe body role stk (.varNameLR d.involved A) p) {n : Nat} (hn : n ≤ N) {prev s b q k s'}
    (ho : GOK body role src stk s) (hh : s.cache.heads A p = none)
    (he : TGrow body src n A p prev (false, p) s.next (s.next + 1) (s.startGrowth d.involved A p) b q k s') :
    GT body role src [] (.varNameLR d.involved A) p b q [s'.tree k] ∧ GOK body role src stk s' ∧ GrFr role stk s s' := by
  have hnot : (A, p) ∉ stk := fun hx => (hs _ hx).2 rfl (.one .ref)
  obtain ⟨_, e, ms, hbody, hg⟩ := hG.shape A d hd
  obtain ⟨o1, o2⟩ := ho.startGrowth hd hnot hh
  have hph : GPhase body role src A d p ms (s.startGrowth d.involved A p) (false, p) s.next := by
    refine .zero ?_ (fun X hX => ?_) ?_
    · show s.cache.memo A p = none
      cases hm : s.cache.memo A p with
      | none => rfl
      | some v => exact absurd hh (ho.memoHead A d p hd (by rw [hm]; simp))
    · show s.cache.memo X p = none
      cases hm : s.cache.memo X p with
      | none => rfl
      | some v => exact absurd hh (ho.memoMem X A p hX (by rw [hm]; simp))
    · simp [TSt.startGrowth, TSt.setTree]
  obtain ⟨r1, r2, r3⟩ := gloop hC hG hd hnot hs hbody hg n hn (lk := s.next) o1 rfl
    (by simp [TSt.startGrowth, Cache.setHead, Cache.putHead]) (show s.next < s.next + 2 by omega) hph he
  exact ⟨r1, r2, o2.trans r3⟩

end HT

theorem GT.unpre {A : R} {inv : List R} {p b q t} (h : GT body role src [] (.varNameLR inv A) p b q [t]) (pre : List (Tree R)) :
    GT body role src pre (.varNameLR inv A) p b q [t] := by
  cases h with
  | lr_ok h1 h2 h3 => exact .lr_ok h1 h2 h3
  | lr_fail h1 h2 => exact .lr_fail h1 h2

theorem GT.star_true {pre : List (Tree R)} {e : Expr R} {p b q ts} (h : GT body role src pre (.zeroOrMore e) p b q ts) :
    b = true := by
  cases h <;> rfl

/-- Partial correctness for every expression. -/
theorem gclaim_all (hG : GroupLR body role) : ∀ n, GClaim body role src n := by
  intro n
  induction n using Nat.strongRecOn with
  | _ n ih =>
  intro e stk pre p s b q ks s' he ho hs ha hna hpre h
  have app : ∀ {m e1 ks1 s1 b1 q1}, TEv body src m e1 pre p s b1 q1 ks1 s1 → ∀ k ∈ pre ++ ks1, k < s1.next := by
    intro m e1 ks1 s1 b1 q1 h1 k hk
    rcases List.mem_append.mp hk with hk | hk
    · exact Nat.lt_of_lt_of_le (hpre k hk) (h1.fr ho.keys).next
    · exact h1.kids ho.keys k hk
  have pm : ∀ {m e1 ks1 s1 b1 q1}, TEv body src m e1 pre p s b1 q1 ks1 s1 →
      (pre ++ ks1).map s1.tree = pre.map s.tree ++ ks1.map s1.tree := by
    intro m e1 ks1 s1 b1 q1 h1
    rw [List.map_append, (h1.fr ho.keys).map hpre]
  have km : ∀ {m m' e1 e2 pre' p' ks1 s1 b1 q1 ks2 s2 b2 q2}, TEv body src m e1 pre p s b1 q1 ks1 s1 → KeysOK s1 →
      TEv body src m' e2 pre' p' s1 b2 q2 ks2 s2 → (ks1 ++ ks2).map s2.tree = ks1.map s1.tree ++ ks2.map s2.tree := by
    intro m m' e1 e2 pre' p' ks1 s1 b1 q1 ks2 s2 b2 q2 h1 ho1 h2
    rw [List.map_append, (h2.fr ho1).map (h1.kids ho.keys)]
  cases h with
  | @terminal _ c _ _ _ _ _ h1 =>
    exact ⟨.terminal (by have := peg_terminal body src c p; rw [h1] at this; exact this), ho, .refl⟩
  | @string _ c _ _ _ _ _ h1 =>
    exact ⟨.string (by have := peg_string body src c p; rw [h1] at this; exact this), ho, .refl⟩
  | @range _ lo hi _ _ _ _ _ h1 =>
    exact ⟨.range (by have := peg_range body src lo hi p; rw [h1] at this; exact this), ho, .refl⟩
  | @andP _ m e _ _ _ _ _ _ _ hm h1 =>
    obtain ⟨g1, g2, g3⟩ := ih m hm e stk pre p s _ _ _ _ he ho (hs.lift (Nat.le_refl _) fun _ _ h => .andP h)
      (ha.lift fun _ h => .andP h) (fun h B hB => hna h B (.andP hB)) hpre h1
    cases b with
    | true => exact ⟨.and_ok g1, g2, g3⟩
    | false => exact ⟨.and_fail g1, g2, g3⟩
  | @notP _ m e _ _ _ b0 _ _ _ hm h1 =>
    obtain ⟨g1, g2, g3⟩ := ih m hm e stk pre p s _ _ _ _ he ho (hs.lift (Nat.le_refl _) fun _ _ h => .notP h)
      (ha.lift fun _ h => .notP h) (fun h B hB => hna h B (.notP hB)) hpre h1
    cases b0 with
    | true => exact ⟨.not_fail g1, g2, g3⟩
    | false => exact ⟨.not_ok g1, g2, g3⟩
  | @opt_some _ m e _ _ _ _ _ _ hm h1 =>
    obtain ⟨g1, g2, g3⟩ := ih m hm e stk pre p s _ _ _ _ he ho (hs.lift (Nat.le_refl _) fun _ _ h => .opt h)
      (ha.lift fun _ h => .opt h) (fun h B hB => hna h B (.opt hB)) hpre h1
    exact ⟨.opt_some g1, g2, g3⟩
  | @opt_none _ m e _ _ _ _ _ _ hm h1 =>
    obtain ⟨g1, g2, g3⟩ := ih m hm e stk pre p s _ _ _ _ he ho (hs.lift (Nat.le_refl _) fun _ _ h => .opt h)
      (ha.lift fun _ h => .opt h) (fun h B hB => hna h B (.opt hB)) hpre h1
    exact ⟨.opt_none g1, g2, g3⟩
  | @sub_ok _ m e _ _ _ _ _ _ hm h1 =>
    obtain ⟨g1, g2, g3⟩ := ih m hm e stk pre p s _ _ _ _ he ho (hs.lift (Nat.le_refl _) fun _ _ h => .sub h)
      (ha.lift fun _ h => .sub h) (fun h B hB => hna h B (.sub hB)) hpre h1
    exact ⟨.sub_ok g1, g2, g3⟩
  | @sub_fail _ m e _ _ _ _ _ _ hm h1 =>
    obtain ⟨g1, g2, g3⟩ := ih m hm e stk pre p s _ _ _ _ he ho (hs.lift (Nat.le_refl _) fun _ _ h => .sub h)
      (ha.lift fun _ h => .sub h) (fun h B hB => hna h B (.sub hB)) hpre h1
    exact ⟨.sub_fail g1, g2, g3⟩
  | @seq_fail1 _ m a c _ _ _ _ _ _ hm h1 =>
    obtain ⟨g1, g2, g3⟩ := ih m hm a stk pre p s _ _ _ _ he.1 ho (hs.lift (Nat.le_refl _) fun _ _ h => .fst h)
      (ha.lift fun _ h => .fst h) (fun h B hB => hna h B (.fst hB)) hpre h1
    exact ⟨.seq_fail1 g1, g2, g3⟩
  | @seq_fail2 _ m1 m2 a c _ _ _ q1 q2 ks1 ks2 s1 _ hm1 hm2 h1 h2 =>
    obtain ⟨g1, g2, g3⟩ := ih m1 hm1 a stk pre p s _ _ _ _ he.1 ho (hs.lift (Nat.le_refl _) fun _ _ h => .fst h)
      (ha.lift fun _ h => .fst h) (fun h B hB => hna h B (.fst hB)) hpre h1
    have hpg := g1.peg hG he.1
    obtain ⟨i1, i2, i3⟩ := ih m2 hm2 c stk _ q1 s1 _ _ _ _ he.2 g2
      (hs.lift (by have := hpg.bounds.2; omega) fun hq _ h => .snd (hpg.mayBeEmpty rfl hq) h)
      (by rw [h1.active ho.keys]; exact ha.lift fun _ h => .snd h)
      (by rw [h1.active ho.keys]; exact fun h B hB => hna h B (.snd hB)) (app h1) h2
    rw [pm h1] at i1
    rw [km h1 g2.keys h2]
    exact ⟨.seq_fail2 g1 i1, i2, g3.trans i3⟩
  | @seq_ok _ m1 m2 a c _ _ _ q1 q2 ks1 ks2 s1 _ hm1 hm2 h1 h2 =>
    obtain ⟨g1, g2, g3⟩ := ih m1 hm1 a stk pre p s _ _ _ _ he.1 ho (hs.lift (Nat.le_refl _) fun _ _ h => .fst h)
      (ha.lift fun _ h => .fst h) (fun h B hB => hna h B (.fst hB)) hpre h1
    have hpg := g1.peg hG he.1
    obtain ⟨i1, i2, i3⟩ := ih m2 hm2 c stk _ q1 s1 _ _ _ _ he.2 g2
      (hs.lift (by have := hpg.bounds.2; omega) fun hq _ h => .snd (hpg.mayBeEmpty rfl hq) h)
      (by rw [h1.active ho.keys]; exact ha.lift fun _ h => .snd h)
      (by rw [h1.active ho.keys]; exact fun h B hB => hna h B (.snd hB)) (app h1) h2
    rw [pm h1] at i1
    rw [km h1 g2.keys h2]
    exact ⟨.seq_ok g1 i1, i2, g3.trans i3⟩
  | @choice_left _ m a c _ _ _ _ _ _ hm h1 =>
    obtain ⟨g1, g2, g3⟩ := ih m hm a stk pre p s _ _ _ _ he.1 ho (hs.lift (Nat.le_refl _) fun _ _ h => .left h)
      (ha.lift fun _ h => .left h) (fun h B hB => hna h B (.left hB)) hpre h1
    exact ⟨.choice_left g1, g2, g3⟩
  | @choice_right _ m1 m2 a c _ _ _ q1 q2 ks1 ks2 s1 _ hm1 hm2 h1 h2 =>
    obtain ⟨g1, g2, g3⟩ := ih m1 hm1 a stk pre p s _ _ _ _ he.1 ho (hs.lift (Nat.le_refl _) fun _ _ h => .left h)
      (ha.lift fun _ h => .left h) (fun h B hB => hna h B (.left hB)) hpre h1
    obtain ⟨i1, i2, i3⟩ := ih m2 hm2 c stk _ p s1 _ _ _ _ he.2 g2 (hs.lift (Nat.le_refl _) fun _ _ h => .right h)
      (by rw [h1.active ho.keys]; exact ha.lift fun _ h => .right h)
      (by rw [h1.active ho.keys]; exact fun h B hB => hna h B (.right hB)) (app h1) h2
    rw [pm h1] at i1
    rw [km h1 g2.keys h2]
    exact ⟨.choice_right g1 i1, i2, g3.trans i3⟩
  | @choice_fail _ m1 m2 a c _ _ _ q1 q2 ks1 ks2 s1 _ hm1 hm2 h1 h2 =>
    obtain ⟨g1, g2, g3⟩ := ih m1 hm1 a stk pre p s _ _ _ _ he.1 ho (hs.lift (Nat.le_refl _) fun _ _ h => .left h)
      (ha.lift fun _ h => .left h) (fun h B hB => hna h B (.left hB)) hpre h1
    obtain ⟨i1, i2, i3⟩ := ih m2 hm2 c stk _ p s1 _ _ _ _ he.2 g2 (hs.lift (Nat.le_refl _) fun _ _ h => .right h)
      (by rw [h1.active ho.keys]; exact ha.lift fun _ h => .right h)
      (by rw [h1.active ho.keys]; exact fun h B hB => hna h B (.right hB)) (app h1) h2
    rw [pm h1] at i1
    rw [km h1 g2.keys h2]
    exact ⟨.choice_fail g1 i1, i2, g3.trans i3⟩
  | @star_stop _ m e _ _ _ _ _ _ hm h1 =>
    obtain ⟨g1, g2, g3⟩ := ih m hm e stk pre p s _ _ _ _ he ho (hs.lift (Nat.le_refl _) fun _ _ h => .star h)
      (ha.lift fun _ h => .star h) (fun h B hB => hna h B (.star hB)) hpre h1
    exact ⟨.star_stop g1, g2, g3⟩
  | @star_step _ m1 m2 e _ _ _ q1 q2 _ ks1 ks2 s1 _ hm1 hm2 h1 h2 =>
    obtain ⟨g1, g2, g3⟩ := ih m1 hm1 e stk pre p s _ _ _ _ he ho (hs.lift (Nat.le_refl _) fun _ _ h => .star h)
      (ha.lift fun _ h => .star h) (fun h B hB => hna h B (.star hB)) hpre h1
    have hpg := g1.peg hG he
    obtain ⟨i1, i2, i3⟩ := ih m2 hm2 (.zeroOrMore e) stk _ q1 s1 _ _ _ _ he g2
      (hs.lift (by have := hpg.bounds.2; omega) fun _ _ h => h)
      (by rw [h1.active ho.keys]; exact ha) (by rw [h1.active ho.keys]; exact hna) (app h1) h2
    rw [pm h1] at i1
    rw [km h1 g2.keys h2]
    have hb : b = true := i1.star_true
    subst hb
    exact ⟨.star_step g1 i1, i2, g3.trans i3⟩
  | @plus_fail _ m e _ _ _ _ _ _ hm h1 =>
    obtain ⟨g1, g2, g3⟩ := ih m hm e stk pre p s _ _ _ _ he ho (hs.lift (Nat.le_refl _) fun _ _ h => .plus h)
      (ha.lift fun _ h => .plus h) (fun h B hB => hna h B (.plus hB)) hpre h1
    exact ⟨.plus_fail g1, g2, g3⟩
  | @plus_ok _ m1 m2 e _ _ _ q1 q2 _ ks1 ks2 s1 _ hm1 hm2 h1 h2 =>
    have hs' : GSafe body role stk e p := hs.lift (Nat.le_refl _) fun _ _ h => .plus h
    have ha' : GAct body role s.cache.active e := ha.lift fun _ h => .plus h
    have hna' : s.cache.active = none → ∀ B, ¬ CallsLR body e B := fun h B hB => hna h B (.plus hB)
    obtain ⟨g1, g2, g3⟩ := ih m1 hm1 e stk pre p s _ _ _ _ he ho hs' ha' hna' hpre h1
    have hpg := g1.peg hG he
    obtain ⟨i1, i2, i3⟩ := ih m2 hm2 (.zeroOrMore e) stk _ q1 s1 _ _ _ _ he g2
      (hs'.lift (by have := hpg.bounds.2; omega) fun _ _ h => (by
        cases h with
        | star h => exact h))
      (by rw [h1.active ho.keys]; exact ha'.lift fun _ h => (by
        cases h with
        | star h => exact h)) (by rw [h1.active ho.keys]; exact fun h B hB => (by
        cases hB with
        | star hB => exact hna' h B hB)) (app h1) h2
    rw [pm h1] at i1
    rw [km h1 g2.keys h2]
    have hb : b = true := i1.star_true
    subst hb
    exact ⟨.plus_ok g1 i1, i2, g3.trans i3⟩
  | @inl _ m r _ _ _ _ _ _ _ hm h1 =>
    have hr : role r = .plain := he
    obtain ⟨g1, g2, g3⟩ := ih m hm (body r) stk pre p s _ _ _ _ (hG.refs r hr) ho
      (fun x hx => ⟨(hs x hx).1, fun h3 h4 => (hs x hx).2 h3 (.step .inl (by rw [groupBody_plain hr]; exact h4))⟩)
      (ha.lift fun _ h => .inl h) (fun h B hB => hna h B (.inl hB)) hpre h1
    exact ⟨.inl g1, g2, g3⟩
  | @ref_hit _ r _ _ _ _ _ k hm =>
    have hr : role r = .plain := he
    have hns : (r, p) ∉ stk := fun hx => by
      obtain ⟨d, hd⟩ := ho.stk _ hx
      rw [hr] at hd; cases hd
    have := ho.memo r p b q k hns hm
    simp only [MOK, hr] at this
    refine ⟨?_, ho, .refl⟩
    simp only [List.map_cons, List.map_nil]
    generalize s.tree k = t at this
    cases this with
    | ref h => exact .ref h
  | @ref_miss _ m r _ _ _ _ _ ks0 s0 hm hmm h1 =>
    have hr : role r = .plain := he
    obtain ⟨g1, g2, g3⟩ := ih m hm (body r) stk [] p { s with next := s.next + 1 } _ _ _ _ (hG.refs r hr) (ho.alloc 1)
      (fun x hx => ⟨(hs x hx).1, fun h3 h4 => (hs x hx).2 h3 (.step .ref (by rw [groupBody_plain hr]; exact h4))⟩)
      (ha.lift fun _ h => .ref h) (fun h B hB => hna h B (.ref hB)) (by simp) h1
    have hfr := h1.fr (ho.alloc 1).keys
    have hfresh := alloc_fresh (s := s) (by rfl) ho.keys hfr
    have hnx : s.next < s0.next := hfr.next
    have hgt : ∀ pre', GT body role src pre' (.varName r) p b q [Tree.mk r p b q (ks0.map s0.tree)] := fun _ => .ref (by simpa using g1)
    have hne : ∀ x ∈ stk, x.1 ≠ r := fun x hx hxr => by
      obtain ⟨d, hd⟩ := ho.stk _ hx
      rw [hxr, hr] at hd; cases hd
    refine ⟨?_, g2.put hnx hfresh (fun _ => by simp only [MOK, hr]; exact hgt []) (fun d hd => by rw [hr] at hd; cases hd)
      (fun A hA => by rw [hr] at hA; cases hA), ?_⟩
    · simp only [List.map_cons, List.map_nil, put_tree_self]
      exact hgt _
    · refine GrFr.trans (b := s0) ⟨g3.memo, g3.heads, g3.mem⟩ ⟨fun x hx => put_memo fun h => hne x hx h.1, fun _ _ => rfl,
        fun x hx X hX => put_memo fun h => ?_⟩
      rw [h.1, hr] at hX; cases hX
  | @lr_eval _ m inv r A pa hd' _ _ _ _ _ _ _ hm hact hh hor hin h1 =>
    obtain ⟨d, hd, hi, hsub⟩ := ho.inv _ _ _ hh
    exact absurd ((hi r).mp (hsub r hin)) (ha A pa hact d hd r .lr)
  | @lr_memo _ inv r A pa hd' _ _ _ _ _ k hact hh hor hin hm =>
    obtain ⟨d, hd, rfl⟩ := he
    have hns : (r, p) ∉ stk := fun hx => (hs _ hx).2 rfl (.one .ref)
    have := ho.memo r p b q k hns hm
    simp only [MOK, hd] at this
    refine ⟨?_, ho, .refl⟩
    split
    · next hk => exact .lr_dup hd (List.mem_map_of_mem hk) this
    · exact this.unpre _
  | @lr_none _ inv r A pa hd' _ _ _ hact hh hor hin hm =>
    obtain ⟨dA, hdA, hi, hsub⟩ := ho.inv _ _ _ hh
    have hns : (r, p) ∉ stk := fun hx => (hs _ hx).2 rfl (.one .ref)
    rcases hor with hor | hor
    · cases hhr : s.cache.heads r p with
      | none => exact absurd hhr hor
      | some h => exact absurd hm (ho.heads r p h hns hhr)
    · exact absurd ((hi r).mp hor) (ha A pa hact dA hdA r .lr)
  | @lr_grow _ m inv r _ _ _ _ _ k _ hm hno h1 =>
    obtain ⟨d, hd, rfl⟩ := he
    have hh : s.cache.heads r p = none := by
      cases hact : s.cache.active with
      | none => exact absurd .lr (hna hact r)
      | some v => exact (hno v.1 v.2 hact).1
    obtain ⟨g1, g2, g3⟩ := ggrow (N := n) (fun n' hn' => ih n' hn') hG hd hs (n := m) (by omega) ho hh h1
    exact ⟨g1.unpre _, g2, g3⟩

end PP
