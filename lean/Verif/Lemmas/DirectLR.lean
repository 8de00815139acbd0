import Verif.Lemmas.PegTotal
import Verif.Lemmas.Pack
import Verif.Spec.Iterate

/-! # Direct left recursion: the growth algorithm computes the iterative grammar -/
set_option linter.unusedSectionVars false
namespace PP
variable {R U : Type} [DecidableEq R]

/-- Rules reachable without consumption. -/
inductive FReach (body : R → Expr R) : Expr R → R → Prop where
  | one {e r} : FirstRef body e r → FReach body e r
  | step {e r r'} : FirstRef body e r → FReach body (body r) r' → FReach body e r'

theorem FReach.lift {body : R → Expr R} {e e' : Expr R} (h : ∀ r, FirstRef body e r → FirstRef body e' r) {r}
    (hr : FReach body e r) : FReach body e' r := by
  cases hr with
  | one h1 => exact .one (h _ h1)
  | step h1 h2 => exact .step (h _ h1) h2

theorem FReach.trans' {body : R → Expr R} {e : Expr R} {r r' : R} (h : FReach body e r) (h' : FReach body (body r) r') :
    FReach body e r' := by
  induction h with
  | one h1 => exact .step h1 h'
  | step h1 _ ih => exact .step h1 (ih h')

theorem FReach.irrefl {body : R → Expr R} (wf : WellFormed body) (r : R) : ¬ FReach body (body r) r := by
  have key : ∀ r, ¬ FReach body (body r) r := by
    intro r
    induction r using wf.noCycle.induction with
    | _ r ih =>
      intro h
      cases h with
      | one h1 => exact ih r h1 (.one h1)
      | step h1 h2 => exact ih _ h1 (h2.trans' (.one h1))
  exact key r

theorem peg_terminal (body : R → Expr R) (src : Source) (c : UInt8) (p : Nat) :
    Peg body src (.terminal c) p (terminalKernel src p c).1 (terminalKernel src p c).2 := by
  unfold terminalKernel
  split
  · next h => exact .terminal_ok (getChar_eq_some.mp h).1 (getChar_eq_some.mp h).2
  · next h => exact .terminal_fail (fun h' => h (getChar_eq_some.mpr h'))

theorem peg_range (body : R → Expr R) (src : Source) (lo hi p : Nat) :
    Peg body src (.matchRange lo hi) p (matchRangeKernel src p lo hi).1 (matchRangeKernel src p lo hi).2 := by
  unfold matchRangeKernel
  split
  · next v h =>
    have h' := getChar_eq_some.mp h
    split
    · next h2 => exact .range_ok h'.1 h'.2 h2.1 h2.2
    · next h2 =>
      refine .range_fail ?_
      rintro ⟨c, c1, c2, c3, c4⟩
      have : c = v := by rw [h'.2] at c2; exact (Option.some.inj c2).symm
      subst this; exact h2 ⟨c3, c4⟩
  · next h =>
    refine .range_fail ?_
    rintro ⟨c, c1, c2, c3, c4⟩
    rw [getChar_eq_some.mpr ⟨c1, c2⟩] at h; cases h

theorem peg_string (body : R → Expr R) (src : Source) (d : List UInt8) (p : Nat) :
    Peg body src (.stringTerminal d) p (stringTerminalKernel src p d).1 (stringTerminalKernel src p d).2 := by
  unfold stringTerminalKernel
  rw [stringTerminalLoop_eq]
  split
  · next h => exact .string_ok h.1 h.2
  · next h => exact .string_fail h

section
variable (P : Parser R U) (src : Source) (lr : R → Option (LRDecl R))

/-- State invariant; `stk` are the growths in progress. -/
structure StOK (stk : List (R × Nat)) (st : St R U) : Prop where
  memo : ∀ r p b q k, (r, p) ∉ stk → st.cache.memo r p = some (b, q, k) → Peg (iterBody P.body lr) src (.varName r) p b q
  heads : ∀ r p h, (r, p) ∉ stk → st.cache.heads r p = some h → st.cache.memo r p ≠ none
  inv : ∀ r p h, st.cache.heads r p = some h → ∃ d, lr r = some d ∧ (∀ x ∈ h.involved, x ∈ d.involved) ∧
    (∀ x ∈ h.evalSet, x ∈ h.involved)
  stk : ∀ x ∈ stk, lr x.1 ≠ none

/-- The active growth does not involve a rule that `e` may call. -/
def ActOK (act : Option (R × Nat)) (e : Expr R) : Prop :=
  ∀ A pa, act = some (A, pa) → ∀ d, lr A = some d → ∀ B, CallsLR P.body e B → B ∉ d.involved

/-- `e` at `p` does not call a growth in progress. -/
def Safe (stk : List (R × Nat)) (e : Expr R) (p : Nat) : Prop :=
  ∀ x ∈ stk, x.2 ≤ p ∧ (x.2 = p → ¬ FReach (iterBody P.body lr) e.deLR x.1)

/-- What a call leaves alone. -/
structure Fr (stk : List (R × Nat)) (st st' : St R U) : Prop where
  active : st'.cache.active = st.cache.active
  memo : ∀ x ∈ stk, st'.cache.memo x.1 x.2 = st.cache.memo x.1 x.2
  heads : ∀ x ∈ stk, st'.cache.heads x.1 x.2 = st.cache.heads x.1 x.2

variable {P src lr}

theorem Fr.refl {stk : List (R × Nat)} {st : St R U} : Fr stk st st := ⟨rfl, fun _ _ => rfl, fun _ _ => rfl⟩
theorem Fr.trans {stk : List (R × Nat)} {a b c : St R U} (h : Fr stk a b) (h' : Fr stk b c) : Fr stk a c :=
  ⟨h'.active.trans h.active, fun x hx => (h'.memo x hx).trans (h.memo x hx), fun x hx => (h'.heads x hx).trans (h.heads x hx)⟩
theorem Fr.of_cache {stk : List (R × Nat)} {st st' : St R U} (h : st'.cache = st.cache) : Fr stk st st' := by
  constructor <;> simp [h]
theorem Fr.sub {stk stk' : List (R × Nat)} {st st' : St R U} (h : Fr stk' st st') (hs : ∀ x ∈ stk, x ∈ stk') : Fr stk st st' :=
  ⟨h.active, fun x hx => h.memo x (hs x hx), fun x hx => h.heads x (hs x hx)⟩
theorem StOK.of_cache {stk : List (R × Nat)} {st st' : St R U} (h : StOK P src lr stk st) (hc : st'.cache = st.cache) :
    StOK P src lr stk st' := by
  constructor
  · rw [hc]; exact h.memo
  · rw [hc]; exact h.heads
  · rw [hc]; exact h.inv
  · exact h.stk

theorem connectIf_eqs {st st' : St R U} {a b : Nat} (h : st.connectIfNotConnected a b = .ok st') :
    st'.cache = st.cache := by
  unfold St.connectIfNotConnected at h
  rw [Out.bind_eq_ok] at h
  obtain ⟨pb, h1, h2⟩ := h
  cases h2; rfl

/-- Partial correctness of expressions without head references, at fuel `n`. -/
def Claim (P : Parser R U) (src : Source) (lr : R → Option (LRDecl R)) (n : Nat) : Prop :=
  ∀ (e : Expr R) stk parent p st b q st', e.RefsOK lr → StOK P src lr stk st → Safe P lr stk e p →
    ActOK P lr st.cache.active e → eval P src n e parent p st = .ok (b, q, st') →
    Peg (iterBody P.body lr) src e.deLR p b q ∧ StOK P src lr stk st' ∧ Fr stk st st'

theorem Safe.lift {stk : List (R × Nat)} {e e' : Expr R} {p p' : Nat} (h : Safe P lr stk e p) (hp : p ≤ p')
    (hr : p' = p → ∀ r, FirstRef (iterBody P.body lr) e'.deLR r → FirstRef (iterBody P.body lr) e.deLR r) : Safe P lr stk e' p' := by
  intro x hx
  obtain ⟨h1, h2⟩ := h x hx
  refine ⟨by omega, fun h3 h4 => ?_⟩
  exact h2 (by omega) (h4.lift (hr (by omega)))

theorem Safe.later {stk : List (R × Nat)} {e : Expr R} {p p' : Nat} (h : ∀ x ∈ stk, x.2 ≤ p) (hp : p < p') :
    Safe P lr stk e p' := by
  intro x hx
  have := h x hx
  exact ⟨by omega, fun h3 => by omega⟩

theorem ActOK.lift {act : Option (R × Nat)} {e e' : Expr R} (h : ActOK P lr act e)
    (hr : ∀ r, CallsLR P.body e' r → CallsLR P.body e r) : ActOK P lr act e' :=
  fun A pa ha d hd B hB => h A pa ha d hd B (hr B hB)

/-! ## Seeds -/

/-- The outcome of one evaluation of `A`'s body at `p`, when the head reference yields the seed `m`. -/
def FSpec (P : Parser R U) (src : Source) (lr : R → Option (LRDecl R)) (d : LRDecl R) (p : Nat)
    (m : Option (Bool × Nat × Nat)) (b : Bool) (q : Nat) : Prop :=
  (∃ s k, m = some (true, s, k) ∧ b = true ∧ Peg (iterBody P.body lr) src d.tail.deLR s true q) ∨
  (∃ s k, m = some (true, s, k) ∧ Peg (iterBody P.body lr) src d.tail.deLR s false s ∧
      Peg (iterBody P.body lr) src d.first.deLR p b q) ∨
  ((∀ s k, m ≠ some (true, s, k)) ∧ Peg (iterBody P.body lr) src d.first.deLR p b q)

/-- Seeds that may be found in the memo table during growth at `p`. -/
def SeedOK (p : Nat) (m : Option (Bool × Nat × Nat)) : Prop := ∀ s k, m = some (true, s, k) → p < s

theorem fspec_pos (hD : DirectLR P.body lr) {A : R} {d : LRDecl R} (hd : lr A = some d) {p m b q}
    (hm : SeedOK p m) (h : FSpec P src lr d p m b q) : b = true → p < q := by
  intro hb
  subst hb
  have first : Peg (iterBody P.body lr) src d.first.deLR p true q → p < q := fun hp => by
    rcases hp.bounds.2 with h | h
    · exact absurd (hp.mayBeEmpty rfl h) (hD.firstConsumes A d hd)
    · exact h.1
  rcases h with ⟨s, k, h1, _, h2⟩ | ⟨_, _, _, _, h⟩ | ⟨_, h⟩
  · have := hm s k h1
    have := h2.bounds.2
    omega
  · exact first h
  · exact first h

/-- The outcome of a head expression with tail `t` for the seed `m`. -/
def HTSpec (P : Parser R U) (src : Source) (lr : R → Option (LRDecl R)) (t : Expr R) (m : Option (Bool × Nat × Nat))
    (b : Bool) (q : Nat) : Prop :=
  (∃ s k, m = some (true, s, k) ∧ ((b = true ∧ Peg (iterBody P.body lr) src t.deLR s true q) ∨
      (b = false ∧ Peg (iterBody P.body lr) src t.deLR s false s))) ∨
  ((∀ s k, m ≠ some (true, s, k)) ∧ b = false)

theorem HTSpec.of_true {t : Expr R} {m q} (h : HTSpec P src lr t m true q) :
    ∃ s k, m = some (true, s, k) ∧ Peg (iterBody P.body lr) src t.deLR s true q := by
  rcases h with ⟨s, k, h, h' | h'⟩ | h
  · exact ⟨s, k, h, h'.2⟩
  · cases h'.1
  · cases h.2

theorem HTSpec.of_false {t : Expr R} {m q} (h : HTSpec P src lr t m false q) :
    (∃ s k, m = some (true, s, k) ∧ Peg (iterBody P.body lr) src t.deLR s false s) ∨ (∀ s k, m ≠ some (true, s, k)) := by
  rcases h with ⟨s, k, h, h' | h'⟩ | h
  · cases h'.1
  · exact Or.inl ⟨s, k, h, h'.2⟩
  · exact Or.inr h.1

theorem HTSpec.mk_true {t : Expr R} {m s k q} (h : m = some (true, s, k))
    (h' : Peg (iterBody P.body lr) src t.deLR s true q) : HTSpec P src lr t m true q :=
  Or.inl ⟨s, k, h, Or.inl ⟨rfl, h'⟩⟩

theorem HTSpec.mk_false {t : Expr R} {m s k q} (h : m = some (true, s, k))
    (h' : Peg (iterBody P.body lr) src t.deLR s false s) : HTSpec P src lr t m false q :=
  Or.inl ⟨s, k, h, Or.inr ⟨rfl, h'⟩⟩

theorem HTSpec.mk_none {t : Expr R} {m q} (h : ∀ s k, m ≠ some (true, s, k)) : HTSpec P src lr t m false q :=
  Or.inr ⟨h, rfl⟩

section HT
variable {N : Nat} (hC : ∀ n, n ≤ N → Claim P src lr n) (hD : DirectLR P.body lr)
variable {A : R} {d : LRDecl R} (hd : lr A = some d) {p : Nat} {stk : List (R × Nat)} (hpos : ∀ x ∈ stk, x.2 ≤ p)

/-- State while growing `(A, p)` in which the head reference is answered from the memo table. -/
structure L0 (P : Parser R U) (src : Source) (lr : R → Option (LRDecl R)) (A : R) (p : Nat) (stk : List (R × Nat))
    (m : Option (Bool × Nat × Nat)) (st : St R U) : Prop where
  ok : StOK P src lr ((A, p) :: stk) st
  active : st.cache.active = some (A, p)
  head : ∃ h, st.cache.heads A p = some h ∧ A ∉ h.evalSet ∧ A ∈ h.involved
  memo : st.cache.memo A p = m

theorem L0.next {m : Option (Bool × Nat × Nat)} {st st' : St R U} (h : L0 P src lr A p stk m st)
    (ho : StOK P src lr ((A, p) :: stk) st') (hf : Fr ((A, p) :: stk) st st') : L0 P src lr A p stk m st' := by
  refine ⟨ho, hf.active.trans h.active, ?_, ?_⟩
  · have := hf.heads (A, p) (by simp)
    simp only at this
    rw [this]; exact h.head
  · have := hf.memo (A, p) (by simp)
    simp only at this
    rw [this]; exact h.memo

/-- The head reference at level 0 is answered from the memo table. -/
theorem head0 {inv : List R} {m : Option (Bool × Nat × Nat)} {n parent : Nat} {st st1 : St R U} {b1 : Bool} {q1 : Nat}
    (hl : L0 P src lr A p stk m st) (h1 : eval P src n (.varNameLR inv A) parent p st = .ok (b1, q1, st1)) :
    st1.cache = st.cache ∧ ((∃ k, m = some (b1, q1, k)) ∨ (m = none ∧ b1 = false ∧ q1 = p)) := by
  cases n with
  | zero => cases h1
  | succ n =>
    obtain ⟨hh, hh1, hh2, hh3⟩ := hl.head
    simp only [eval, varNameLRKernel, shouldGrow, hl.active, Cache.checkHead, hh1, Out.bind_ok, Bool.false_eq_true,
      if_false, lrInner, Cache.ruleInEvalSet] at h1
    rw [if_neg (by simpa using hh2)] at h1
    simp only [Cache.check, hl.memo] at h1
    cases m with
    | none =>
      simp at h1
      obtain ⟨rfl, rfl, rfl⟩ := h1
      exact ⟨rfl, Or.inr ⟨rfl, rfl, rfl⟩⟩
    | some v =>
      obtain ⟨mb, mq, mk⟩ := v
      simp only at h1
      rw [Out.bind_eq_ok] at h1
      obtain ⟨st2, g1, g2⟩ := h1
      simp at g2
      obtain ⟨rfl, rfl, rfl⟩ := g2
      exact ⟨connectIf_eqs g1, Or.inl ⟨mk, rfl⟩⟩

include hC hD hd hpos in
/-- The head expression at level 0. -/
theorem ht0 {e t : Expr R} (hht : HeadTail d.involved A e t) (ht : t.RefsOK lr)
    (hcall : ∀ B, CallsLR P.body t B → CallsLR P.body d.tail B) {m : Option (Bool × Nat × Nat)} (hm : SeedOK p m) :
    ∀ n, n ≤ N + 1 → ∀ parent st b q st', L0 P src lr A p stk m st →
      eval P src n e parent p st = .ok (b, q, st') →
      L0 P src lr A p stk m st' ∧ Fr ((A, p) :: stk) st st' ∧
      HTSpec P src lr t m b q := by
  -- the tail, from a position after `p`
  have tailStep : ∀ (c : Expr R), c.RefsOK lr → (∀ B, CallsLR P.body c B → CallsLR P.body d.tail B) →
      ∀ n, n ≤ N → ∀ parent s st b q st', p < s → L0 P src lr A p stk m st →
      eval P src n c parent s st = .ok (b, q, st') →
      Peg (iterBody P.body lr) src c.deLR s b q ∧ L0 P src lr A p stk m st' ∧ Fr ((A, p) :: stk) st st' := by
    intro c hc hcc n hn parent s st b q st' hs hl he
    obtain ⟨h1, h2, h3⟩ := hC n hn c ((A, p) :: stk) parent s st b q st' hc hl.ok
      (Safe.later (p := p) (by simpa using hpos) hs)
      (fun A' pa ha d' hd' B hB => by
        rw [hl.active] at ha
        obtain ⟨rfl, rfl⟩ : A = A' ∧ p = pa := by simpa using ha
        rw [hd] at hd'; cases hd'
        exact hD.noReentry A d hd B (Or.inr (hcc B hB))) he
    exact ⟨h1, hl.next h2 h3, h3⟩
  have falseOf : ∀ {c : Expr R} {s b q}, Peg (iterBody P.body lr) src c s b q → b = false → Peg (iterBody P.body lr) src c s false s := by
    intro c s b q h hb
    subst hb
    have := h.bounds.1 rfl
    subst this; exact h
  induction hht with
  | @base t =>
    intro n hn parent st b q st' hl he
    cases n with
    | zero => cases he
    | succ n =>
      simp only [eval, sequenceKernel] at he
      rw [Out.bind_eq_ok] at he
      obtain ⟨⟨b1, q1, st1⟩, h1, h2⟩ := he
      have head := head0 hl h1
      have hl1 : L0 P src lr A p stk m st1 := hl.next (hl.ok.of_cache head.1) (.of_cache head.1)
      have hf1 : Fr ((A, p) :: stk) st st1 := .of_cache head.1
      dsimp only at h2
      cases b1 with
      | false =>
        simp at h2
        obtain ⟨rfl, rfl, rfl⟩ := h2
        refine ⟨hl1, hf1, .mk_none fun s k hmk => ?_⟩
        subst hmk
        rcases head.2 with ⟨k', h⟩ | ⟨h, _⟩ <;> cases h
      | true =>
        have hseed : ∃ k, m = some (true, q1, k) := by
          rcases head.2 with h | ⟨_, h, _⟩
          · exact h
          · cases h
        obtain ⟨k, rfl⟩ := hseed
        have hq1 : p < q1 := hm _ _ rfl
        simp only [if_true] at h2
        rw [Out.bind_eq_ok] at h2
        obtain ⟨⟨b2, q2, st2⟩, h3, h4⟩ := h2
        obtain ⟨g1, g2, g3⟩ := tailStep t ht hcall n (by omega) _ _ _ _ _ _ hq1 hl1 h3
        dsimp only at h4
        cases b2 with
        | true =>
          simp at h4
          obtain ⟨rfl, rfl, rfl⟩ := h4
          exact ⟨g2, hf1.trans g3, .mk_true rfl g1⟩
        | false =>
          simp at h4
          obtain ⟨rfl, rfl, rfl⟩ := h4
          exact ⟨g2, hf1.trans g3, .mk_false rfl (falseOf g1 rfl)⟩
  | @seq e t c _ ih =>
    intro n hn parent st b q st' hl he
    cases n with
    | zero => cases he
    | succ n =>
      simp only [eval, sequenceKernel] at he
      rw [Out.bind_eq_ok] at he
      obtain ⟨⟨b1, q1, st1⟩, h1, h2⟩ := he
      obtain ⟨i1, i2, i3⟩ := ih ht.1 (fun B hB => hcall B (.fst hB)) n (by omega) _ _ _ _ _ hl h1
      dsimp only at h2
      cases b1 with
      | false =>
        simp at h2
        obtain ⟨rfl, rfl, rfl⟩ := h2
        refine ⟨i1, i2, ?_⟩
        rcases i3.of_false with ⟨s, k, hs, h⟩ | h
        · exact .mk_false hs (.seq_fail1 h)
        · exact .mk_none h
      | true =>
        simp only [if_true] at h2
        rw [Out.bind_eq_ok] at h2
        obtain ⟨⟨b2, q2, st2⟩, h3, h4⟩ := h2
        obtain ⟨s, k, hms, h⟩ := i3.of_true
        have hs : p < s := hm _ _ hms
        have hb := h.bounds.2
        obtain ⟨g1, g2, g3⟩ := tailStep c ht.2 (fun B hB => hcall B (.snd hB)) n (by omega) _ _ _ _ _ _ (by omega : p < q1) i1 h3
        dsimp only at h4
        cases b2 with
        | true =>
          simp at h4
          obtain ⟨rfl, rfl, rfl⟩ := h4
          exact ⟨g2, i2.trans g3, .mk_true hms (.seq_ok h g1)⟩
        | false =>
          simp at h4
          obtain ⟨rfl, rfl, rfl⟩ := h4
          exact ⟨g2, i2.trans g3, .mk_false hms (.seq_fail2 h g1)⟩
  | @sub e t _ ih =>
    intro n hn parent st b q st' hl he
    cases n with
    | zero => cases he
    | succ n =>
      simp only [eval, subexpressionKernel] at he
      rw [Out.bind_eq_ok] at he
      obtain ⟨⟨b1, q1, st1⟩, h1, h2⟩ := he
      obtain ⟨i1, i2, i3⟩ := ih ht hcall n (by omega) _ _ _ _ _ hl h1
      dsimp only at h2
      cases b1 with
      | false =>
        simp at h2
        obtain ⟨rfl, rfl, rfl⟩ := h2
        exact ⟨i1, i2, i3.of_false.elim (fun ⟨_, _, hs, h⟩ => .mk_false hs h) .mk_none⟩
      | true =>
        simp at h2
        obtain ⟨rfl, rfl, rfl⟩ := h2
        exact ⟨i1, i2, i3⟩
  | @choice e t e' t' _ _ ih ih' =>
    intro n hn parent st b q st' hl he
    cases n with
    | zero => cases he
    | succ n =>
      simp only [eval, orderedChoiceKernel] at he
      rw [Out.bind_eq_ok] at he
      obtain ⟨⟨b1, q1, st1⟩, h1, h2⟩ := he
      obtain ⟨i1, i2, i3⟩ := ih ht.1 (fun B hB => hcall B (.left hB)) n (by omega) _ _ _ _ _ hl h1
      dsimp only at h2
      cases b1 with
      | true =>
        simp at h2
        obtain ⟨rfl, rfl, rfl⟩ := h2
        obtain ⟨s, k, hms, h⟩ := i3.of_true
        exact ⟨i1, i2, .mk_true hms (.choice_left h)⟩
      | false =>
        simp only [Bool.false_eq_true, if_false] at h2
        rw [Out.bind_eq_ok] at h2
        obtain ⟨⟨b2, q2, st2⟩, h3, h4⟩ := h2
        obtain ⟨j1, j2, j3⟩ := ih' ht.2 (fun B hB => hcall B (.right hB)) n (by omega) _ _ _ _ _ i1 h3
        dsimp only at h4
        cases b2 with
        | true =>
          simp at h4
          obtain ⟨rfl, rfl, rfl⟩ := h4
          obtain ⟨s, k, hms, h'⟩ := j3.of_true
          rcases i3.of_false with ⟨s', k', hs, h⟩ | h
          · rw [hms] at hs; cases hs
            exact ⟨j1, i2.trans j2, .mk_true hms (.choice_right h h')⟩
          · exact absurd hms (h s k)
        | false =>
          simp at h4
          obtain ⟨rfl, rfl, rfl⟩ := h4
          refine ⟨j1, i2.trans j2, ?_⟩
          rcases i3.of_false with ⟨s, k, hs, h⟩ | h
          · rcases j3.of_false with ⟨s', k', hs', h'⟩ | h'
            · rw [hs] at hs'; cases hs'
              exact .mk_false hs (.choice_fail h h')
            · exact absurd hs (h' s k)
          · exact .mk_none h


theorem iterBody_lr {body : R → Expr R} {lr : R → Option (LRDecl R)} {A : R} {d : LRDecl R} (hd : lr A = some d) :
    iterBody body lr A = .sequence d.first.deLR (.zeroOrMore d.tail.deLR) := by simp [iterBody, hd]

theorem iterBody_none {body : R → Expr R} {lr : R → Option (LRDecl R)} {r : R} (hd : lr r = none) :
    iterBody body lr r = (body r).deLR := by simp [iterBody, hd]

include hC hD hd in
/-- The non-recursive alternatives, while growing `(A, p)`. -/
theorem first_step (hs : Safe P lr stk (.varNameLR d.involved A) p) : ∀ n, n ≤ N → ∀ parent st b q st',
    StOK P src lr ((A, p) :: stk) st → st.cache.active = some (A, p) →
    eval P src n d.first parent p st = .ok (b, q, st') →
    Peg (iterBody P.body lr) src d.first.deLR p b q ∧ StOK P src lr ((A, p) :: stk) st' ∧ Fr ((A, p) :: stk) st st' := by
  intro n hn parent st b q st' ho ha he
  have lift : ∀ r, FReach (iterBody P.body lr) d.first.deLR r → FReach (iterBody P.body lr) (iterBody P.body lr A) r := by
    intro r h
    rw [iterBody_lr hd]
    exact h.lift fun _ h => .fst h
  refine hC n hn d.first _ parent p st b q st' (hD.refsFirst A d hd).1 ho ?_ ?_ he
  · intro x hx
    rcases List.mem_cons.mp hx with rfl | hx
    · exact ⟨Nat.le_refl _, fun _ h => FReach.irrefl hD.wf A (lift _ h)⟩
    · obtain ⟨h1, h2⟩ := hs x hx
      exact ⟨h1, fun h3 h4 => h2 h3 (.step .ref (lift _ h4))⟩
  · intro A' pa ha' d' hd' B hB
    rw [ha] at ha'
    obtain ⟨rfl, rfl⟩ : A = A' ∧ p = pa := by simpa using ha'
    rw [hd] at hd'; cases hd'
    exact hD.noReentry A d hd B (Or.inl hB)

include hC hD hd in
/-- The body at level 0. -/
theorem body0 (hs : Safe P lr stk (.varNameLR d.involved A) p) {m : Option (Bool × Nat × Nat)} (hm : SeedOK p m) :
    ∀ n, n ≤ N + 1 → ∀ parent st b q st', L0 P src lr A p stk m st →
      eval P src n (P.body A) parent p st = .ok (b, q, st') →
      L0 P src lr A p stk m st' ∧ Fr ((A, p) :: stk) st st' ∧ FSpec P src lr d p m b q := by
  intro n hn parent st b q st' hl he
  obtain ⟨_, e, hbody, hht⟩ := hD.shape A d hd
  rw [hbody] at he
  cases n with
  | zero => cases he
  | succ n =>
    simp only [eval, orderedChoiceKernel] at he
    rw [Out.bind_eq_ok] at he
    obtain ⟨⟨b1, q1, st1⟩, h1, h2⟩ := he
    obtain ⟨i1, i2, i3⟩ := ht0 hC hD hd (fun x hx => (hs x hx).1) hht (hD.refsFirst A d hd).2 (fun _ h => h) hm n (by omega)
      _ _ _ _ _ hl h1
    dsimp only at h2
    cases b1 with
    | true =>
      simp at h2
      obtain ⟨rfl, rfl, rfl⟩ := h2
      obtain ⟨s, k, h3, h4⟩ := i3.of_true
      exact ⟨i1, i2, Or.inl ⟨s, k, h3, rfl, h4⟩⟩
    | false =>
      simp only [Bool.false_eq_true, if_false] at h2
      rw [Out.bind_eq_ok] at h2
      obtain ⟨⟨b2, q2, st2⟩, h3, h4⟩ := h2
      obtain ⟨g1, g2, g3⟩ := first_step hC hD hd hs n (by omega) _ _ _ _ _ i1.ok i1.active h3
      have hres : b2 = b ∧ q2 = q ∧ st2 = st' := by
        dsimp only at h4
        cases b2 with
        | true => simpa using h4
        | false =>
          have := g1.bounds.1 rfl
          subst this
          simpa using h4
      obtain ⟨rfl, rfl, rfl⟩ := hres
      refine ⟨i1.next g2 g3, i2.trans g3, ?_⟩
      rcases i3.of_false with ⟨s, k, hsk, h⟩ | h
      · exact Or.inr (Or.inl ⟨s, k, hsk, h, g1⟩)
      · exact Or.inr (Or.inr ⟨h, g1⟩)

/-- State while growing `(A, p)` in which the head reference will re-evaluate the body. -/
structure L1 (P : Parser R U) (src : Source) (lr : R → Option (LRDecl R)) (A : R) (p : Nat) (stk : List (R × Nat))
    (m : Option (Bool × Nat × Nat)) (st : St R U) : Prop where
  ok : StOK P src lr ((A, p) :: stk) st
  active : st.cache.active = some (A, p)
  head : ∃ h, st.cache.heads A p = some h ∧ A ∈ h.evalSet ∧ A ∈ h.involved
  memo : st.cache.memo A p = m

include hC hD hd in
/-- The head reference at level 1 re-evaluates the body once. -/
theorem head1 (hnot : (A, p) ∉ stk) (hs : Safe P lr stk (.varNameLR d.involved A) p) {inv : List R}
    {m : Option (Bool × Nat × Nat)} (hm : SeedOK p m) {n parent : Nat} (hn : n ≤ N + 1) {st st1 : St R U} {b1 : Bool} {q1 : Nat}
    (hl : L1 P src lr A p stk m st) (h1 : eval P src n (.varNameLR inv A) parent p st = .ok (b1, q1, st1)) :
    ∃ k1, FSpec P src lr d p m b1 q1 ∧ L0 P src lr A p stk (some (b1, q1, k1)) st1 ∧ Fr stk st st1 := by
  have hsub : ∀ x ∈ stk, x ∈ (A, p) :: stk := fun x hx => List.mem_cons_of_mem _ hx
  cases n with
  | zero => cases h1
  | succ n =>
    obtain ⟨hh, hh1, hh2, hh3⟩ := hl.head
    simp only [eval, varNameLRKernel, shouldGrow, hl.active, Cache.checkHead, hh1, Out.bind_ok, Bool.false_eq_true,
      if_false, lrInner, Cache.ruleInEvalSet] at h1
    rw [if_pos (by simpa using hh2)] at h1
    rw [Out.bind_eq_ok] at h1
    obtain ⟨⟨ck, sa⟩, a1, h1⟩ := h1
    have ca := (reserve_eqs a1).1
    dsimp only at h1
    rw [Out.bind_eq_ok] at h1
    obtain ⟨sb, a2, h1⟩ := h1
    rw [Out.bind_eq_ok] at h1
    obtain ⟨⟨b2, q2, sc⟩, a3, h1⟩ := h1
    dsimp only at h1
    rw [Out.bind_eq_ok] at h1
    obtain ⟨sd, a4, h1⟩ := h1
    have cd := (updateEntry_eqs a4).1
    rw [Out.bind_eq_ok] at h1
    obtain ⟨se, a5, h1⟩ := h1
    have ce := (connect_eqs a5).1
    simp at h1
    obtain ⟨rfl, rfl, rfl⟩ := h1
    -- the state with `A` removed from the evaluation set
    have cb : sb.cache = st.cache.putHead A p { hh with evalSet := hh.evalSet.filter (· ≠ A) } := by
      unfold St.removeFromEvalSet Cache.removeFromEvalSet at a2
      rw [ca] at a2
      simp only [hh1, Out.bind_ok] at a2
      injection a2 with a2
      rw [← a2]
    have hl0 : L0 P src lr A p stk m sb := by
      refine ⟨⟨?_, ?_, ?_, hl.ok.stk⟩, ?_, ?_, ?_⟩
      · rw [cb]; exact hl.ok.memo
      · rw [cb]
        intro r p' h hn hh'
        have : ¬ (r = A ∧ p' = p) := fun h => hn (by simp [h.1, h.2])
        simp only [Cache.putHead] at hh'
        rw [if_neg this] at hh'
        exact hl.ok.heads r p' h hn hh'
      · rw [cb]
        intro r p' h hh'
        simp only [Cache.putHead] at hh'
        split at hh'
        · next heq =>
          obtain ⟨rfl, rfl⟩ := heq
          simp only [Option.some.injEq] at hh'
          subst hh'
          obtain ⟨d', g1, g2, g3⟩ := hl.ok.inv _ _ _ hh1
          refine ⟨d', g1, g2, fun x hx => ?_⟩
          exact g3 x (List.mem_filter.mp hx).1
        · exact hl.ok.inv r p' h hh'
      · rw [cb]; exact hl.active
      · refine ⟨{ hh with evalSet := hh.evalSet.filter (· ≠ A) }, ?_, by simp, hh3⟩
        rw [cb]; simp [Cache.putHead]
      · rw [cb]; exact hl.memo
    have hfb : Fr stk st sb := by
      refine ⟨by rw [cb]; rfl, fun x _ => by rw [cb]; rfl, fun x hx => ?_⟩
      rw [cb]
      simp only [Cache.putHead]
      rw [if_neg]
      rintro ⟨h1, h2⟩
      exact hnot (by rw [← h1, ← h2]; exact hx)
    obtain ⟨i1, i2, i3⟩ := body0 hC hD hd hs hm n (by omega) _ _ _ _ _ hl0 a3
    have cse : se.cache = sc.cache.insert A b2 p q2 ck := by
      rw [ce]
      simp only [St.createCacheEntry]
      rw [cd]
    refine ⟨ck, i3, ⟨⟨?_, ?_, ?_, hl.ok.stk⟩, ?_, ?_, ?_⟩, ?_⟩
    · rw [cse]
      intro r p' b q k hn hmem
      have : ¬ (r = A ∧ p' = p) := fun h => hn (by simp [h.1, h.2])
      simp only [Cache.insert] at hmem
      rw [if_neg this] at hmem
      exact i1.ok.memo r p' b q k hn hmem
    · rw [cse]
      intro r p' h hn hh'
      have : ¬ (r = A ∧ p' = p) := fun h => hn (by simp [h.1, h.2])
      simp only [Cache.insert]
      rw [if_neg this]
      exact i1.ok.heads r p' h hn hh'
    · rw [cse]; exact i1.ok.inv
    · rw [cse]; exact i1.active
    · rw [cse]; exact i1.head
    · rw [cse]; simp [Cache.insert]
    · refine hfb.trans ((i2.sub hsub).trans ⟨by rw [cse]; rfl, fun x hx => ?_, fun x hx => by rw [cse]; rfl⟩)
      rw [cse]
      simp only [Cache.insert]
      rw [if_neg]
      rintro ⟨h1, h2⟩
      exact hnot (by rw [← h1, ← h2]; exact hx)

include hC hD hd in
/-- The head expression at level 1: the memo table ends up with the body's outcome for the old seed. -/
theorem ht1 (hnot : (A, p) ∉ stk) (hs : Safe P lr stk (.varNameLR d.involved A) p) {e t : Expr R}
    (hht : HeadTail d.involved A e t) (ht : t.RefsOK lr)
    (hcall : ∀ B, CallsLR P.body t B → CallsLR P.body d.tail B) {m : Option (Bool × Nat × Nat)} (hm : SeedOK p m) :
    ∀ n, n ≤ N + 1 → ∀ parent st b q st', L1 P src lr A p stk m st →
      eval P src n e parent p st = .ok (b, q, st') →
      (∃ b1 q1 k1, FSpec P src lr d p m b1 q1 ∧ L0 P src lr A p stk (some (b1, q1, k1)) st') ∧ Fr stk st st' ∧
      (b = true → p < q) := by
  have hpos : ∀ x ∈ stk, x.2 ≤ p := fun x hx => (hs x hx).1
  have hsub : ∀ x ∈ stk, x ∈ (A, p) :: stk := fun x hx => List.mem_cons_of_mem _ hx
  have tailStep : ∀ (c : Expr R), c.RefsOK lr → (∀ B, CallsLR P.body c B → CallsLR P.body d.tail B) →
      ∀ n, n ≤ N → ∀ m parent s st b q st', p < s → L0 P src lr A p stk m st →
      eval P src n c parent s st = .ok (b, q, st') →
      Peg (iterBody P.body lr) src c.deLR s b q ∧ L0 P src lr A p stk m st' ∧ Fr ((A, p) :: stk) st st' := by
    intro c hc hcc n hn m parent s st b q st' hs hl he
    obtain ⟨h1, h2, h3⟩ := hC n hn c ((A, p) :: stk) parent s st b q st' hc hl.ok
      (Safe.later (p := p) (by simpa using hpos) hs)
      (fun A' pa ha d' hd' B hB => by
        rw [hl.active] at ha
        obtain ⟨rfl, rfl⟩ : A = A' ∧ p = pa := by simpa using ha
        rw [hd] at hd'; cases hd'
        exact hD.noReentry A d hd B (Or.inr (hcc B hB))) he
    exact ⟨h1, hl.next h2 h3, h3⟩
  induction hht with
  | @base t =>
    intro n hn parent st b q st' hl he
    cases n with
    | zero => cases he
    | succ n =>
      simp only [eval, sequenceKernel] at he
      rw [Out.bind_eq_ok] at he
      obtain ⟨⟨b1, q1, st1⟩, h1, h2⟩ := he
      obtain ⟨k1, f1, f2, f3⟩ := head1 hC hD hd hnot hs hm (by omega) hl h1
      dsimp only at h2
      cases b1 with
      | false =>
        simp at h2
        obtain ⟨rfl, rfl, rfl⟩ := h2
        exact ⟨⟨_, _, _, f1, f2⟩, f3, by simp⟩
      | true =>
        have hq1 := fspec_pos hD hd hm f1 rfl
        simp only [if_true] at h2
        rw [Out.bind_eq_ok] at h2
        obtain ⟨⟨b2, q2, st2⟩, h3, h4⟩ := h2
        obtain ⟨g1, g2, g3⟩ := tailStep t ht hcall n (by omega) _ _ _ _ _ _ _ hq1 f2 h3
        dsimp only at h4
        cases b2 with
        | true =>
          simp at h4
          obtain ⟨rfl, rfl, rfl⟩ := h4
          exact ⟨⟨_, _, _, f1, g2⟩, f3.trans (g3.sub hsub), fun _ => by have := g1.bounds.2; omega⟩
        | false =>
          simp at h4
          obtain ⟨rfl, rfl, rfl⟩ := h4
          exact ⟨⟨_, _, _, f1, g2⟩, f3.trans (g3.sub hsub), by simp⟩
  | @seq e t c _ ih =>
    intro n hn parent st b q st' hl he
    cases n with
    | zero => cases he
    | succ n =>
      simp only [eval, sequenceKernel] at he
      rw [Out.bind_eq_ok] at he
      obtain ⟨⟨b1, q1, st1⟩, h1, h2⟩ := he
      obtain ⟨⟨b0, q0, k0, i0, i1⟩, i2, i3⟩ := ih ht.1 (fun B hB => hcall B (.fst hB)) n (by omega) _ _ _ _ _ hl h1
      dsimp only at h2
      cases b1 with
      | false =>
        simp at h2
        obtain ⟨rfl, rfl, rfl⟩ := h2
        exact ⟨⟨_, _, _, i0, i1⟩, i2, by simp⟩
      | true =>
        simp only [if_true] at h2
        rw [Out.bind_eq_ok] at h2
        obtain ⟨⟨b2, q2, st2⟩, h3, h4⟩ := h2
        have hq1 := i3 rfl
        obtain ⟨g1, g2, g3⟩ := tailStep c ht.2 (fun B hB => hcall B (.snd hB)) n (by omega) _ _ _ _ _ _ _ hq1 i1 h3
        dsimp only at h4
        cases b2 with
        | true =>
          simp at h4
          obtain ⟨rfl, rfl, rfl⟩ := h4
          exact ⟨⟨_, _, _, i0, g2⟩, i2.trans (g3.sub hsub), fun _ => by have := g1.bounds.2; omega⟩
        | false =>
          simp at h4
          obtain ⟨rfl, rfl, rfl⟩ := h4
          exact ⟨⟨_, _, _, i0, g2⟩, i2.trans (g3.sub hsub), by simp⟩
  | @sub e t _ ih =>
    intro n hn parent st b q st' hl he
    cases n with
    | zero => cases he
    | succ n =>
      simp only [eval, subexpressionKernel] at he
      rw [Out.bind_eq_ok] at he
      obtain ⟨⟨b1, q1, st1⟩, h1, h2⟩ := he
      obtain ⟨i1, i2, i3⟩ := ih ht hcall n (by omega) _ _ _ _ _ hl h1
      dsimp only at h2
      cases b1 <;> simp at h2 <;> obtain ⟨rfl, rfl, rfl⟩ := h2
      · exact ⟨i1, i2, by simp⟩
      · exact ⟨i1, i2, i3⟩
  | @choice e t e' t' _ hht' ih _ =>
    intro n hn parent st b q st' hl he
    cases n with
    | zero => cases he
    | succ n =>
      simp only [eval, orderedChoiceKernel] at he
      rw [Out.bind_eq_ok] at he
      obtain ⟨⟨b1, q1, st1⟩, h1, h2⟩ := he
      obtain ⟨⟨b0, q0, k0, i0, i1⟩, i2, i3⟩ := ih ht.1 (fun B hB => hcall B (.left hB)) n (by omega) _ _ _ _ _ hl h1
      dsimp only at h2
      cases b1 with
      | true =>
        simp at h2
        obtain ⟨rfl, rfl, rfl⟩ := h2
        exact ⟨⟨_, _, _, i0, i1⟩, i2, i3⟩
      | false =>
        simp only [Bool.false_eq_true, if_false] at h2
        rw [Out.bind_eq_ok] at h2
        obtain ⟨⟨b2, q2, st2⟩, h3, h4⟩ := h2
        have hm' : SeedOK p (some (b0, q0, k0)) := by
          intro s k h
          obtain ⟨rfl, rfl, rfl⟩ : b0 = true ∧ q0 = s ∧ k0 = k := by simpa using h
          exact fspec_pos hD hd hm i0 rfl
        obtain ⟨j1, j2, j3⟩ := ht0 hC hD hd hpos hht' ht.2 (fun B hB => hcall B (.right hB)) hm' n (by omega) _ _ _ _ _ i1 h3
        dsimp only at h4
        cases b2 with
        | true =>
          simp at h4
          obtain ⟨rfl, rfl, rfl⟩ := h4
          refine ⟨⟨_, _, _, i0, j1⟩, i2.trans (j2.sub hsub), fun _ => ?_⟩
          obtain ⟨s, k, hsk, h⟩ := j3.of_true
          have := hm' s k hsk
          have := h.bounds.2
          omega
        | false =>
          simp at h4
          obtain ⟨rfl, rfl, rfl⟩ := h4
          exact ⟨⟨_, _, _, i0, j1⟩, i2.trans (j2.sub hsub), by simp⟩

include hC hD hd in
/-- The body at level 1. -/
theorem body1 (hnot : (A, p) ∉ stk) (hs : Safe P lr stk (.varNameLR d.involved A) p)
    {m : Option (Bool × Nat × Nat)} (hm : SeedOK p m) :
    ∀ n, n ≤ N + 1 → ∀ parent st b q st', L1 P src lr A p stk m st →
      eval P src n (P.body A) parent p st = .ok (b, q, st') →
      (∃ b1 q1 k1, FSpec P src lr d p m b1 q1 ∧ L0 P src lr A p stk (some (b1, q1, k1)) st') ∧ Fr stk st st' := by
  intro n hn parent st b q st' hl he
  obtain ⟨_, e, hbody, hht⟩ := hD.shape A d hd
  rw [hbody] at he
  cases n with
  | zero => cases he
  | succ n =>
    simp only [eval, orderedChoiceKernel] at he
    rw [Out.bind_eq_ok] at he
    obtain ⟨⟨b1, q1, st1⟩, h1, h2⟩ := he
    obtain ⟨⟨b0, q0, k0, i0, i1⟩, i2, i3⟩ := ht1 hC hD hd hnot hs hht (hD.refsFirst A d hd).2 (fun _ h => h) hm n (by omega)
      _ _ _ _ _ hl h1
    dsimp only at h2
    cases b1 with
    | true =>
      simp at h2
      obtain ⟨rfl, rfl, rfl⟩ := h2
      exact ⟨⟨_, _, _, i0, i1⟩, i2⟩
    | false =>
      simp only [Bool.false_eq_true, if_false] at h2
      rw [Out.bind_eq_ok] at h2
      obtain ⟨⟨b2, q2, st2⟩, h3, h4⟩ := h2
      obtain ⟨g1, g2, g3⟩ := first_step hC hD hd hs n (by omega) _ _ _ _ _ i1.ok i1.active h3
      have hst : st2 = st' := by
        dsimp only at h4
        cases b2 <;> simp at h4 <;> exact h4.2.2
      subst hst
      exact ⟨⟨_, _, _, i0, i1.next g2 g3⟩, i2.trans (g3.sub fun x hx => List.mem_cons_of_mem _ hx)⟩


theorem Peg.star_end {body : R → Expr R} {t : Expr R} {q b s} (h : Peg body src (.zeroOrMore t) q b s) :
    Peg body src t s false s := by
  generalize he : Expr.zeroOrMore t = e at h
  induction h with
  | star_stop h1 => cases he; have := h1.bounds.1 rfl; subst this; exact h1
  | star_step _ _ _ ih => exact ih he
  | _ => cases he

theorem Peg.lr_true {A : R} {d : LRDecl R} (hd : lr A = some d) {p q r : Nat}
    (h1 : Peg (iterBody P.body lr) src d.first.deLR p true q)
    (h2 : Peg (iterBody P.body lr) src (.zeroOrMore d.tail.deLR) q true r) :
    Peg (iterBody P.body lr) src (.varName A) p true r := by
  refine .ref ?_
  rw [iterBody_lr hd]
  exact .seq_ok h1 h2

theorem Peg.lr_false {A : R} {d : LRDecl R} (hd : lr A = some d) {p q : Nat}
    (h1 : Peg (iterBody P.body lr) src d.first.deLR p false q) :
    Peg (iterBody P.body lr) src (.varName A) p false p := by
  refine .ref ?_
  rw [iterBody_lr hd]
  exact .seq_fail1 h1

theorem Peg.lr_inv {A : R} {d : LRDecl R} (hd : lr A = some d) {p r : Nat}
    (h : Peg (iterBody P.body lr) src (.varName A) p true r) :
    ∃ q, Peg (iterBody P.body lr) src d.first.deLR p true q ∧
      Peg (iterBody P.body lr) src (.zeroOrMore d.tail.deLR) q true r := by
  cases h with
  | ref h =>
    rw [iterBody_lr hd] at h
    cases h with
    | seq_ok h1 h2 => exact ⟨_, h1, h2⟩

/-- Where the growth loop stands: before the first iteration, or with a seed ending at `s`. -/
def Phase (P : Parser R U) (src : Source) (lr : R → Option (LRDecl R)) (A : R) (d : LRDecl R) (p : Nat)
    (m : Option (Bool × Nat × Nat)) (last : Bool × Nat) : Prop :=
  (last = (false, p) ∧ ∀ b q k, m = some (b, q, k) → Peg (iterBody P.body lr) src (.varName A) p b q) ∨
  (∃ s k, last = (true, s) ∧ m = some (true, s, k) ∧ p < s ∧
    (∀ r, Peg (iterBody P.body lr) src (.zeroOrMore d.tail.deLR) s true r →
      Peg (iterBody P.body lr) src (.varName A) p true r) ∧
    (∀ b q, Peg (iterBody P.body lr) src d.first.deLR p b q → q ≤ s))

include hC hD hd in
theorem growthLoop_spec (hnot : (A, p) ∉ stk) (hs : Safe P lr stk (.varNameLR d.involved A) p) {n : Nat} (hn : n ≤ N + 1)
    (parent : Nat) (prev : Option (R × Nat)) : ∀ f last lastKey ck st m b q st', StOK P src lr ((A, p) :: stk) st →
      st.cache.active = some (A, p) → (∃ h, st.cache.heads A p = some h ∧ A ∈ h.involved) → st.cache.memo A p = m →
      Phase P src lr A d p m last →
      growthLoop A (eval P src n (P.body A)) parent p prev f last lastKey ck st = .ok (b, q, st') →
      Peg (iterBody P.body lr) src (.varName A) p b q ∧ StOK P src lr stk st' ∧
        Fr stk { st with cache := st.cache.setActive prev } st' := by
  intro f
  induction f with
  | zero => intro last lastKey ck st m b q st' _ _ _ _ _ h; cases h
  | succ f ihf =>
    intro last lastKey ck st m b q st' ho ha hh hmemo hph h
    obtain ⟨hh, hh1, hh2⟩ := hh
    unfold growthLoop at h
    rw [Out.bind_eq_ok] at h
    obtain ⟨s1, a1, h⟩ := h
    have c1 : s1.cache = st.cache.putHead A p { hh with evalSet := hh.involved } := by
      unfold St.reinitializeEvalSet Cache.reinitializeEvalSet at a1
      simp only [hh1, Out.bind_ok] at a1
      injection a1 with a1
      rw [← a1]
    have hl1 : L1 P src lr A p stk m s1 := by
      refine ⟨⟨?_, ?_, ?_, ho.stk⟩, ?_, ?_, ?_⟩
      · rw [c1]; exact ho.memo
      · rw [c1]
        intro r p' h hn hh'
        have : ¬ (r = A ∧ p' = p) := fun h => hn (by simp [h.1, h.2])
        simp only [Cache.putHead] at hh'
        rw [if_neg this] at hh'
        exact ho.heads r p' h hn hh'
      · rw [c1]
        intro r p' h hh'
        simp only [Cache.putHead] at hh'
        split at hh'
        · next heq =>
          obtain ⟨rfl, rfl⟩ := heq
          simp only [Option.some.injEq] at hh'
          subst hh'
          obtain ⟨d', g1, g2, g3⟩ := ho.inv _ _ _ hh1
          exact ⟨d', g1, g2, fun x hx => hx⟩
        · exact ho.inv r p' h hh'
      · rw [c1]; exact ha
      · refine ⟨{ hh with evalSet := hh.involved }, ?_, hh2, hh2⟩
        rw [c1]; simp [Cache.putHead]
      · rw [c1]; exact hmemo
    have hf1 : Fr stk st s1 := by
      refine ⟨by rw [c1]; rfl, fun x _ => by rw [c1]; rfl, fun x hx => ?_⟩
      rw [c1]
      simp only [Cache.putHead]
      rw [if_neg]
      rintro ⟨h1, h2⟩
      exact hnot (by rw [← h1, ← h2]; exact hx)
    rw [Out.bind_eq_ok] at h
    obtain ⟨⟨b0, q0, s2⟩, a2, h⟩ := h
    have hm : SeedOK p m := by
      intro s k hsk
      rcases hph with ⟨_, h⟩ | ⟨s', k', _, h, hlt, _⟩
      · obtain ⟨q', g1, g2⟩ := Peg.lr_inv hd (h _ _ _ hsk)
        have h1 : p < q' := by
          rcases g1.bounds.2 with h | h
          · exact absurd (g1.mayBeEmpty rfl h) (hD.firstConsumes A d hd)
          · exact h.1
        have := g2.bounds.2
        omega
      · rw [hsk] at h; cases h; exact hlt
    obtain ⟨⟨b1, q1, k1, f1, l0⟩, hf2⟩ := body1 hC hD hd hnot hs hm n hn _ _ _ _ _ hl1 a2
    have hpick : growthPick s2 A p ck b0 q0 = (k1, b1, q1) := by
      simp only [growthPick, Cache.check, l0.memo]
    dsimp only at h
    rw [hpick] at h
    dsimp only at h
    rw [Out.bind_eq_ok] at h
    obtain ⟨s3, a3, h⟩ := h
    have c3 := (updateEntry_eqs a3).1
    have l3 := l0.next (l0.ok.of_cache c3) (.of_cache c3)
    have hf3 : Fr stk st s3 := hf1.trans (hf2.trans (.of_cache c3))
    split at h
    · -- the growth stops
      next hstop =>
      rw [Out.bind_eq_ok] at h
      obtain ⟨s4, a4, h⟩ := h
      have c4 := (connect_eqs a4).1
      simp at h
      obtain ⟨rfl, rfl, rfl⟩ := h
      have hres : Peg (iterBody P.body lr) src (.varName A) p last.1 last.2 := by
        rcases hph with ⟨rfl, h⟩ | ⟨s, k, rfl, hm', hlt, hreach, hfirst⟩
        · have hfirst : Peg (iterBody P.body lr) src d.first.deLR p b1 q1 := by
            rcases f1 with ⟨s, k, hsk, _, ht⟩ | ⟨_, _, _, _, h⟩ | ⟨_, h⟩
            · obtain ⟨q', _, g2⟩ := Peg.lr_inv hd (h _ _ _ hsk)
              have := (g2.star_end.det ht).1
              cases this
            · exact h
            · exact h
          cases b1 with
          | false => exact Peg.lr_false hd hfirst
          | true =>
            have := fspec_pos hD hd hm f1 rfl
            simp at hstop
            omega
        · rcases f1 with ⟨s', k', hsk, rfl, ht⟩ | ⟨s', k', hsk, ht, _⟩ | ⟨hne, _⟩
          · rw [hm'] at hsk; cases hsk
            have hne : ¬ MayBeEmpty (iterBody P.body lr) d.tail.deLR := by
              have := hD.wf.noLoop A
              rw [iterBody_lr hd] at this
              exact this.2.1
            simp at hstop
            rcases ht.bounds.2 with h | h
            · exact absurd (ht.mayBeEmpty rfl h) hne
            · omega
          · rw [hm'] at hsk; cases hsk
            exact hreach _ (.star_stop ht)
          · exact absurd hm' (hne _ _)
      have cfin : (s4.setActive prev |>.createCacheEntry A last.1 p last.2 lastKey).cache =
          (s3.cache.setActive prev).insert A last.1 p last.2 lastKey := by
        simp only [St.createCacheEntry, St.setActive, c4]
      refine ⟨hres, ⟨?_, ?_, ?_, fun x hx => ho.stk x (List.mem_cons_of_mem _ hx)⟩, ?_⟩
      · rw [cfin]
        intro r p' b q k hn hmem
        simp only [Cache.insert, Cache.setActive] at hmem
        split at hmem
        · next heq =>
          obtain ⟨rfl, rfl⟩ := heq
          simp only [Option.some.injEq, Prod.mk.injEq] at hmem
          obtain ⟨rfl, rfl, _⟩ := hmem
          exact hres
        · next hne =>
          refine l3.ok.memo r p' b q k ?_ hmem
          simp only [List.mem_cons, Prod.mk.injEq, not_or]
          exact ⟨hne, hn⟩
      · rw [cfin]
        intro r p' h hn hhd
        simp only [Cache.insert, Cache.setActive] at hhd ⊢
        split
        · simp
        · next hne =>
          refine l3.ok.heads r p' h ?_ hhd
          simp only [List.mem_cons, Prod.mk.injEq, not_or]
          exact ⟨hne, hn⟩
      · rw [cfin]; exact l3.ok.inv
      · refine ⟨by rw [cfin]; rfl, fun x hx => ?_, fun x hx => ?_⟩
        · rw [cfin]
          simp only [Cache.insert, Cache.setActive]
          rw [if_neg]
          · exact hf3.memo x hx
          · rintro ⟨h1, h2⟩
            exact hnot (by rw [← h1, ← h2]; exact hx)
        · rw [cfin]
          exact hf3.heads x hx
    · -- another iteration
      next hgo =>
      rw [Out.bind_eq_ok] at h
      obtain ⟨⟨nk, s4⟩, a4, h⟩ := h
      have c4 := (reserve_eqs a4).1
      dsimp only at h
      have hb1 : b1 = true := by
        cases b1 with
        | true => rfl
        | false => simp at hgo
      subst hb1
      have hq1 : last.2 < q1 := by simpa using hgo
      have hp1 : p < q1 := fspec_pos hD hd hm f1 rfl
      have l4 := l3.next (l3.ok.of_cache c4) (.of_cache c4)
      have hphase : Phase P src lr A d p (some (true, q1, k1)) (true, q1) := by
        refine Or.inr ⟨q1, k1, rfl, rfl, hp1, ?_, ?_⟩
        · rcases hph with ⟨rfl, h⟩ | ⟨s, k, rfl, hm', hlt, hreach, hfirst⟩
          · have hfirst : Peg (iterBody P.body lr) src d.first.deLR p true q1 := by
              rcases f1 with ⟨s, k, hsk, _, ht⟩ | ⟨_, _, _, _, h⟩ | ⟨_, h⟩
              · obtain ⟨q', _, g2⟩ := Peg.lr_inv hd (h _ _ _ hsk)
                have := (g2.star_end.det ht).1
                cases this
              · exact h
              · exact h
            intro r hr
            exact Peg.lr_true hd hfirst hr
          · rcases f1 with ⟨s', k', hsk, _, ht⟩ | ⟨s', k', hsk, ht, h⟩ | ⟨hne, _⟩
            · rw [hm'] at hsk; cases hsk
              intro r hr
              exact hreach r (.star_step ht hr)
            · have := hfirst _ _ h
              simp only at hq1
              omega
            · exact absurd hm' (hne _ _)
        · intro b' q' hq'
          rcases hph with ⟨rfl, h⟩ | ⟨s, k, rfl, hm', hlt, hreach, hfirst⟩
          · have hfirst : Peg (iterBody P.body lr) src d.first.deLR p true q1 := by
              rcases f1 with ⟨s, k, hsk, _, ht⟩ | ⟨_, _, _, _, h⟩ | ⟨_, h⟩
              · obtain ⟨q', _, g2⟩ := Peg.lr_inv hd (h _ _ _ hsk)
                have := (g2.star_end.det ht).1
                cases this
              · exact h
              · exact h
            have := (hfirst.det hq').2
            omega
          · have := hfirst _ _ hq'
            simp only at hq1
            omega
      obtain ⟨hh4, hh5, _, hh6⟩ := l4.head
      obtain ⟨r1, r2, r3⟩ := ihf (true, q1) k1 nk s4 _ b q st' l4.ok l4.active ⟨hh4, hh5, hh6⟩ l4.memo hphase h
      refine ⟨r1, r2, ⟨r3.active, fun x hx => ?_, fun x hx => ?_⟩⟩
      · have e1 := r3.memo x hx
        have e2 := (hf3.trans (.of_cache c4)).memo x hx
        exact e1.trans e2
      · have e1 := r3.heads x hx
        have e2 := (hf3.trans (.of_cache c4)).heads x hx
        exact e1.trans e2

theorem mem_toBTreeSet (v : List R) (x : R) : x ∈ toBTreeSet v ↔ x ∈ v := by
  unfold toBTreeSet
  have : ∀ (v s : List R), x ∈ v.foldl (fun s r => if s.contains r then s else s ++ [r]) s ↔ x ∈ s ∨ x ∈ v := by
    intro v
    induction v with
    | nil => intro s; simp
    | cons a v ih =>
      intro s
      rw [List.foldl_cons, ih]
      split
      · next h =>
        simp only [List.contains_iff_mem] at h
        simp only [List.mem_cons]
        constructor
        · rintro (h' | h')
          · exact Or.inl h'
          · exact Or.inr (Or.inr h')
        · rintro (h' | rfl | h')
          · exact Or.inl h'
          · exact Or.inl h
          · exact Or.inr h'
      · simp only [List.mem_append, List.mem_cons, List.not_mem_nil, or_false]
        constructor
        · rintro ((h | h) | h)
          · exact Or.inl h
          · exact Or.inr (Or.inl h)
          · exact Or.inr (Or.inr h)
        · rintro (h | h | h)
          · exact Or.inl (Or.inl h)
          · exact Or.inl (Or.inr h)
          · exact Or.inr h
  rw [this]; simp

include hC hD hd in
/-- A left-recursive call. -/
theorem lr_spec (hs : Safe P lr stk (.varNameLR d.involved A) p) {n : Nat} (hn : n ≤ N + 1) (f : Nat)
    (parent : Nat) (st : St R U) (b : Bool) (q : Nat) (st' : St R U) (ho : StOK P src lr stk st)
    (hact : ActOK P lr st.cache.active (.varNameLR d.involved A))
    (h : varNameLRKernel f d.involved A (eval P src n (P.body A)) parent p st = .ok (b, q, st')) :
    Peg (iterBody P.body lr) src (.varName A) p b q ∧ StOK P src lr stk st' ∧ Fr stk st st' := by
  have hnot : (A, p) ∉ stk := fun hx => (hs _ hx).2 rfl (.one .ref)
  -- growing
  have grow : ∀ prev s0, s0.cache = st.cache.setActive (some (A, p)) → prev = st.cache.active →
      growthFunction f d.involved A (eval P src n (P.body A)) prev parent p s0 = .ok (b, q, st') →
      Peg (iterBody P.body lr) src (.varName A) p b q ∧ StOK P src lr stk st' ∧ Fr stk st st' := by
    intro prev s0 c0 hprev hg
    unfold growthFunction at hg
    rw [Out.bind_eq_ok] at hg
    obtain ⟨⟨lk, s1⟩, a1, hg⟩ := hg
    have c1 := (reserve_eqs a1).1
    dsimp only at hg
    rw [Out.bind_eq_ok] at hg
    obtain ⟨s2, a2, hg⟩ := hg
    have c2 := (updateEntry_eqs a2).1
    rw [Out.bind_eq_ok] at hg
    obtain ⟨⟨ck, s3⟩, a3, hg⟩ := hg
    have c3 := (reserve_eqs a3).1
    dsimp only at hg
    have c4 : (s3.setHead p A (toBTreeSet d.involved)).cache =
        (st.cache.setActive (some (A, p))).putHead A p ⟨p, A, toBTreeSet d.involved, toBTreeSet d.involved⟩ := by
      simp only [St.setHead, Cache.setHead, c3, c2, c1, c0]
    generalize s3.setHead p A (toBTreeSet d.involved) = s4 at hg c4
    have hmem : A ∈ toBTreeSet d.involved := (mem_toBTreeSet _ _).mpr (hD.shape A d hd).1
    obtain ⟨r1, r2, r3⟩ := growthLoop_spec hC hD hd hnot hs hn parent prev f (false, p) lk ck s4 (s4.cache.memo A p) b q st'
      ⟨by
        rw [c4]
        intro r p' b q k hn hm
        exact ho.memo r p' b q k (fun h => hn (List.mem_cons_of_mem _ h)) hm,
       by
        rw [c4]
        intro r p' h hn hh
        have : ¬ (r = A ∧ p' = p) := fun h => hn (by simp [h.1, h.2])
        simp only [Cache.putHead] at hh
        rw [if_neg this] at hh
        exact ho.heads r p' h (fun h => hn (List.mem_cons_of_mem _ h)) hh,
       by
        rw [c4]
        intro r p' h hh
        simp only [Cache.putHead] at hh
        split at hh
        · next heq =>
          obtain ⟨rfl, rfl⟩ := heq
          simp only [Option.some.injEq] at hh
          subst hh
          exact ⟨d, hd, fun x hx => (mem_toBTreeSet _ _).mp hx, fun x hx => hx⟩
        · exact ho.inv r p' h hh,
       by
        intro x hx
        rcases List.mem_cons.mp hx with rfl | hx
        · simp [hd]
        · exact ho.stk x hx⟩
      (by rw [c4]; rfl)
      ⟨_, by rw [c4]; simp [Cache.putHead]; rfl, hmem⟩
      rfl
      (Or.inl ⟨rfl, fun b q k hm => ho.memo A p b q k hnot (by rw [← hm, c4]; rfl)⟩)
      hg
    refine ⟨r1, r2, ⟨by rw [r3.active]; exact hprev, fun x hx => ?_, fun x hx => ?_⟩⟩
    · rw [r3.memo x hx]
      simp only [Cache.setActive]
      rw [c4]; rfl
    · rw [r3.heads x hx]
      simp only [Cache.setActive]
      rw [c4]
      simp only [Cache.putHead]
      rw [if_neg]
      · rfl
      · rintro ⟨h1, h2⟩
        exact hnot (by rw [← h1, ← h2]; exact hx)
  unfold varNameLRKernel shouldGrow at h
  cases hac : st.cache.active with
  | none =>
    simp only [hac, Out.bind_ok, if_true] at h
    exact grow none _ rfl hac.symm h
  | some act =>
    obtain ⟨A0, p0⟩ := act
    simp only [hac] at h
    cases hhd : st.cache.checkHead A p with
    | some hd' =>
      simp only [hhd, Out.bind_ok, Bool.false_eq_true, if_false, lrInner, hac] at h
      rw [Out.bind_eq_ok] at h
      obtain ⟨ine, h1, h2⟩ := h
      unfold Cache.ruleInEvalSet at h1
      have hin : ine = false := by
        cases hh0 : st.cache.heads A0 p0 with
        | none => rw [hh0] at h1; cases h1
        | some h0 =>
          rw [hh0] at h1
          simp only [Out.ok.injEq] at h1
          rw [← h1]
          obtain ⟨d0, g1, g2, g3⟩ := ho.inv A0 p0 h0 hh0
          have := hact A0 p0 hac d0 g1 A .lr
          cases hcon : h0.evalSet.contains A with
          | false => rfl
          | true => exact absurd (g2 A (g3 A (by simpa using hcon))) this
      subst hin
      simp only [Bool.false_eq_true, if_false] at h2
      cases hme : st.cache.memo A p with
      | none => exact absurd hme (ho.heads A p hd' hnot hhd)
      | some v =>
        obtain ⟨mb, mq, mk⟩ := v
        simp only [Cache.check, hme] at h2
        rw [Out.bind_eq_ok] at h2
        obtain ⟨s1, a1, h3⟩ := h2
        simp at h3
        obtain ⟨rfl, rfl, rfl⟩ := h3
        have := connectIf_eqs a1
        exact ⟨ho.memo A p mb mq mk hnot hme, ho.of_cache this, .of_cache this⟩
    | none =>
      simp only [hhd] at h
      rw [Out.bind_eq_ok] at h
      obtain ⟨⟨should, lastLr, s0⟩, h1, h2⟩ := h
      rw [Out.bind_eq_ok] at h1
      obtain ⟨inv, g1, g2⟩ := h1
      have hinv : inv = false := by
        unfold Cache.ruleInInvolvedSet at g1
        cases hh0 : st.cache.heads A0 p0 with
        | none => simp only [hh0] at g1; cases g1
        | some h0 =>
          simp only [hh0] at g1
          simp only [Out.ok.injEq] at g1
          rw [← g1]
          obtain ⟨d0, i1, i2, i3⟩ := ho.inv A0 p0 h0 hh0
          have := hact A0 p0 hac d0 i1 A .lr
          cases hcon : h0.involved.contains A with
          | false => rfl
          | true => exact absurd (i2 A (by simpa using hcon)) this
      subst hinv
      simp at g2
      obtain ⟨rfl, rfl, rfl⟩ := g2
      simp only [if_true] at h2
      exact grow _ _ rfl hac.symm h2

end HT

/-- Partial correctness of the whole parser. -/
theorem claim_all (hD : DirectLR P.body lr) : ∀ n, Claim P src lr n := by
  intro n
  induction n using Nat.strongRecOn with
  | _ n ih =>
  cases n with
  | zero => intro e stk parent p st b q st' _ _ _ _ h; cases h
  | succ n =>
    have hC : ∀ k, k ≤ n → Claim P src lr k := fun k hk => ih k (by omega)
    have hn : Claim P src lr n := hC n (Nat.le_refl _)
    have loop : ∀ (e : Expr R), e.RefsOK lr → ∀ f stk parent p st b q st', StOK P src lr stk st →
        Safe P lr stk e p → ActOK P lr st.cache.active e →
        repeatLoop (eval P src n e) parent f p st = .ok (b, q, st') →
        b = true ∧ Peg (iterBody P.body lr) src (.zeroOrMore e.deLR) p true q ∧ StOK P src lr stk st' ∧ Fr stk st st' := by
      intro e he f
      induction f with
      | zero => intro stk parent p st b q st' _ _ _ h; cases h
      | succ f ihf =>
        intro stk parent p st b q st' ho hs ha h
        unfold repeatLoop at h
        rw [Out.bind_eq_ok] at h
        obtain ⟨⟨b1, q1, st1⟩, h1, h2⟩ := h
        obtain ⟨g1, g2, g3⟩ := hn e stk parent p st b1 q1 st1 he ho hs ha h1
        dsimp only at h2
        cases b1 with
        | false =>
          simp at h2
          obtain ⟨rfl, rfl, rfl⟩ := h2
          exact ⟨rfl, .star_stop g1, g2, g3⟩
        | true =>
          simp only [Bool.not_true, Bool.false_eq_true, if_false] at h2
          obtain ⟨i0, i1, i2, i3⟩ := ihf stk parent q1 st1 b q st' g2
            (hs.lift (by have := g1.bounds.2; omega) (fun _ _ h => h)) (by rw [g3.active]; exact ha) h2
          exact ⟨i0, .star_step g1 i1, i2, g3.trans i3⟩
    intro e stk parent p st b q st' he ho hs ha h
    cases e with
    | andPredicate e =>
      simp only [eval, andPredicateKernel] at h
      rw [Out.bind_eq_ok] at h
      obtain ⟨⟨b1, q1, st1⟩, h1, h2⟩ := h
      obtain ⟨g1, g2, g3⟩ := hn e stk parent p st b1 q1 st1 he ho (hs.lift (Nat.le_refl _) fun _ _ h => .andP h)
        (ha.lift fun _ h => .andP h) h1
      dsimp only at h2
      cases b1 <;> simp at h2 <;> obtain ⟨rfl, rfl, rfl⟩ := h2
      · exact ⟨.and_fail g1, g2, g3⟩
      · exact ⟨.and_ok g1, g2, g3⟩
    | notPredicate e =>
      simp only [eval, notPredicateKernel] at h
      rw [Out.bind_eq_ok] at h
      obtain ⟨⟨b1, q1, st1⟩, h1, h2⟩ := h
      obtain ⟨g1, g2, g3⟩ := hn e stk parent p st b1 q1 st1 he ho (hs.lift (Nat.le_refl _) fun _ _ h => .notP h)
        (ha.lift fun _ h => .notP h) h1
      dsimp only at h2
      cases b1 <;> simp at h2 <;> obtain ⟨rfl, rfl, rfl⟩ := h2
      · exact ⟨.not_ok g1, g2, g3⟩
      · exact ⟨.not_fail g1, g2, g3⟩
    | oneOrMore e =>
      simp only [eval, oneOrMoreKernel] at h
      rw [Out.bind_eq_ok] at h
      obtain ⟨⟨b1, q1, st1⟩, h1, h2⟩ := h
      have hs' : Safe P lr stk e p := hs.lift (Nat.le_refl _) fun _ _ h => .plus h
      have ha' : ActOK P lr st.cache.active e := ha.lift fun _ h => .plus h
      obtain ⟨g1, g2, g3⟩ := hn e stk parent p st b1 q1 st1 he ho hs' ha' h1
      dsimp only at h2
      cases b1 with
      | false =>
        simp at h2
        obtain ⟨rfl, rfl, rfl⟩ := h2
        exact ⟨.plus_fail g1, g2, g3⟩
      | true =>
        simp only [Bool.not_true, Bool.false_eq_true, if_false] at h2
        obtain ⟨i0, i1, i2, i3⟩ := loop e he _ stk parent q1 st1 b q st' g2
          (hs'.lift (by have := g1.bounds.2; omega) (fun _ _ h => h)) (by rw [g3.active]; exact ha') h2
        subst i0
        exact ⟨.plus_ok g1 i1, i2, g3.trans i3⟩
    | zeroOrMore e =>
      obtain ⟨i0, i1, i2, i3⟩ := loop e he _ stk parent p st b q st' ho (hs.lift (Nat.le_refl _) fun _ _ h => .star h)
        (ha.lift fun _ h => .star h) h
      subst i0
      exact ⟨i1, i2, i3⟩
    | optional e =>
      simp only [eval, optionalKernel] at h
      rw [Out.bind_eq_ok] at h
      obtain ⟨⟨b1, q1, st1⟩, h1, h2⟩ := h
      obtain ⟨g1, g2, g3⟩ := hn e stk parent p st b1 q1 st1 he ho (hs.lift (Nat.le_refl _) fun _ _ h => .opt h)
        (ha.lift fun _ h => .opt h) h1
      dsimp only at h2
      cases b1 <;> simp at h2 <;> obtain ⟨rfl, rfl, rfl⟩ := h2
      · exact ⟨.opt_none g1, g2, g3⟩
      · exact ⟨.opt_some g1, g2, g3⟩
    | subexpression e =>
      simp only [eval, subexpressionKernel] at h
      rw [Out.bind_eq_ok] at h
      obtain ⟨⟨b1, q1, st1⟩, h1, h2⟩ := h
      obtain ⟨g1, g2, g3⟩ := hn e stk parent p st b1 q1 st1 he ho (hs.lift (Nat.le_refl _) fun _ _ h => .sub h)
        (ha.lift fun _ h => .sub h) h1
      dsimp only at h2
      cases b1 <;> simp at h2 <;> obtain ⟨rfl, rfl, rfl⟩ := h2
      · exact ⟨.sub_fail g1, g2, g3⟩
      · exact ⟨.sub_ok g1, g2, g3⟩
    | orderedChoice a c =>
      simp only [eval, orderedChoiceKernel] at h
      rw [Out.bind_eq_ok] at h
      obtain ⟨⟨b1, q1, st1⟩, h1, h2⟩ := h
      obtain ⟨g1, g2, g3⟩ := hn a stk parent p st b1 q1 st1 he.1 ho (hs.lift (Nat.le_refl _) fun _ _ h => .left h)
        (ha.lift fun _ h => .left h) h1
      dsimp only at h2
      cases b1 with
      | true =>
        simp at h2
        obtain ⟨rfl, rfl, rfl⟩ := h2
        exact ⟨.choice_left g1, g2, g3⟩
      | false =>
        simp only [Bool.false_eq_true, if_false] at h2
        rw [Out.bind_eq_ok] at h2
        obtain ⟨⟨b2, q2, st2⟩, h3, h4⟩ := h2
        obtain ⟨i1, i2, i3⟩ := hn c stk parent p st1 b2 q2 st2 he.2 g2 (hs.lift (Nat.le_refl _) fun _ _ h => .right h)
          (by rw [g3.active]; exact ha.lift fun _ h => .right h) h3
        dsimp only at h4
        cases b2 <;> simp at h4 <;> obtain ⟨rfl, rfl, rfl⟩ := h4
        · exact ⟨.choice_fail g1 i1, i2, g3.trans i3⟩
        · exact ⟨.choice_right g1 i1, i2, g3.trans i3⟩
    | sequence a c =>
      simp only [eval, sequenceKernel] at h
      rw [Out.bind_eq_ok] at h
      obtain ⟨⟨b1, q1, st1⟩, h1, h2⟩ := h
      obtain ⟨g1, g2, g3⟩ := hn a stk parent p st b1 q1 st1 he.1 ho (hs.lift (Nat.le_refl _) fun _ _ h => .fst h)
        (ha.lift fun _ h => .fst h) h1
      dsimp only at h2
      cases b1 with
      | false =>
        simp at h2
        obtain ⟨rfl, rfl, rfl⟩ := h2
        exact ⟨.seq_fail1 g1, g2, g3⟩
      | true =>
        simp only [if_true] at h2
        rw [Out.bind_eq_ok] at h2
        obtain ⟨⟨b2, q2, st2⟩, h3, h4⟩ := h2
        obtain ⟨i1, i2, i3⟩ := hn c stk parent q1 st1 b2 q2 st2 he.2 g2
          (hs.lift (by have := g1.bounds.2; omega) fun hq _ h => .snd (g1.mayBeEmpty rfl hq) h)
          (by rw [g3.active]; exact ha.lift fun _ h => .snd h) h3
        dsimp only at h4
        cases b2 <;> simp at h4 <;> obtain ⟨rfl, rfl, rfl⟩ := h4
        · exact ⟨.seq_fail2 g1 i1, i2, g3.trans i3⟩
        · exact ⟨.seq_ok g1 i1, i2, g3.trans i3⟩
    | terminal c =>
      simp only [eval, liftPure, Out.ok.injEq, Prod.mk.injEq] at h
      obtain ⟨rfl, rfl, rfl⟩ := h
      exact ⟨peg_terminal _ _ c p, ho, .refl⟩
    | stringTerminal d =>
      simp only [eval, liftPure, Out.ok.injEq, Prod.mk.injEq] at h
      obtain ⟨rfl, rfl, rfl⟩ := h
      exact ⟨peg_string _ _ d p, ho, .refl⟩
    | matchRange lo hi =>
      simp only [eval, liftPure, Out.ok.injEq, Prod.mk.injEq] at h
      obtain ⟨rfl, rfl, rfl⟩ := h
      exact ⟨peg_range _ _ lo hi p, ho, .refl⟩
    | varName r =>
      have hr : lr r = none := he
      have hnot : ∀ x ∈ stk, x.1 ≠ r := fun x hx hxr => ho.stk x hx (by rw [hxr]; exact hr)
      simp only [eval, varNameKernel, Cache.check] at h
      split at h
      · next mb stop mk hm =>
        unfold memoizedBehaviour at h
        rw [Out.bind_eq_ok] at h
        obtain ⟨st1, h1, h2⟩ := h
        simp at h2
        obtain ⟨rfl, rfl, rfl⟩ := h2
        have := (connect_eqs h1).1
        exact ⟨ho.memo r p mb stop mk (fun hx => hnot _ hx rfl) hm, ho.of_cache this, .of_cache this⟩
      · next hm =>
        unfold defaultBehaviour at h
        rw [Out.bind_eq_ok] at h
        obtain ⟨⟨ck, st1⟩, h1, h⟩ := h
        have c1 := (reserve_eqs h1).1
        rw [Out.bind_eq_ok] at h
        obtain ⟨⟨b', q', st2⟩, h2, h⟩ := h
        obtain ⟨g1, g2, g3⟩ := hn (P.body r) stk ck p st1 b' q' st2 (hD.refs r hr) (ho.of_cache c1)
          (fun x hx => ⟨(hs x hx).1, fun h3 h4 => (hs x hx).2 h3 (.step .ref (by rw [iterBody_none hr]; exact h4))⟩)
          (by rw [c1]; exact ha.lift fun _ h => .ref h) h2
        dsimp only at h
        rw [Out.bind_eq_ok] at h
        obtain ⟨st3, h3, h⟩ := h
        have c3 := (updateEntry_eqs h3).1
        rw [Out.bind_eq_ok] at h
        obtain ⟨st4, h4, h⟩ := h
        have c4 := (connect_eqs h4).1
        simp at h
        obtain ⟨rfl, rfl, rfl⟩ := h
        have cs : st4.cache = st2.cache.insert r b' p q' ck := by rw [c4, c3]; rfl
        have hpeg : Peg (iterBody P.body lr) src (.varName r) p b' q' := .ref (by rw [iterBody_none hr]; exact g1)
        refine ⟨hpeg, ⟨?_, ?_, ?_, ho.stk⟩, ⟨?_, ?_, ?_⟩⟩
        · rw [cs]
          intro r' p' b q k hn' hmem
          simp only [Cache.insert] at hmem
          split at hmem
          · next heq =>
            obtain ⟨rfl, rfl⟩ := heq
            simp only [Option.some.injEq, Prod.mk.injEq] at hmem
            obtain ⟨rfl, rfl, _⟩ := hmem
            exact hpeg
          · exact g2.memo r' p' b q k hn' hmem
        · rw [cs]
          intro r' p' h hn' hh
          simp only [Cache.insert]
          split
          · simp
          · exact g2.heads r' p' h hn' hh
        · rw [cs]; exact g2.inv
        · rw [cs]; exact g3.active.trans (by rw [c1])
        · intro x hx
          rw [cs]
          simp only [Cache.insert]
          rw [if_neg (fun h => hnot x hx h.1), g3.memo x hx, c1]
        · intro x hx
          rw [cs]
          have := g3.heads x hx
          rw [c1] at this
          exact this
    | varNameLR inv r =>
      obtain ⟨d, hd, rfl⟩ := he
      exact lr_spec hC hD hd hs (by omega) n parent st b q st' ho ha h
    | inlined r =>
      have hr : lr r = none := he
      obtain ⟨g1, g2, g3⟩ := hn (P.body r) stk parent p st b q st' (hD.refs r hr) ho
          (fun x hx => ⟨(hs x hx).1, fun h3 h4 => (hs x hx).2 h3 (.step .inl (by rw [iterBody_none hr]; exact h4))⟩)
          (ha.lift fun _ h => .inl h) h
      exact ⟨.inl (by rw [iterBody_none hr]; exact g1), g2, g3⟩
    | hooked name e => exact he.elim

end
end PP
