import Verif.Spec.Linear
import Verif.Lemmas.PegFacts
import Verif.Lemmas.ClearLen

/-! # Soundness of the linear-tree certificate -/
namespace PP
set_option linter.unusedSectionVars false
variable {R : Type} [DecidableEq R] {body : R → Expr R} {src : Source} {C s : Nat}

theorem optLe_some {a b : Option Nat} (h : optLe a b = true) {k : Nat} (hb : b = some k) : ∃ j, a = some j ∧ j ≤ k := by
  subst hb
  cases a with
  | none => cases h
  | some j => exact ⟨j, rfl, by simpa [optLe] using h⟩
theorem optMax_some {a b : Option Nat} {k : Nat} (h : optMax a b = some k) :
    ∃ i j, a = some i ∧ b = some j ∧ i ≤ k ∧ j ≤ k := by
  cases a <;> cases b <;> simp [optMax] at h
  exact ⟨_, _, rfl, rfl, by omega, by omega⟩
theorem optAdd_some {a b : Option Nat} {k : Nat} (h : optAdd a b = some k) : ∃ i j, a = some i ∧ b = some j ∧ i + j = k := by
  cases a <;> cases b <;> simp [optAdd] at h
  exact ⟨_, _, rfl, rfl, h⟩

/-- The readable byte at `p` is `s`. -/
def ByteIs (src : Source) (s p : Nat) : Prop := p < src.len ∧ ∃ c, src.bytes[p]? = some c ∧ c.toNat = s

/-- The number of nodes that survive. -/
def surv (ts : List (Tree R)) : Nat := Tree.size.sizeL (Tree.prune.pruneL ts)

theorem surv_nil : surv ([] : List (Tree R)) = 0 := rfl
theorem pruneL_app (ts us : List (Tree R)) : Tree.prune.pruneL (ts ++ us) = Tree.prune.pruneL ts ++ Tree.prune.pruneL us := by
  induction ts with
  | nil => rfl
  | cons t ts ih => simp [Tree.prune.pruneL, ih]
theorem surv_append (ts us : List (Tree R)) : surv (ts ++ us) = surv ts + surv us := by
  simp [surv, pruneL_app, Tree.sizeL_append]

/-- The claims of a `Lin` about an evaluation. -/
structure LinOk (src : Source) (C s : Nat) (x : Lin) (p : Nat) (b : Bool) (q : Nat) (ts : List (Tree R)) : Prop where
  d : b = true → (surv ts : Int) + x.d ≤ C * ((q : Int) - p)
  m : b = true → ∀ k, x.m = some k → surv ts ≤ k
  f : b = false → ∀ k, x.f = some k → surv ts ≤ k
  g : b = false → ∀ k, x.g = some k → ¬ ByteIs src s p → surv ts ≤ k
  only : b = true → x.only = true → ByteIs src s p
  avoid : b = true → x.avoid = true → ¬ ByteIs src s p
  total : x.total = true → b = true

theorem LinOk.weaken {x y : Lin} {p b q} {ts : List (Tree R)} (h : LinOk src C s y p b q ts) (hle : x.le y = true) :
    LinOk src C s x p b q ts := by
  simp only [Lin.le, Bool.and_eq_true, decide_eq_true_eq, Bool.or_eq_true, Bool.not_eq_true'] at hle
  obtain ⟨⟨⟨⟨⟨⟨h1, h2⟩, h3⟩, h4⟩, h5⟩, h6⟩, h7⟩ := hle
  refine ⟨fun hb => ?_, fun hb k hk => ?_, fun hb k hk => ?_, fun hb k hk hn => ?_, fun hb hk => ?_, fun hb hk => ?_, fun hk => ?_⟩
  · have := h.d hb; omega
  · obtain ⟨j, hj, hjk⟩ := optLe_some h2 hk; have := h.m hb j hj; omega
  · obtain ⟨j, hj, hjk⟩ := optLe_some h3 hk; have := h.f hb j hj; omega
  · obtain ⟨j, hj, hjk⟩ := optLe_some h4 hk; have := h.g hb j hj hn; omega
  · exact h.only hb (by simpa [hk] using h5)
  · exact h.avoid hb (by simpa [hk] using h6)
  · exact h.total (by simpa [hk] using h7)

theorem lin_sound {cert : R → Lin} (hc : ∀ r, ∃ x, (body r).lin C s cert = some x ∧ (cert r).le x = true)
    {e : Expr R} {p b q ts} (h : PegT body src e p b q ts) : ∀ x, e.lin C s cert = some x → LinOk src C s x p b q ts := by
  have hseq : ∀ {a b : Expr R} {x}, (Expr.sequence a b).lin C s cert = some x → ∃ y z, a.lin C s cert = some y ∧
      b.lin C s cert = some z ∧ x = ⟨y.d + z.d, optAdd y.m z.m, if z.total then y.f else optMax y.f (optAdd y.m z.f),
      if y.only || z.total then y.g else optMax y.g (optAdd y.m z.f), y.only, y.avoid, y.total && z.total⟩ := by
    intro a b x hx
    simp only [Expr.lin, Option.bind_eq_bind, Option.bind_eq_some_iff] at hx
    obtain ⟨y, hy, z, hz, hx⟩ := hx
    exact ⟨y, z, hy, hz, by simpa using hx.symm⟩
  have hcho : ∀ {a b : Expr R} {x}, (Expr.orderedChoice a b).lin C s cert = some x → ∃ y z left, a.lin C s cert = some y ∧
      b.lin C s cert = some z ∧ y.leftover z = some left ∧
      x = ⟨min y.d (z.d - left), optMax y.m (optAdd (some left) z.m), optAdd y.f z.f, optAdd y.g z.g,
      y.only && z.only, y.avoid && z.avoid, y.total || z.total⟩ := by
    intro a b x hx
    simp only [Expr.lin, Option.bind_eq_bind, Option.bind_eq_some_iff] at hx
    obtain ⟨y, hy, z, hz, left, hl, hx⟩ := hx
    exact ⟨y, z, left, hy, hz, hl, by simpa using hx.symm⟩
  have hand : ∀ {e : Expr R} {x}, (Expr.andPredicate e).lin C s cert = some x → ∃ y m, e.lin C s cert = some y ∧ y.m = some m ∧
      x = ⟨-m, some m, y.f, y.g, y.only, y.avoid, y.total⟩ := by
    intro e x hx
    simp only [Expr.lin, Option.bind_eq_bind, Option.bind_eq_some_iff] at hx
    obtain ⟨y, hy, m, hm, hx⟩ := hx
    exact ⟨y, m, hy, hm, by simpa using hx.symm⟩
  have hnot : ∀ {e : Expr R} {x}, (Expr.notPredicate e).lin C s cert = some x → ∃ y f, e.lin C s cert = some y ∧ y.f = some f ∧
      x = ⟨-f, some f, y.m, y.m, false, false, false⟩ := by
    intro e x hx
    simp only [Expr.lin, Option.bind_eq_bind, Option.bind_eq_some_iff] at hx
    obtain ⟨y, hy, m, hm, hx⟩ := hx
    exact ⟨y, m, hy, hm, by simpa using hx.symm⟩
  have hopt : ∀ {e : Expr R} {x}, (Expr.optional e).lin C s cert = some x → ∃ y f, e.lin C s cert = some y ∧ y.f = some f ∧
      x = ⟨min y.d (-f), optMax y.m (some f), some 0, some 0, false, false, true⟩ := by
    intro e x hx
    simp only [Expr.lin, Option.bind_eq_bind, Option.bind_eq_some_iff] at hx
    obtain ⟨y, hy, m, hm, hx⟩ := hx
    exact ⟨y, m, hy, hm, by simpa using hx.symm⟩
  have hstar : ∀ {e : Expr R} {x}, (Expr.zeroOrMore e).lin C s cert = some x → ∃ y f, e.lin C s cert = some y ∧ y.f = some f ∧
      0 ≤ y.d ∧ x = ⟨-f, if y.m = some 0 then some f else none, some 0, some 0, false, false, true⟩ := by
    intro e x hx
    simp only [Expr.lin, Option.bind_eq_bind, Option.bind_eq_some_iff] at hx
    obtain ⟨y, hy, m, hm, hx⟩ := hx
    split at hx
    · exact ⟨y, m, hy, hm, ‹_›, by simpa using hx.symm⟩
    · cases hx
  have hplus : ∀ {e : Expr R} {x}, (Expr.oneOrMore e).lin C s cert = some x → ∃ y f, e.lin C s cert = some y ∧ y.f = some f ∧
      0 ≤ y.d ∧ x = ⟨y.d - f, if y.m = some 0 then some f else none, y.f, y.g, y.only, y.avoid, y.total⟩ := by
    intro e x hx
    simp only [Expr.lin, Option.bind_eq_bind, Option.bind_eq_some_iff] at hx
    obtain ⟨y, hy, m, hm, hx⟩ := hx
    split at hx
    · exact ⟨y, m, hy, hm, ‹_›, by simpa using hx.symm⟩
    · cases hx
  induction h with
  | @terminal_ok c p h1 h2 =>
    intro x hx
    simp only [Expr.lin, Option.some.injEq] at hx
    subst hx
    refine ⟨fun _ => (by simp [surv_nil]; omega), fun _ k _ => (by simp [surv_nil]), fun h => (by cases h), fun h => (by cases h), fun _ h => ?_, fun _ h => ?_, fun _ => rfl⟩
    · exact ⟨h1, c, h2, by simpa using h⟩
    · rintro ⟨_, c', h3, h4⟩
      rw [h2] at h3; cases h3
      simp [h4] at h
  | @terminal_fail c p h1 =>
    intro x hx
    simp only [Expr.lin, Option.some.injEq] at hx
    subst hx
    exact ⟨fun h => (by cases h), fun h => (by cases h), fun _ k _ => (by simp [surv_nil]), fun _ k _ _ => (by simp [surv_nil]),
      fun h => (by cases h), fun h => (by cases h), fun h => (by cases h)⟩
  | @range_ok lo hi p c h1 h2 h3 h4 =>
    intro x hx
    simp only [Expr.lin, Option.some.injEq] at hx
    subst hx
    refine ⟨fun _ => (by simp [surv_nil]; omega), fun _ k _ => (by simp [surv_nil]), fun h => (by cases h), fun h => (by cases h), fun _ h => ?_, fun _ h => ?_, fun _ => rfl⟩
    · simp at h
      exact ⟨h1, c, h2, by omega⟩
    · rintro ⟨_, c', h5, h6⟩
      rw [h2] at h5; cases h5
      simp at h
      omega
  | range_fail h1 =>
    intro x hx
    simp only [Expr.lin, Option.some.injEq] at hx
    subst hx
    exact ⟨fun h => (by cases h), fun h => (by cases h), fun _ k _ => (by simp [surv_nil]), fun _ k _ _ => (by simp [surv_nil]),
      fun h => (by cases h), fun h => (by cases h), fun h => (by cases h)⟩
  | @string_ok d p h1 h2 =>
    intro x hx
    simp only [Expr.lin, Option.some.injEq] at hx
    subst hx
    refine ⟨fun _ => ?_, fun _ k _ => (by simp [surv_nil]), fun h => (by cases h), fun h => (by cases h), fun _ h => (by cases h), fun _ h => (by cases h), fun _ => rfl⟩
    simp only [surv_nil]
    have : ((p + d.length : Nat) : Int) - p = d.length := by omega
    rw [this]; simp
  | string_fail h1 =>
    intro x hx
    simp only [Expr.lin, Option.some.injEq] at hx
    subst hx
    exact ⟨fun h => (by cases h), fun h => (by cases h), fun _ k _ => (by simp [surv_nil]), fun _ k _ _ => (by simp [surv_nil]),
      fun h => (by cases h), fun h => (by cases h), fun h => (by cases h)⟩
  | @seq_ok a b p q r ts us h1 h2 ih1 ih2 =>
    intro x hx
    obtain ⟨y, z, hy, hz, rfl⟩ := hseq hx
    have i1 := ih1 y hy
    have i2 := ih2 z hz
    refine ⟨fun _ => ?_, fun _ k hk => ?_, fun h => (by cases h), fun h => (by cases h), fun _ h => i1.only rfl h, fun _ h => i1.avoid rfl h, fun _ => rfl⟩
    · have j1 := i1.d rfl
      have j2 := i2.d rfl
      rw [surv_append]
      have : (C : Int) * ((r : Int) - p) = C * ((q : Int) - p) + C * ((r : Int) - q) := by rw [← Int.mul_add]; congr 1; omega
      simp only
      omega
    · obtain ⟨i, j, hi, hj, hij⟩ := optAdd_some hk
      have := i1.m rfl i hi
      have := i2.m rfl j hj
      rw [surv_append]; omega
  | @seq_fail1 a b p q ts h1 ih1 =>
    intro x hx
    obtain ⟨y, z, hy, hz, rfl⟩ := hseq hx
    have i1 := ih1 y hy
    refine ⟨fun h => (by cases h), fun h => (by cases h), fun _ k hk => ?_, fun _ k hk hn => ?_, fun h => (by cases h), fun h => (by cases h), fun h => i1.total (by simp at h; exact h.1)⟩
    · simp only at hk
      split at hk
      · exact i1.f rfl k hk
      · obtain ⟨i, j, hi, hj, hij, _⟩ := optMax_some hk
        have := i1.f rfl i hi; omega
    · simp only at hk
      split at hk
      · exact i1.g rfl k hk hn
      · obtain ⟨i, j, hi, hj, hij, _⟩ := optMax_some hk
        have := i1.g rfl i hi hn; omega
  | @seq_fail2 a b p q r ts us h1 h2 ih1 ih2 =>
    intro x hx
    obtain ⟨y, z, hy, hz, rfl⟩ := hseq hx
    have i1 := ih1 y hy
    have i2 := ih2 z hz
    refine ⟨fun h => (by cases h), fun h => (by cases h), fun _ k hk => ?_, fun _ k hk hn => ?_, fun h => (by cases h), fun h => (by cases h), fun h => i2.total (by simp at h; exact h.2)⟩
    · simp only at hk
      split at hk
      · cases i2.total ‹_›
      · obtain ⟨i, j, hi, hj, _, hij⟩ := optMax_some hk
        obtain ⟨i', j', hi', hj', hij'⟩ := optAdd_some hj
        have := i1.m rfl i' hi'
        have := i2.f rfl j' hj'
        rw [surv_append]; omega
    · simp only at hk
      split at hk
      · next ht =>
        simp only [Bool.or_eq_true] at ht
        rcases ht with ht | ht
        · exact absurd (i1.only rfl ht) hn
        · cases i2.total ht
      · obtain ⟨i, j, hi, hj, _, hij⟩ := optMax_some hk
        obtain ⟨i', j', hi', hj', hij'⟩ := optAdd_some hj
        have := i1.m rfl i' hi'
        have := i2.f rfl j' hj'
        rw [surv_append]; omega
  | @choice_left a b p q ts h1 ih1 =>
    intro x hx
    obtain ⟨y, z, left, hy, hz, hl, rfl⟩ := hcho hx
    have i1 := ih1 y hy
    refine ⟨fun _ => ?_, fun _ k hk => ?_, fun h => (by cases h), fun h => (by cases h), fun _ h => ?_, fun _ h => ?_, fun _ => rfl⟩
    · have := i1.d rfl
      simp only; omega
    · obtain ⟨i, j, hi, hj, hij, _⟩ := optMax_some hk
      have := i1.m rfl i hi; omega
    · simp at h; exact i1.only rfl h.1
    · simp at h; exact i1.avoid rfl h.1
  | @choice_right a b p q r ts us h1 h2 ih1 ih2 =>
    intro x hx
    obtain ⟨y, z, left, hy, hz, hl, rfl⟩ := hcho hx
    have i1 := ih1 y hy
    have i2 := ih2 z hz
    have hleft : surv ts ≤ left := by
      unfold Lin.leftover at hl
      split at hl
      · exact i1.g rfl left hl (i2.avoid rfl ‹_›)
      · exact i1.f rfl left hl
    refine ⟨fun _ => ?_, fun _ k hk => ?_, fun h => (by cases h), fun h => (by cases h), fun _ h => ?_, fun _ h => ?_, fun _ => rfl⟩
    · have := i2.d rfl
      rw [surv_append]
      simp only; omega
    · obtain ⟨i, j, hi, hj, _, hij⟩ := optMax_some hk
      obtain ⟨i', j', hi', hj', hij'⟩ := optAdd_some hj
      cases hi'
      have := i2.m rfl j' hj'
      rw [surv_append]; omega
    · simp at h; exact i2.only rfl h.2
    · simp at h; exact i2.avoid rfl h.2
  | @choice_fail a b p q r ts us h1 h2 ih1 ih2 =>
    intro x hx
    obtain ⟨y, z, left, hy, hz, hl, rfl⟩ := hcho hx
    have i1 := ih1 y hy
    have i2 := ih2 z hz
    refine ⟨fun h => (by cases h), fun h => (by cases h), fun _ k hk => ?_, fun _ k hk hn => ?_, fun h => (by cases h), fun h => (by cases h), fun h => (by simp at h; exact h.elim i1.total i2.total)⟩
    · obtain ⟨i, j, hi, hj, hij⟩ := optAdd_some hk
      have := i1.f rfl i hi
      have := i2.f rfl j hj
      rw [surv_append]; omega
    · obtain ⟨i, j, hi, hj, hij⟩ := optAdd_some hk
      have := i1.g rfl i hi hn
      have := i2.g rfl j hj hn
      rw [surv_append]; omega
  | and_ok h1 ih1 =>
    intro x hx
    obtain ⟨y, m, hy, hm, rfl⟩ := hand hx
    have i1 := ih1 y hy
    have := i1.m rfl m hm
    refine ⟨fun _ => ?_, fun _ k hk => ?_, fun h => (by cases h), fun h => (by cases h), fun _ h => i1.only rfl h, fun _ h => i1.avoid rfl h, fun _ => rfl⟩
    · simp; omega
    · cases hk; exact this
  | and_fail h1 ih1 =>
    intro x hx
    obtain ⟨y, m, hy, hm, rfl⟩ := hand hx
    have i1 := ih1 y hy
    exact ⟨fun h => (by cases h), fun h => (by cases h), fun _ k hk => i1.f rfl k hk, fun _ k hk hn => i1.g rfl k hk hn,
      fun h => (by cases h), fun h => (by cases h), fun h => i1.total h⟩
  | not_ok h1 ih1 =>
    intro x hx
    obtain ⟨y, m, hy, hm, rfl⟩ := hnot hx
    have i1 := ih1 y hy
    have := i1.f rfl m hm
    refine ⟨fun _ => ?_, fun _ k hk => ?_, fun h => (by cases h), fun h => (by cases h), fun _ h => (by cases h), fun _ h => (by cases h), fun _ => rfl⟩
    · simp; omega
    · cases hk; exact this
  | not_fail h1 ih1 =>
    intro x hx
    obtain ⟨y, m, hy, hm, rfl⟩ := hnot hx
    have i1 := ih1 y hy
    exact ⟨fun h => (by cases h), fun h => (by cases h), fun _ k hk => i1.m rfl k hk, fun _ k hk hn => i1.m rfl k hk,
      fun h => (by cases h), fun h => (by cases h), fun h => (by cases h)⟩
  | opt_some h1 ih1 =>
    intro x hx
    obtain ⟨y, f, hy, hf, rfl⟩ := hopt hx
    have i1 := ih1 y hy
    refine ⟨fun _ => ?_, fun _ k hk => ?_, fun h => (by cases h), fun h => (by cases h), fun _ h => (by cases h), fun _ h => (by cases h), fun _ => rfl⟩
    · have := i1.d rfl
      simp only; omega
    · obtain ⟨i, j, hi, hj, hij, _⟩ := optMax_some hk
      have := i1.m rfl i hi; omega
  | opt_none h1 ih1 =>
    intro x hx
    obtain ⟨y, f, hy, hf, rfl⟩ := hopt hx
    have i1 := ih1 y hy
    have := i1.f rfl f hf
    refine ⟨fun _ => ?_, fun _ k hk => ?_, fun h => (by cases h), fun h => (by cases h), fun _ h => (by cases h), fun _ h => (by cases h), fun _ => rfl⟩
    · simp; omega
    · obtain ⟨i, j, hi, hj, _, hij⟩ := optMax_some hk
      cases hj; omega
  | star_stop h1 ih1 =>
    intro x hx
    obtain ⟨y, f, hy, hf, hd, rfl⟩ := hstar hx
    have i1 := ih1 y hy
    have := i1.f rfl f hf
    refine ⟨fun _ => ?_, fun _ k hk => ?_, fun h => (by cases h), fun h => (by cases h), fun _ h => (by cases h), fun _ h => (by cases h), fun _ => rfl⟩
    · simp; omega
    · simp only at hk; split at hk
      · cases hk; exact this
      · cases hk
  | @star_step e p q r ts us h1 h2 ih1 ih2 =>
    intro x hx
    have i2 := ih2 x hx
    obtain ⟨y, f, hy, hf, hd, rfl⟩ := hstar hx
    have i1 := ih1 y hy
    refine ⟨fun _ => ?_, fun _ k hk => ?_, fun h => (by cases h), fun h => (by cases h), fun _ h => (by cases h), fun _ h => (by cases h), fun _ => rfl⟩
    · have j1 := i1.d rfl
      have j2 := i2.d rfl
      rw [surv_append]
      have : (C : Int) * ((r : Int) - p) = C * ((q : Int) - p) + C * ((r : Int) - q) := by rw [← Int.mul_add]; congr 1; omega
      simp only at j2 ⊢
      omega
    · have j2 := i2.m rfl k hk
      simp only at hk; split at hk
      · have := i1.m rfl 0 ‹_›
        rw [surv_append]; omega
      · cases hk
  | @plus_ok e p q r ts us h1 h2 ih1 ih2 =>
    intro x hx
    obtain ⟨y, f, hy, hf, hd, rfl⟩ := hplus hx
    have hs : (Expr.zeroOrMore e).lin C s cert = some ⟨-f, if y.m = some 0 then some f else none, some 0, some 0, false, false, true⟩ := by
      simp [Expr.lin, hy, hf, hd]
    have i2 := ih2 _ hs
    have i1 := ih1 y hy
    refine ⟨fun _ => ?_, fun _ k hk => ?_, fun h => (by cases h), fun h => (by cases h), fun _ h => i1.only rfl h, fun _ h => i1.avoid rfl h, fun _ => rfl⟩
    · have j1 := i1.d rfl
      have j2 := i2.d rfl
      rw [surv_append]
      have : (C : Int) * ((r : Int) - p) = C * ((q : Int) - p) + C * ((r : Int) - q) := by rw [← Int.mul_add]; congr 1; omega
      simp only at j2 ⊢
      omega
    · have j2 := i2.m rfl k hk
      simp only at hk; split at hk
      · have := i1.m rfl 0 ‹_›
        rw [surv_append]; omega
      · cases hk
  | plus_fail h1 ih1 =>
    intro x hx
    obtain ⟨y, f, hy, hf, hd, rfl⟩ := hplus hx
    have i1 := ih1 y hy
    exact ⟨fun h => (by cases h), fun h => (by cases h), fun _ k hk => i1.f rfl k hk, fun _ k hk hn => i1.g rfl k hk hn,
      fun h => (by cases h), fun h => (by cases h), fun h => i1.total h⟩
  | sub_ok h1 ih1 => exact fun x hx => ih1 x hx
  | sub_fail h1 ih1 =>
    intro x hx
    have i1 := ih1 x hx
    exact ⟨fun h => (by cases h), fun h => (by cases h), fun _ k hk => i1.f rfl k hk, fun _ k hk hn => i1.g rfl k hk hn,
      fun h => (by cases h), fun h => (by cases h), fun h => i1.total h⟩
  | @ref r p b q ts h1 ih1 =>
    intro x hx
    simp only [Expr.lin, Option.some.injEq] at hx
    subst hx
    obtain ⟨y, hy, hle⟩ := hc r
    have i1 := (ih1 y hy).weaken hle
    cases b with
    | false =>
      have : surv [Tree.mk r p false q ts] = 0 := by simp [surv, Tree.mk, Tree.prune.pruneL, Tree.prune, Tree.size.sizeL]
      exact ⟨fun h => (by cases h), fun h => (by cases h), fun _ k _ => (by omega), fun _ k _ _ => (by omega),
        fun h => (by cases h), fun h => (by cases h), fun h => i1.total h⟩
    | true =>
      have hs : surv [Tree.mk r p true q ts] = if p = q then 0 else 1 + surv ts := by
        by_cases hpq : p = q <;> simp [surv, Tree.mk, Tree.prune.pruneL, Tree.prune, hpq, Tree.size.sizeL, Tree.size]
      refine ⟨fun _ => ?_, fun _ k hk => ?_, fun h => (by cases h), fun h => (by cases h), fun _ h => i1.only rfl h, fun _ h => i1.avoid rfl h, fun _ => rfl⟩
      · have := i1.d rfl
        rw [hs]
        split
        · subst_vars; simp at this ⊢; omega
        · simp only; omega
      · rw [hs]
        simp only [Option.map_eq_some_iff] at hk
        obtain ⟨j, hj, rfl⟩ := hk
        have := i1.m rfl j hj
        split <;> omega
  | @inl r p b q ts h1 ih1 =>
    intro x hx
    simp only [Expr.lin, Option.some.injEq] at hx
    subst hx
    obtain ⟨y, hy, hle⟩ := hc r
    exact (ih1 y hy).weaken hle

end PP
