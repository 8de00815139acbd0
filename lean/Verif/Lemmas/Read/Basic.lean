import Verif.Lemmas.Calc.Text

/-! # A calculus of unambiguous grammars

A type `X` of syntax with its text `txt : X → List UInt8`.

* `Firsts txt F`: texts start with a byte in `F`.
* `CmpFrom src lo txt S`: two things written at the same place are equal, or one is a proper prefix of the other and is followed
  there by a byte in `S`.
* `Reads body src lo e txt`: the expression `e` succeeds exactly where some `x : X` is written, and consumes the longest. -/
namespace PP

section
variable {X Y : Type}

def Firsts (txt : X → List UInt8) (F : UInt8 → Prop) : Prop := ∀ x c, (txt x).head? = some c → F c

def CmpFrom (src : Source) (lo : Nat) (txt : X → List UInt8) (S : UInt8 → Prop) : Prop :=
  ∀ p, lo ≤ p → ∀ x y, TextAt src p (txt x) → TextAt src p (txt y) →
    x = y ∨ ((txt x).length < (txt y).length ∧ ∃ c, ByteAt src (p + (txt x).length) c ∧ S c) ∨
    ((txt y).length < (txt x).length ∧ ∃ c, ByteAt src (p + (txt y).length) c ∧ S c)

/-- The longest of its kind at `p`. -/
def Longest (src : Source) (p : Nat) (txt : X → List UInt8) (x : X) : Prop :=
  TextAt src p (txt x) ∧ ∀ y, TextAt src p (txt y) → (txt y).length ≤ (txt x).length

def Reads {R : Type} (body : R → Expr R) (src : Source) (lo : Nat) (e : Expr R) (txt : X → List UInt8) : Prop :=
  ∀ p b q, lo ≤ p → Peg body src e p b q →
    (b = true ∧ ∃ x, Longest src p txt x ∧ q = p + (txt x).length) ∨ (b = false ∧ ∀ x, ¬ TextAt src p (txt x))

theorem CmpFrom.mono {src : Source} {lo lo' : Nat} {txt : X → List UInt8} {S S' : UInt8 → Prop} (h : CmpFrom src lo txt S)
    (hl : lo ≤ lo') (hS : ∀ c, S c → S' c) : CmpFrom src lo' txt S' := by
  intro p hp x y hx hy
  rcases h p (by omega) x y hx hy with h | ⟨h, c, h1, h2⟩ | ⟨h, c, h1, h2⟩
  · exact Or.inl h
  · exact Or.inr (Or.inl ⟨h, c, h1, hS c h2⟩)
  · exact Or.inr (Or.inr ⟨h, c, h1, hS c h2⟩)

theorem Reads.mono {R : Type} {body : R → Expr R} {src : Source} {lo lo' : Nat} {e : Expr R} {txt : X → List UInt8}
    (h : Reads body src lo e txt) (hl : lo ≤ lo') : Reads body src lo' e txt :=
  fun p b q hp => h p b q (by omega)

/-! ## Text of pairs, options, lists, sums -/

def pairTxt (a : X → List UInt8) (b : Y → List UInt8) : X × Y → List UInt8 := fun x => a x.1 ++ b x.2
def optTxt (a : X → List UInt8) : Option X → List UInt8
  | none => []
  | some x => a x
def listTxt (a : X → List UInt8) : List X → List UInt8
  | [] => []
  | x :: xs => a x ++ listTxt a xs
def sumTxt (a : X → List UInt8) (b : Y → List UInt8) : X ⊕ Y → List UInt8
  | .inl x => a x
  | .inr y => b y

variable {a : X → List UInt8} {b : Y → List UInt8} {F G S T : UInt8 → Prop} {src : Source} {lo : Nat}

/-- Never empty. -/
def NonNil (a : X → List UInt8) : Prop := ∀ x, a x ≠ []

theorem textAt_head {p : Nat} {l : List UInt8} (h : TextAt src p l) (hl : l ≠ []) : ∃ c, l.head? = some c ∧ ByteAt src p c := by
  cases l with
  | nil => exact absurd rfl hl
  | cons c l => exact ⟨c, rfl, h.1⟩

theorem Firsts.mono (h : Firsts a F) (hF : ∀ c, F c → G c) : Firsts a G := fun x c hc => hF c (h x c hc)

theorem Firsts.at (h : Firsts a F) {p : Nat} {x : X} (hx : TextAt src p (a x)) (hn : a x ≠ []) : ∃ c, ByteAt src p c ∧ F c := by
  obtain ⟨c, h1, h2⟩ := textAt_head hx hn
  exact ⟨c, h2, h x c h1⟩

theorem firsts_pair (h : Firsts a F) (hn : NonNil a) : Firsts (pairTxt a b) F := by
  intro x c hc
  refine h x.1 c ?_
  have := hn x.1
  unfold pairTxt at hc
  cases hx : a x.1 with
  | nil => exact absurd hx this
  | cons d l => rw [hx] at hc; exact hc

/-- A pair whose first component may be empty. -/
theorem firsts_pair' (h : Firsts a F) (h' : Firsts b F) : Firsts (pairTxt a b) F := by
  intro x c hc
  unfold pairTxt at hc
  cases hx : a x.1 with
  | nil => rw [hx] at hc; exact h' x.2 c hc
  | cons d l => rw [hx] at hc; exact h x.1 c (by rw [hx]; exact hc)

theorem firsts_opt (h : Firsts a F) : Firsts (optTxt a) F
  | none, _, hc => by cases hc
  | some x, c, hc => h x c hc

theorem firsts_list (h : Firsts a F) : Firsts (listTxt a) F := by
  intro l
  induction l with
  | nil => intro c hc; cases hc
  | cons x xs ih =>
    intro c hc
    rw [listTxt] at hc
    cases hx : a x with
    | nil => rw [hx] at hc; exact ih c hc
    | cons d l => rw [hx] at hc; exact h x c (by rw [hx]; exact hc)

theorem firsts_sum (h : Firsts a F) (h' : Firsts b F) : Firsts (sumTxt a b) F
  | .inl x, c, hc => h x c hc
  | .inr y, c, hc => h' y c hc

theorem nonNil_pair (h : NonNil a) : NonNil (pairTxt a b) := fun x hx => h x.1 (List.append_eq_nil_iff.mp hx).1
theorem nonNil_pair' (h : NonNil b) : NonNil (pairTxt a b) := fun x hx => h x.2 (List.append_eq_nil_iff.mp hx).2
theorem nonNil_sum (h : NonNil a) (h' : NonNil b) : NonNil (sumTxt a b)
  | .inl x => h x
  | .inr y => h' y

/-! ## Comparing -/

theorem cmp_const {l : List UInt8} : CmpFrom src lo (fun _ : Unit => l) S := fun _ _ _ _ _ _ => Or.inl rfl

theorem cmp_byte {f : X → UInt8} (hf : ∀ x y, f x = f y → x = y) : CmpFrom src lo (fun x => [f x]) S := by
  intro p hp x y hx hy
  exact Or.inl (hf x y (hx.1.unique hy.1))

theorem cmp_pair' (ha : CmpFrom src lo a S)
    (hb : ∀ p x, lo ≤ p → TextAt src p (a x) → CmpFrom src (p + (a x).length) b T) (hF : Firsts b F) (hd : ∀ c, F c → ¬ S c) :
    CmpFrom src lo (pairTxt a b) (fun c => S c ∨ T c) := by
  have key : ∀ p, lo ≤ p → ∀ x y : X × Y, TextAt src p (pairTxt a b x) → TextAt src p (pairTxt a b y) →
      (a x.1).length < (a y.1).length → (∃ c, ByteAt src (p + (a x.1).length) c ∧ S c) →
      (pairTxt a b x).length < (pairTxt a b y).length ∧
        ∃ c, ByteAt src (p + (pairTxt a b x).length) c ∧ (S c ∨ T c) := by
    rintro p hp ⟨x1, x2⟩ ⟨y1, y2⟩ hx hy h1 ⟨c, h2, h3⟩
    obtain ⟨g1, g2⟩ := textAt_append.mp hx
    have hnil : b x2 = [] := by
      refine Decidable.byContradiction fun hn => ?_
      obtain ⟨d, k1, k2⟩ := hF.at g2 hn
      exact hd d k2 (by rwa [k1.unique h2])
    simp only [pairTxt, hnil, List.append_nil, List.length_append]
    exact ⟨by simp only at h1; omega, c, h2, Or.inl h3⟩
  intro p hp x y hx hy
  obtain ⟨x1, x2⟩ := x
  obtain ⟨y1, y2⟩ := y
  obtain ⟨hx1, hx2⟩ := textAt_append.mp hx
  obtain ⟨hy1, hy2⟩ := textAt_append.mp hy
  rcases ha p hp x1 y1 hx1 hy1 with h | ⟨h, h'⟩ | ⟨h, h'⟩
  · subst h
    rcases hb p x1 hp hx1 _ (Nat.le_refl _) x2 y2 hx2 hy2 with h | ⟨h, c, h1, h2⟩ | ⟨h, c, h1, h2⟩
    · subst h; exact Or.inl rfl
    · refine Or.inr (Or.inl ⟨by simp only [pairTxt, List.length_append]; omega, c, ?_, Or.inr h2⟩)
      simp only [pairTxt, List.length_append, ← Nat.add_assoc]
      exact h1
    · refine Or.inr (Or.inr ⟨by simp only [pairTxt, List.length_append]; omega, c, ?_, Or.inr h2⟩)
      simp only [pairTxt, List.length_append, ← Nat.add_assoc]
      exact h1
  · exact Or.inr (Or.inl (key p hp (x1, x2) (y1, y2) hx hy h h'))
  · exact Or.inr (Or.inr (key p hp (y1, y2) (x1, x2) hy hx h h'))

theorem cmp_pair (ha : CmpFrom src lo a S) (hb : CmpFrom src lo b T) (hF : Firsts b F) (hd : ∀ c, F c → ¬ S c) :
    CmpFrom src lo (pairTxt a b) (fun c => S c ∨ T c) :=
  cmp_pair' ha (fun _ _ _ _ => hb.mono (by omega) fun _ h => h) hF hd

/-- If the second component is never empty, only it matters what follows. -/
theorem cmp_pair_nn (ha : CmpFrom src lo a S)
    (hb : ∀ p x, lo ≤ p → TextAt src p (a x) → CmpFrom src (p + (a x).length) b T) (hF : Firsts b F) (hn : NonNil b)
    (hd : ∀ c, F c → ¬ S c) : CmpFrom src lo (pairTxt a b) T := by
  have key : ∀ p, ∀ (x1 : X) (x2 : Y), TextAt src (p + (a x1).length) (b x2) →
      ¬ ∃ c, ByteAt src (p + (a x1).length) c ∧ S c := by
    rintro p x1 x2 hx ⟨c, h2, h3⟩
    obtain ⟨d, k1, k2⟩ := hF.at hx (hn x2)
    exact hd d k2 (by rwa [k1.unique h2])
  intro p hp x y hx hy
  obtain ⟨x1, x2⟩ := x
  obtain ⟨y1, y2⟩ := y
  obtain ⟨hx1, hx2⟩ := textAt_append.mp hx
  obtain ⟨hy1, hy2⟩ := textAt_append.mp hy
  rcases ha p hp x1 y1 hx1 hy1 with h | ⟨h, h'⟩ | ⟨h, h'⟩
  · subst h
    rcases hb p x1 hp hx1 _ (Nat.le_refl _) x2 y2 hx2 hy2 with h | ⟨h, c, h1, h2⟩ | ⟨h, c, h1, h2⟩
    · subst h; exact Or.inl rfl
    · refine Or.inr (Or.inl ⟨by simp only [pairTxt, List.length_append]; omega, c, ?_, h2⟩)
      simp only [pairTxt, List.length_append, ← Nat.add_assoc]
      exact h1
    · refine Or.inr (Or.inr ⟨by simp only [pairTxt, List.length_append]; omega, c, ?_, h2⟩)
      simp only [pairTxt, List.length_append, ← Nat.add_assoc]
      exact h1
  · exact absurd h' (key p x1 x2 hx2)
  · exact absurd h' (key p y1 y2 hy2)

theorem cmp_opt (ha : CmpFrom src lo a S) (hF : Firsts a F) (hn : NonNil a) :
    CmpFrom src lo (optTxt a) (fun c => S c ∨ F c) := by
  intro p hp x y hx hy
  cases x with
  | none =>
    cases y with
    | none => exact Or.inl rfl
    | some y =>
      obtain ⟨c, h1, h2⟩ := hF.at hy (hn y)
      exact Or.inr (Or.inl ⟨List.length_pos_iff.mpr (hn y), c, h1, Or.inr h2⟩)
  | some x =>
    cases y with
    | none =>
      obtain ⟨c, h1, h2⟩ := hF.at hx (hn x)
      exact Or.inr (Or.inr ⟨List.length_pos_iff.mpr (hn x), c, h1, Or.inr h2⟩)
    | some y =>
      rcases ha p hp x y hx hy with h | ⟨h, c, h1, h2⟩ | ⟨h, c, h1, h2⟩
      · subst h; exact Or.inl rfl
      · exact Or.inr (Or.inl ⟨h, c, h1, Or.inl h2⟩)
      · exact Or.inr (Or.inr ⟨h, c, h1, Or.inl h2⟩)

theorem listTxt_ne (hn : NonNil a) {l : List X} (h : l ≠ []) : listTxt a l ≠ [] := by
  cases l with
  | nil => exact absurd rfl h
  | cons x xs => rw [listTxt]; intro h; exact hn x (List.append_eq_nil_iff.mp h).1

theorem cmp_list (ha : CmpFrom src lo a S) (hF : Firsts a F) (hn : NonNil a) (hd : ∀ c, F c → ¬ S c) :
    CmpFrom src lo (listTxt a) (fun c => S c ∨ F c) := by
  have short : ∀ p, ∀ x xs, TextAt src p (a x ++ listTxt a xs) → (∃ c, ByteAt src (p + (a x).length) c ∧ S c) →
      listTxt a xs = [] := by
    intro p x xs h ⟨c, h1, h2⟩
    refine Decidable.byContradiction fun hne => ?_
    obtain ⟨d, k1, k2⟩ := (firsts_list hF).at (textAt_append.mp h).2 hne
    exact hd d k2 (by rwa [k1.unique h1])
  intro p hp x
  induction x generalizing p with
  | nil =>
    intro y _ hy
    cases y with
    | nil => exact Or.inl rfl
    | cons y ys =>
      have hne := listTxt_ne hn (l := y :: ys) (by simp)
      obtain ⟨c, h1, h2⟩ := (firsts_list hF).at hy hne
      exact Or.inr (Or.inl ⟨List.length_pos_iff.mpr hne, c, h1, Or.inr h2⟩)
  | cons x xs ih =>
    intro y hx hy
    cases y with
    | nil =>
      have hne := listTxt_ne hn (l := x :: xs) (by simp)
      obtain ⟨c, h1, h2⟩ := (firsts_list hF).at hx hne
      exact Or.inr (Or.inr ⟨List.length_pos_iff.mpr hne, c, h1, Or.inr h2⟩)
    | cons y ys =>
      obtain ⟨hx1, hx2⟩ := textAt_append.mp hx
      obtain ⟨hy1, hy2⟩ := textAt_append.mp hy
      rcases ha p hp x y hx1 hy1 with h | ⟨h, h'⟩ | ⟨h, h'⟩
      · subst h
        rcases ih _ (by omega) ys hx2 hy2 with h | ⟨h, c, h1, h2⟩ | ⟨h, c, h1, h2⟩
        · subst h; exact Or.inl rfl
        · refine Or.inr (Or.inl ⟨by simp only [listTxt, List.length_append]; omega, c, ?_, h2⟩)
          simp only [listTxt, List.length_append, ← Nat.add_assoc]
          exact h1
        · refine Or.inr (Or.inr ⟨by simp only [listTxt, List.length_append]; omega, c, ?_, h2⟩)
          simp only [listTxt, List.length_append, ← Nat.add_assoc]
          exact h1
      · have hs := short p x xs hx h'
        obtain ⟨c, h1, h2⟩ := h'
        refine Or.inr (Or.inl ?_)
        simp only [listTxt, hs, List.append_nil, List.length_append]
        exact ⟨by omega, c, h1, Or.inl h2⟩
      · have hs := short p y ys hy h'
        obtain ⟨c, h1, h2⟩ := h'
        refine Or.inr (Or.inr ?_)
        simp only [listTxt, hs, List.append_nil, List.length_append]
        exact ⟨by omega, c, h1, Or.inl h2⟩

theorem cmp_sum (ha : CmpFrom src lo a S) (hb : CmpFrom src lo b T)
    (hd : ∀ p x y, lo ≤ p → TextAt src p (a x) → TextAt src p (b y) → False) :
    CmpFrom src lo (sumTxt a b) (fun c => S c ∨ T c) := by
  intro p hp x y hx hy
  cases x with
  | inl x =>
    cases y with
    | inl y =>
      rcases ha p hp x y hx hy with h | ⟨h, c, h1, h2⟩ | ⟨h, c, h1, h2⟩
      · subst h; exact Or.inl rfl
      · exact Or.inr (Or.inl ⟨h, c, h1, Or.inl h2⟩)
      · exact Or.inr (Or.inr ⟨h, c, h1, Or.inl h2⟩)
    | inr y => exact (hd p x y hp hx hy).elim
  | inr x =>
    cases y with
    | inl y => exact (hd p y x hp hy hx).elim
    | inr y =>
      rcases hb p hp x y hx hy with h | ⟨h, c, h1, h2⟩ | ⟨h, c, h1, h2⟩
      · subst h; exact Or.inl rfl
      · exact Or.inr (Or.inl ⟨h, c, h1, Or.inr h2⟩)
      · exact Or.inr (Or.inr ⟨h, c, h1, Or.inr h2⟩)

theorem disjoint_firsts (hF : Firsts a F) (hG : Firsts b G) (hn : NonNil a) (hm : NonNil b) (hd : ∀ c, F c → ¬ G c) :
    ∀ p x y, lo ≤ p → TextAt src p (a x) → TextAt src p (b y) → False := by
  intro p x y _ hx hy
  obtain ⟨c, h1, h2⟩ := hF.at hx (hn x)
  obtain ⟨d, h3, h4⟩ := hG.at hy (hm y)
  exact hd c h2 (by rwa [h1.unique h3])

/-- Another way to write the same type. -/
theorem cmp_comap (h : CmpFrom src lo a S) (f : Y → X) (hf : ∀ x y, f x = f y → x = y) (ht : ∀ y, b y = a (f y)) :
    CmpFrom src lo b S := by
  intro p hp x y hx hy
  rw [ht] at hx hy
  rcases h p hp (f x) (f y) hx hy with h | h | h
  · exact Or.inl (hf x y h)
  · exact Or.inr (Or.inl (by rwa [ht, ht]))
  · exact Or.inr (Or.inr (by rwa [ht, ht]))

theorem cmp_map (h : CmpFrom src lo a S) (f : X → Y) (hs : ∀ y, ∃ x, f x = y) (ht : ∀ x, b (f x) = a x) :
    CmpFrom src lo b S := by
  intro p hp y y' hy hy'
  obtain ⟨x, rfl⟩ := hs y
  obtain ⟨x', rfl⟩ := hs y'
  rw [ht] at hy hy'
  rcases h p hp x x' hy hy' with h | h | h
  · exact Or.inl (by rw [h])
  · exact Or.inr (Or.inl (by rwa [ht, ht]))
  · exact Or.inr (Or.inr (by rwa [ht, ht]))

theorem firsts_map (h : Firsts a F) (f : X → Y) (hs : ∀ y, ∃ x, f x = y) (ht : ∀ x, b (f x) = a x) : Firsts b F := by
  intro y c hc
  obtain ⟨x, rfl⟩ := hs y
  rw [ht] at hc
  exact h x c hc

theorem nonNil_map (h : NonNil a) (f : X → Y) (hs : ∀ y, ∃ x, f x = y) (ht : ∀ x, b (f x) = a x) : NonNil b := by
  intro y
  obtain ⟨x, rfl⟩ := hs y
  rw [ht]
  exact h x

theorem firsts_comap (h : Firsts a F) (f : Y → X) (ht : ∀ y, b y = a (f y)) : Firsts b F := by
  intro y c hc
  rw [ht] at hc
  exact h _ c hc

/-! ## Reading -/
variable {R : Type} {body : R → Expr R} {e e' : Expr R}

theorem reads_map (h : Reads body src lo e a) (f : X → Y) (hs : ∀ y, ∃ x, f x = y) (ht : ∀ x, b (f x) = a x) :
    Reads body src lo e b := by
  intro p o q hp hq
  rcases h p o q hp hq with ⟨rfl, x, ⟨h1, h2⟩, h3⟩ | ⟨rfl, h1⟩
  · refine Or.inl ⟨rfl, f x, ⟨by rwa [ht], fun y hy => ?_⟩, by rwa [ht]⟩
    obtain ⟨x', rfl⟩ := hs y
    rw [ht] at hy
    rw [ht, ht]
    exact h2 x' hy
  · refine Or.inr ⟨rfl, fun y hy => ?_⟩
    obtain ⟨x', rfl⟩ := hs y
    rw [ht] at hy
    exact h1 x' hy

theorem reads_byte {c : UInt8} : Reads body src lo (.terminal c) (fun _ : Unit => [c]) := by
  intro p o q hp h
  cases h with
  | terminal_ok h1 h2 => exact Or.inl ⟨rfl, (), ⟨⟨⟨h1, h2⟩, trivial⟩, fun _ _ => Nat.le_refl _⟩, rfl⟩
  | terminal_fail h => exact Or.inr ⟨rfl, fun _ hx => h hx.1⟩

theorem reads_empty : Reads body src lo (.stringTerminal []) (fun _ : Unit => []) := by
  intro p o q hp h
  cases h with
  | string_ok h => exact Or.inl ⟨rfl, (), ⟨trivial, fun _ _ => Nat.le_refl _⟩, rfl⟩
  | string_fail h => exact absurd ⟨Or.inl rfl, by simp [Source.slice]⟩ h

theorem reads_range {lo' hi : Nat} {f : X → UInt8} (hf : ∀ c : UInt8, lo' ≤ c.toNat ∧ c.toNat ≤ hi ↔ ∃ x, f x = c) :
    Reads body src lo (.matchRange lo' hi) (fun x => [f x]) := by
  intro p o q hp h
  cases h with
  | range_ok h1 h2 h3 h4 =>
    obtain ⟨x, rfl⟩ := (hf _).mp ⟨h3, h4⟩
    exact Or.inl ⟨rfl, x, ⟨⟨⟨h1, h2⟩, trivial⟩, fun _ _ => Nat.le_refl _⟩, rfl⟩
  | range_fail h =>
    refine Or.inr ⟨rfl, fun x hx => h ?_⟩
    obtain ⟨h3, h4⟩ := (hf (f x)).mpr ⟨x, rfl⟩
    exact ⟨_, hx.1.1, hx.1.2, h3, h4⟩

theorem reads_ref {r : R} (h : Reads body src lo (body r) a) : Reads body src lo (.varName r) a := by
  intro p o q hp hq
  cases hq with
  | ref hq => exact h p o q hp hq

theorem reads_inl {r : R} (h : Reads body src lo (body r) a) : Reads body src lo (.inlined r) a := by
  intro p o q hp hq
  cases hq with
  | inl hq => exact h p o q hp hq

theorem reads_sub (h : Reads body src lo e a) : Reads body src lo (.subexpression e) a := by
  intro p o q hp hq
  cases hq with
  | sub_ok hq => exact h p _ _ hp hq
  | sub_fail hq =>
    rcases h p _ _ hp hq with ⟨h, _⟩ | ⟨_, h⟩
    · cases h
    · exact Or.inr ⟨rfl, h⟩

theorem Longest.unique_len {p : Nat} {x y : X} (hx : Longest src p a x) (hy : Longest src p a y) :
    (a x).length = (a y).length := Nat.le_antisymm (hy.2 x hx.1) (hx.2 y hy.1)

/-- The longest pair: the longest first component, then the longest second. -/
theorem longest_pair (ha : CmpFrom src lo a S) (hF : Firsts b F) (hd : ∀ c, F c → ¬ S c) {p : Nat} (hp : lo ≤ p) {x : X} {y : Y}
    (hx : Longest src p a x) (hy : Longest src (p + (a x).length) b y) : Longest src p (pairTxt a b) (x, y) := by
  refine ⟨textAt_append.mpr ⟨hx.1, hy.1⟩, ?_⟩
  rintro ⟨x', y'⟩ h
  obtain ⟨h1, h2⟩ := textAt_append.mp h
  simp only [pairTxt, List.length_append]
  have hle := hx.2 x' h1
  rcases ha p hp x x' hx.1 h1 with rfl | ⟨h, _⟩ | ⟨h, c, g1, g2⟩
  · have := hy.2 y' h2
    omega
  · omega
  · have hnil : b y' = [] := by
      refine Decidable.byContradiction fun hn => ?_
      obtain ⟨d, k1, k2⟩ := hF.at h2 hn
      exact hd d k2 (by rwa [k1.unique g1])
    rw [hnil]
    simp only [List.length_nil]
    omega

theorem reads_seq' (hra : Reads body src lo e a)
    (hrb : ∀ x p, lo ≤ p → TextAt src p (a x) → Reads body src (p + (a x).length) e' b) (ha : CmpFrom src lo a S)
    (hF : Firsts b F) (hd : ∀ c, F c → ¬ S c) : Reads body src lo (.sequence e e') (pairTxt a b) := by
  intro p o q hp h
  cases h with
  | seq_ok h1 h2 =>
    rcases hra _ _ _ hp h1 with ⟨_, x, hx, rfl⟩ | ⟨h, _⟩
    · rcases hrb x p hp hx.1 _ _ _ (Nat.le_refl _) h2 with ⟨_, y, hy, rfl⟩ | ⟨h, _⟩
      · exact Or.inl ⟨rfl, (x, y), longest_pair ha hF hd hp hx hy, by simp [pairTxt]; omega⟩
      · cases h
    · cases h
  | seq_fail1 h1 =>
    rcases hra _ _ _ hp h1 with ⟨h, _⟩ | ⟨_, h⟩
    · cases h
    · exact Or.inr ⟨rfl, fun x hx => h x.1 (textAt_append.mp hx).1⟩
  | seq_fail2 h1 h2 =>
    rcases hra _ _ _ hp h1 with ⟨_, x, hx, rfl⟩ | ⟨h, _⟩
    · rcases hrb x p hp hx.1 _ _ _ (Nat.le_refl _) h2 with ⟨h, _⟩ | ⟨_, hno⟩
      · cases h
      · refine Or.inr ⟨rfl, ?_⟩
        rintro ⟨x', y'⟩ h
        obtain ⟨g1, g2⟩ := textAt_append.mp h
        have hle := hx.2 x' g1
        rcases ha p hp x x' hx.1 g1 with rfl | ⟨h, _⟩ | ⟨h, c, k1, k2⟩
        · exact hno y' g2
        · omega
        · by_cases hn : b y' = []
          · exact hno y' (by rw [hn]; trivial)
          · obtain ⟨d, k3, k4⟩ := hF.at g2 hn
            exact hd d k4 (by rwa [k3.unique k1])
    · cases h

theorem reads_seq (hra : Reads body src lo e a) (hrb : Reads body src lo e' b) (ha : CmpFrom src lo a S)
    (hF : Firsts b F) (hd : ∀ c, F c → ¬ S c) : Reads body src lo (.sequence e e') (pairTxt a b) :=
  reads_seq' hra (fun _ _ _ _ => hrb.mono (by omega)) ha hF hd

theorem reads_opt (h : Reads body src lo e a) : Reads body src lo (.optional e) (optTxt a) := by
  intro p o q hp hq
  cases hq with
  | opt_some hq =>
    rcases h p _ _ hp hq with ⟨_, x, hx, rfl⟩ | ⟨h, _⟩
    · refine Or.inl ⟨rfl, some x, ⟨hx.1, fun y hy => ?_⟩, rfl⟩
      cases y with
      | none => exact Nat.zero_le _
      | some y => exact hx.2 y hy
    · cases h
  | opt_none hq =>
    rcases h p _ _ hp hq with ⟨h, _⟩ | ⟨_, h⟩
    · cases h
    · refine Or.inl ⟨rfl, none, ⟨trivial, fun y hy => ?_⟩, rfl⟩
      cases y with
      | none => exact Nat.le_refl _
      | some y => exact (h y hy).elim

theorem reads_star (h : Reads body src lo e a) (ha : CmpFrom src lo a S) (hF : Firsts a F) (hd : ∀ c, F c → ¬ S c) :
    Reads body src lo (.zeroOrMore e) (listTxt a) := by
  intro p o q hp hq
  generalize he : Expr.zeroOrMore e = e0 at hq
  induction hq with
  | star_stop hq =>
    cases he
    rcases h _ _ _ hp hq with ⟨h, _⟩ | ⟨_, h⟩
    · cases h
    · refine Or.inl ⟨rfl, [], ⟨trivial, fun y hy => ?_⟩, rfl⟩
      cases y with
      | nil => exact Nat.le_refl _
      | cons y ys => exact (h y (textAt_append.mp hy).1).elim
  | star_step h1 _ _ ih =>
    cases he
    rcases h _ _ _ hp h1 with ⟨_, x, hx, rfl⟩ | ⟨h, _⟩
    · rcases ih (by omega) rfl with ⟨_, xs, hxs, rfl⟩ | ⟨h, _⟩
      · have := longest_pair ha (firsts_list hF) hd hp hx hxs
        refine Or.inl ⟨rfl, x :: xs, ⟨this.1, fun y hy => ?_⟩, by simp [listTxt]; omega⟩
        cases y with
        | nil => exact Nat.zero_le _
        | cons y ys => exact this.2 (y, ys) hy
      · cases h
    · cases h
  | _ => cases he

/-- `e+`: a first one, and a list. -/
theorem reads_plus (h : Reads body src lo e a) (ha : CmpFrom src lo a S) (hF : Firsts a F) (hd : ∀ c, F c → ¬ S c) :
    Reads body src lo (.oneOrMore e) (pairTxt a (listTxt a)) := by
  intro p o q hp hq
  have hs := reads_seq h (reads_star h ha hF hd) ha (firsts_list hF) hd
  cases hq with
  | plus_ok h1 h2 => exact hs _ _ _ hp (.seq_ok h1 h2)
  | plus_fail h1 => exact hs _ _ _ hp (.seq_fail1 h1)

theorem reads_choice (h : Reads body src lo e a) (h' : Reads body src lo e' b)
    (hle : ∀ p x y, lo ≤ p → TextAt src p (a x) → TextAt src p (b y) → (b y).length ≤ (a x).length) :
    Reads body src lo (.orderedChoice e e') (sumTxt a b) := by
  intro p o q hp hq
  cases hq with
  | choice_left h1 =>
    rcases h _ _ _ hp h1 with ⟨_, x, hx, rfl⟩ | ⟨h, _⟩
    · refine Or.inl ⟨rfl, .inl x, ⟨hx.1, fun y hy => ?_⟩, rfl⟩
      cases y with
      | inl y => exact hx.2 y hy
      | inr y => exact hle p x y hp hx.1 hy
    · cases h
  | choice_right h1 h2 =>
    rcases h _ _ _ hp h1 with ⟨h, _⟩ | ⟨_, hno⟩
    · cases h
    · rcases h' _ _ _ hp h2 with ⟨_, x, hx, rfl⟩ | ⟨h, _⟩
      · refine Or.inl ⟨rfl, .inr x, ⟨hx.1, fun y hy => ?_⟩, rfl⟩
        cases y with
        | inl y => exact (hno y hy).elim
        | inr y => exact hx.2 y hy
      · cases h
  | choice_fail h1 h2 =>
    rcases h _ _ _ hp h1 with ⟨h, _⟩ | ⟨_, hno⟩
    · cases h
    · rcases h' _ _ _ hp h2 with ⟨h, _⟩ | ⟨_, hno'⟩
      · cases h
      · refine Or.inr ⟨rfl, fun y hy => ?_⟩
        cases y with
        | inl y => exact hno y hy
        | inr y => exact hno' y hy

theorem le_of_disjoint (hd : ∀ p x y, lo ≤ p → TextAt src p (a x) → TextAt src p (b y) → False) :
    ∀ p x y, lo ≤ p → TextAt src p (a x) → TextAt src p (b y) → (b y).length ≤ (a x).length :=
  fun p x y hp hx hy => (hd p x y hp hx hy).elim

end
end PP
