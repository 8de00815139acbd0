import Verif.Lemmas.Read.Basic
import Verif.Props.Indirect

/-! # The trees of syntax

`Builds … e txt forest`: whenever `e` succeeds, it reads some `x : X` and leaves, once failed and empty nodes are removed,
the nodes `forest p x`. -/
namespace PP

section
variable {R X Y : Type} (body : R → Expr R) (role : R → Role R) (src : Source)

/-- A failing evaluation leaves nothing. -/
def Clean (e : Expr R) : Prop := ∀ pre p q ts, GT body role src pre e p false q ts → Tree.prune.pruneL ts = []

/-- No evaluation leaves anything. -/
def Bare (e : Expr R) : Prop := ∀ pre p b q ts, GT body role src pre e p b q ts → Tree.prune.pruneL ts = []

def Builds (lo : Nat) (e : Expr R) (txt : X → List UInt8) (forest : Nat → X → List (Tree R)) : Prop :=
  ∀ pre p q ts, lo ≤ p → GT body role src pre e p true q ts →
    ∃ x, TextAt src p (txt x) ∧ q = p + (txt x).length ∧ Tree.prune.pruneL ts = forest p x

end

section
variable {R X Y : Type} {body : R → Expr R} {role : R → Role R} {src : Source} {lo : Nat} {e e' : Expr R}
  {a : X → List UInt8} {b : Y → List UInt8} {f : Nat → X → List (Tree R)} {g : Nat → Y → List (Tree R)}

def pairForest (a : X → List UInt8) (f : Nat → X → List (Tree R)) (g : Nat → Y → List (Tree R)) : Nat → X × Y → List (Tree R) :=
  fun p x => f p x.1 ++ g (p + (a x.1).length) x.2
def optForest (f : Nat → X → List (Tree R)) : Nat → Option X → List (Tree R)
  | _, none => []
  | p, some x => f p x
def sumForest (f : Nat → X → List (Tree R)) (g : Nat → Y → List (Tree R)) : Nat → X ⊕ Y → List (Tree R)
  | p, .inl x => f p x
  | p, .inr y => g p y
/-- The node of a rule for text that is not empty. -/
def refForest (r : R) (a : X → List UInt8) (f : Nat → X → List (Tree R)) : Nat → X → List (Tree R) :=
  fun p x => if a x = [] then [] else [.node r (some (p, p + (a x).length)) (f p x)]

theorem Bare.clean (h : Bare body role src e) : Clean body role src e := fun pre p q ts => h pre p false q ts

theorem Builds.mono {lo' : Nat} (h : Builds body role src lo e a f) (hl : lo ≤ lo') : Builds body role src lo' e a f :=
  fun pre p q ts hp => h pre p q ts (by omega)

theorem bare_byte {c : UInt8} : Bare body role src (.terminal c) := by
  intro pre p b q ts h
  cases h with
  | terminal _ => rfl

theorem bare_range {l h : Nat} : Bare body role src (.matchRange l h) := by
  intro pre p b q ts h
  cases h with
  | range _ => rfl

theorem bare_inl {r : R} (h : Bare body role src (body r)) : Bare body role src (.inlined r) := by
  intro pre p b q ts hq
  cases hq with
  | inl hq => exact h _ _ _ _ _ hq

theorem bare_sub (h : Bare body role src e) : Bare body role src (.subexpression e) := by
  intro pre p b q ts hq
  cases hq with
  | sub_ok hq => exact h _ _ _ _ _ hq
  | sub_fail hq => exact h _ _ _ _ _ hq

theorem bare_opt (h : Bare body role src e) : Bare body role src (.optional e) := by
  intro pre p b q ts hq
  cases hq with
  | opt_some hq => exact h _ _ _ _ _ hq
  | opt_none hq => exact h _ _ _ _ _ hq

theorem bare_seq (h : Bare body role src e) (h' : Bare body role src e') : Bare body role src (.sequence e e') := by
  intro pre p b q ts hq
  cases hq with
  | seq_ok h1 h2 => rw [pruneL_append, h _ _ _ _ _ h1, h' _ _ _ _ _ h2]; rfl
  | seq_fail1 h1 => exact h _ _ _ _ _ h1
  | seq_fail2 h1 h2 => rw [pruneL_append, h _ _ _ _ _ h1, h' _ _ _ _ _ h2]; rfl

theorem bare_choice (h : Bare body role src e) (h' : Bare body role src e') : Bare body role src (.orderedChoice e e') := by
  intro pre p b q ts hq
  cases hq with
  | choice_left h1 => exact h _ _ _ _ _ h1
  | choice_right h1 h2 => rw [pruneL_append, h _ _ _ _ _ h1, h' _ _ _ _ _ h2]; rfl
  | choice_fail h1 h2 => rw [pruneL_append, h _ _ _ _ _ h1, h' _ _ _ _ _ h2]; rfl

theorem bare_star_aux (h : Bare body role src e) : ∀ {e0 pre p b q ts}, GT body role src pre e0 p b q ts → e0 = .zeroOrMore e →
    Tree.prune.pruneL ts = []
  | _, _, _, _, _, _, .star_stop h1, he => by
    cases he
    exact h _ _ _ _ _ h1
  | _, _, _, _, _, _, .star_step h1 h2, he => by
    have ih := bare_star_aux h h2 he
    cases he
    rw [pruneL_append, h _ _ _ _ _ h1, ih]; rfl

theorem bare_star (h : Bare body role src e) : Bare body role src (.zeroOrMore e) := fun _ _ _ _ _ hq => bare_star_aux h hq rfl

theorem bare_plus (h : Bare body role src e) : Bare body role src (.oneOrMore e) := by
  intro pre p b q ts hq
  cases hq with
  | plus_ok h1 h2 => rw [pruneL_append, h _ _ _ _ _ h1, bare_star h _ _ _ _ _ h2]; rfl
  | plus_fail h1 => exact h _ _ _ _ _ h1

theorem clean_ref {r : R} : Clean body role src (.varName r) := by
  intro pre p q ts h
  cases h with
  | ref h => simp [Tree.mk, Tree.prune.pruneL, Tree.prune]

theorem builds_byte {c : UInt8} : Builds body role src lo (.terminal c) (fun _ : Unit => [c]) (fun _ _ => []) := by
  intro pre p q ts _ h
  cases h with
  | terminal h0 =>
      cases h0 with
      | terminal_ok h1 h2 => exact ⟨(), ⟨⟨h1, h2⟩, trivial⟩, rfl, rfl⟩

theorem builds_range {lo' hi : Nat} {k : X → UInt8} (hf : ∀ c : UInt8, lo' ≤ c.toNat ∧ c.toNat ≤ hi ↔ ∃ x, k x = c) :
    Builds body role src lo (.matchRange lo' hi) (fun x => [k x]) (fun _ _ => []) := by
  intro pre p q ts _ h
  cases h with
  | range h0 =>
      cases h0 with
      | range_ok h1 h2 h3 h4 =>
        obtain ⟨x, rfl⟩ := (hf _).mp ⟨h3, h4⟩
        exact ⟨x, ⟨⟨h1, h2⟩, trivial⟩, rfl, rfl⟩

theorem builds_seq' (h : Builds body role src lo e a f)
    (h' : ∀ x p, lo ≤ p → TextAt src p (a x) → Builds body role src (p + (a x).length) e' b g) :
    Builds body role src lo (.sequence e e') (pairTxt a b) (pairForest a f g) := by
  intro pre p q ts hp hq
  cases hq with
  | seq_ok h1 h2 =>
    obtain ⟨x, hx, rfl, hx'⟩ := h _ _ _ _ hp h1
    obtain ⟨y, hy, rfl, hy'⟩ := h' x p hp hx _ _ _ _ (Nat.le_refl _) h2
    exact ⟨(x, y), textAt_append.mpr ⟨hx, hy⟩, by simp [pairTxt]; omega, by rw [pruneL_append, hx', hy']; rfl⟩

theorem builds_seq (h : Builds body role src lo e a f) (h' : Builds body role src lo e' b g) :
    Builds body role src lo (.sequence e e') (pairTxt a b) (pairForest a f g) :=
  builds_seq' h fun _ _ _ _ => h'.mono (by omega)

theorem builds_opt (h : Builds body role src lo e a f) (hc : Clean body role src e) :
    Builds body role src lo (.optional e) (optTxt a) (optForest f) := by
  intro pre p q ts hp hq
  cases hq with
  | opt_some h1 =>
    obtain ⟨x, hx, rfl, hx'⟩ := h _ _ _ _ hp h1
    exact ⟨some x, hx, rfl, hx'⟩
  | opt_none h1 => exact ⟨none, trivial, rfl, hc _ _ _ _ h1⟩

theorem builds_choice (h : Builds body role src lo e a f) (hc : Clean body role src e) (h' : Builds body role src lo e' b g) :
    Builds body role src lo (.orderedChoice e e') (sumTxt a b) (sumForest f g) := by
  intro pre p q ts hp hq
  cases hq with
  | choice_left h1 =>
    obtain ⟨x, hx, rfl, hx'⟩ := h _ _ _ _ hp h1
    exact ⟨.inl x, hx, rfl, hx'⟩
  | choice_right h1 h2 =>
    obtain ⟨y, hy, rfl, hy'⟩ := h' _ _ _ _ hp h2
    exact ⟨.inr y, hy, rfl, by rw [pruneL_append, hc _ _ _ _ h1, hy']; rfl⟩

theorem builds_sub (h : Builds body role src lo e a f) : Builds body role src lo (.subexpression e) a f := by
  intro pre p q ts hp hq
  cases hq with
  | sub_ok h1 => exact h _ _ _ _ hp h1

theorem builds_inl {r : R} (h : Builds body role src lo (body r) a f) : Builds body role src lo (.inlined r) a f := by
  intro pre p q ts hp hq
  cases hq with
  | inl h1 => exact h _ _ _ _ hp h1

theorem builds_ref {r : R} (h : Builds body role src lo (body r) a f) :
    Builds body role src lo (.varName r) a (refForest r a f) := by
  intro pre p q ts hp hq
  cases hq with
  | ref h1 =>
    obtain ⟨x, hx, rfl, hx'⟩ := h _ _ _ _ hp h1
    refine ⟨x, hx, rfl, ?_⟩
    simp only [Tree.mk, Tree.prune.pruneL, Tree.prune, ite_true, hx', List.append_nil, refForest]
    by_cases hn : a x = []
    · simp [hn]
    · have : p ≠ p + (a x).length := by
        have := List.length_pos_iff.mpr hn
        omega
      simp [hn]

/-- A rule's body is evaluated with no nodes before it. -/
theorem builds_ref0 {r : R} (h : ∀ p q ts, lo ≤ p → GT body role src [] (body r) p true q ts →
    ∃ x, TextAt src p (a x) ∧ q = p + (a x).length ∧ Tree.prune.pruneL ts = f p x) :
    Builds body role src lo (.varName r) a (refForest r a f) := by
  intro pre p q ts hp hq
  cases hq with
  | ref h1 =>
    obtain ⟨x, hx, rfl, hx'⟩ := h _ _ _ hp h1
    refine ⟨x, hx, rfl, ?_⟩
    simp only [Tree.mk, Tree.prune.pruneL, Tree.prune, ite_true, hx', List.append_nil, refForest]
    by_cases hn : a x = []
    · simp [hn]
    · have : p ≠ p + (a x).length := by
        have := List.length_pos_iff.mpr hn
        omega
      simp [hn]

theorem builds_star_aux (h : Builds body role src lo e a (fun _ _ => [])) (hc : Clean body role src e) :
    ∀ {e0 pre p b q ts}, GT body role src pre e0 p b q ts → e0 = .zeroOrMore e → lo ≤ p →
      ∃ x, TextAt src p (listTxt a x) ∧ q = p + (listTxt a x).length ∧ Tree.prune.pruneL ts = []
  | _, _, _, _, _, _, .star_stop h1, he, _ => by
    cases he
    exact ⟨[], trivial, rfl, hc _ _ _ _ h1⟩
  | _, _, p, _, _, _, .star_step h1 h2, he, hp => by
    have ih := builds_star_aux h hc h2 he
    cases he
    obtain ⟨x, hx, rfl, hx'⟩ := h _ _ _ _ hp h1
    obtain ⟨xs, hxs, rfl, hxs'⟩ := ih (by omega)
    exact ⟨x :: xs, textAt_append.mpr ⟨hx, hxs⟩, by simp [listTxt]; omega, by rw [pruneL_append, hx', hxs']; rfl⟩

/-- Repetitions of expressions without nodes. -/
theorem builds_star (h : Builds body role src lo e a (fun _ _ => [])) (hc : Clean body role src e) :
    Builds body role src lo (.zeroOrMore e) (listTxt a) (fun _ _ => []) := fun _ _ _ _ hp hq => builds_star_aux h hc hq rfl hp

theorem builds_plus (h : Builds body role src lo e a (fun _ _ => [])) (hc : Clean body role src e) :
    Builds body role src lo (.oneOrMore e) (pairTxt a (listTxt a)) (fun _ _ => []) := by
  intro pre p q ts hp hq
  cases hq with
  | plus_ok h1 h2 =>
    obtain ⟨x, hx, hq, hx'⟩ := builds_seq h (builds_star h hc) _ _ _ _ hp (.seq_ok h1 h2)
    exact ⟨x, hx, hq, by rw [hx']; rfl⟩

theorem builds_map {f' : Nat → Y → List (Tree R)} (h : Builds body role src lo e a f) (k : X → Y) (ht : ∀ x, b (k x) = a x)
    (hf : ∀ p x, f' p (k x) = f p x) : Builds body role src lo e b f' := by
  intro pre p q ts hp hq
  obtain ⟨x, hx, rfl, hx'⟩ := h _ _ _ _ hp hq
  exact ⟨k x, by rwa [ht], by rw [ht], by rw [hf, hx']⟩

end
end PP
