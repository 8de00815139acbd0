import Verif.Lemmas.Calc.MathsBuilds
import Verif.Lemmas.Calc.MathsEval

/-! # Examples 3 and 4: parsing and evaluating a whole text -/
namespace PP
open Calc

section
variable {R : Type} {body : R → Expr R} {role : R → Role R} {C : MathRules R} {w : Bool} {dig nz opnd : R} {E T : List R}

/-- What the start rule reads and builds. -/
theorem maths_start (G : MathsG body role C w dig nz opnd E T) {gr : R} (hb : body gr = .varNameLR E C.expr) (hr : role gr = .plain)
    {src : Source} {b : Bool} {q : Nat} {ts : List (Tree R)} (h1 : Peg (groupBody body role) src (.varName gr) 0 b q)
    (h2 : GT body role src [] (.varName gr) 0 b q ts) :
    (b = true ∧ ∃ e : MExpr w, TextAt src 0 e.text ∧ q = e.text.length ∧ (∀ u : MExpr w, TextAt src 0 u.text → u.text.length ≤ q) ∧
      Tree.prune.pruneL ts = [.node gr (some (0, q)) [e.tree C 0]]) ∨
    (b = false ∧ q = 0 ∧ (∀ u : MExpr w, ¬ TextAt src 0 u.text) ∧ Tree.prune.pruneL ts = []) := by
  cases h1 with
  | ref h1 =>
    have hg : groupBody body role gr = .varName C.expr := by rw [gBody_plain hr, hb]; rfl
    rw [hg] at h1
    cases h2 with
    | ref h2 =>
      rw [hb] at h2
      rcases reads_expr G (lo := 0) 0 b q (Nat.le_refl _) h1 with ⟨rfl, x, ⟨hx, hmax⟩, hq⟩ | ⟨rfl, hno⟩
      · obtain ⟨e, g1, g2, g3⟩ := builds_expr G (lo := 0) 0 q _ (Nat.le_refl _) h2
        have hne := List.length_pos_iff.mpr (nonNil_expr e)
        refine Or.inl ⟨rfl, e, g1, by omega, fun u hu => ?_, ?_⟩
        · have := hmax u hu
          omega
        · have h0 : 0 ≠ q := by omega
          simp [Tree.mk, Tree.prune, Tree.prune.pruneL, g3, h0]
      · refine Or.inr ⟨rfl, ?_, hno, ?_⟩
        · cases h1 with
          | ref h1 =>
            rw [gBody_head G.rExpr] at h1
            cases h1 with
            | seq_fail1 _ => rfl
            | seq_fail2 _ _ => rfl
        · simp [Tree.mk, Tree.prune, Tree.prune.pruneL]

variable [DecidableEq R] {M : Maths R} {checked : Bool} {t : Publisher R} {src : Source}

/-- Evaluating the tree of a whole text. -/
theorem maths_eval (hM : ArmsOK M C w) (ht : src.IsText) {r gr : R} (hg : M.arm gr = .recurse) {e : MExpr w} {q : Nat}
    (h : t.Unfolds 0 (.node r (some (0, 0)) [.node gr (some (0, q)) [e.tree C 0]])) (htxt : TextAt src 0 e.text) {m : Nat}
    (hm : 6 * e.text.length + 5 ≤ m) : Runs (mathsTree M checked t src.bytes m) (e.eval checked) := by
  obtain ⟨nd, c, g1, g2, g3, g4, g5, g6⟩ := h.one
  obtain ⟨m, rfl⟩ : ∃ m', m = m' + 2 := ⟨m - 2, by omega⟩
  unfold mathsTree
  rw [g1, Out.bind_ok]
  refine maths_pass g5 ?_
  obtain ⟨nd', k1, k2, k3⟩ := node_one (M := M) (checked := checked) (src := src) (m := m) hg (by simp) g6
    fun k hk => ev_expr hM ht e hk htxt (by omega)
  rw [maths_recurse k1 k2]
  exact k3

/-- Without a tree there is nothing to evaluate. -/
theorem maths_eval_none {r : R} (h : t.Unfolds 0 (.node r (some (0, 0)) [])) {m : Nat} (hm : 1 ≤ m) :
    mathsTree M checked t src.bytes m = .panic .explicit := by
  obtain ⟨nd, g1, g2, g3, g4, g5⟩ := h.none
  obtain ⟨m, rfl⟩ : ∃ m', m = m' + 1 := ⟨m - 1, by omega⟩
  unfold mathsTree
  rw [g1, Out.bind_ok, mathsKernel, g5]
  rfl

end

/-! ## Texts -/

section
variable {w : Bool}

theorem Sign.ascii (s : Sign) : ∀ c ∈ s.text, c.toNat < 128 := by
  intro c hc
  cases s <;> simp [Sign.text] at hc <;> subst hc <;> decide

theorem Number.ascii (n : Number) : ∀ c ∈ n.text, c.toNat < 128 := by
  intro c hc
  simp only [Number.text, List.mem_append] at hc
  rcases hc with (hc | hc) | hc
  · exact Number.intText_ascii n c hc
  · unfold Number.fracText at hc
    cases hf : n.frac with
    | none => simp [hf] at hc
    | some x =>
      simp only [hf, Fraction.text, List.mem_cons] at hc
      rcases hc with rfl | hc
      · decide
      · exact digits_ascii _ c hc
  · unfold Number.expText at hc
    cases hf : n.exp with
    | none => simp [hf] at hc
    | some x =>
      simp only [hf, Exponent.text, List.mem_cons, List.mem_append] at hc
      rcases hc with rfl | hc | hc
      · split <;> decide
      · exact Sign.ascii _ c hc
      · exact digits_ascii _ c hc

theorem ascii_op {a b : List UInt8} {x : UInt8} (ha : ∀ c ∈ a, c.toNat < 128) (hb : ∀ c ∈ b, c.toNat < 128) (hx : x.toNat < 128) :
    ∀ c ∈ a ++ x :: b, c.toNat < 128 := by
  intro c hc
  simp only [List.mem_append, List.mem_cons] at hc
  rcases hc with hc | rfl | hc
  · exact ha c hc
  · exact hx
  · exact hb c hc

mutual
theorem MExpr.ascii : ∀ e : MExpr w, ∀ c ∈ e.text, c.toNat < 128
  | .term t => by rw [MExpr.text]; exact MTerm.ascii t
  | .add e t => by rw [MExpr.text]; exact ascii_op (MExpr.ascii e) (MTerm.ascii t) (by decide)
  | .sub e t => by rw [MExpr.text]; exact ascii_op (MExpr.ascii e) (MTerm.ascii t) (by decide)
theorem MTerm.ascii : ∀ e : MTerm w, ∀ c ∈ e.text, c.toNat < 128
  | .one o => by rw [MTerm.text]; exact MPower.ascii o
  | .mul e t => by rw [MTerm.text]; exact ascii_op (MTerm.ascii e) (MPower.ascii t) (by decide)
  | .div e t => by rw [MTerm.text]; exact ascii_op (MTerm.ascii e) (MPower.ascii t) (by decide)
theorem MPower.ascii : ∀ e : MPower w, ∀ c ∈ e.text, c.toNat < 128
  | .fac f => by rw [MPower.text]; exact MFactor.ascii f
  | .pow _ e t => by rw [MPower.text]; exact ascii_op (MFactor.ascii e) (MPower.ascii t) (by decide)
theorem MFactor.ascii : ∀ e : MFactor w, ∀ c ∈ e.text, c.toNat < 128
  | .num n => by rw [MFactor.text]; exact Number.ascii n
  | .paren e => by
    rw [MFactor.text]
    exact ascii_op (a := []) (by simp) (ascii_op (x := 41) (b := []) (MExpr.ascii e) (by simp) (by decide)) (by decide)
end

end
end PP
