import Verif.Model.Calc.Maths
import Verif.Lemmas.Calc.MathsText
import Verif.Lemmas.Calc.Eval1
import Verif.Spec.CalcTree

/-! # Examples 3 and 4: evaluating the tree of an expression -/
namespace PP
open Calc

/-- The arms fit the grammar. -/
structure ArmsOK {R : Type} (M : Maths R) (C : MathRules R) (w : Bool) : Prop where
  expr : M.arm C.expr = .recurse
  term : M.arm C.term = .recurse
  factor : M.arm C.factor = .recurse
  parentheses : M.arm C.parentheses = .recurse
  powerExpr : M.arm C.powerExpr = .recurse
  power : w = true → M.arm C.power = .power
  addition : M.arm C.addition = .addition
  subtraction : M.arm C.subtraction = .subtraction
  multiplication : M.arm C.multiplication = .multiplication
  division : M.arm C.division = .division
  numberArm : M.arm C.number = .number
  number : M.number = C.number
  integer : M.integer = C.integer

section
variable {R : Type} [DecidableEq R] {M : Maths R} {C : MathRules R} {w : Bool} {checked : Bool} {t : Publisher R} {src : Source}

theorem maths_pass {c m : Nat} {nd : Node R} {v : Option Int} (hc : nd.children = [c])
    (h : Runs (mathsChild M checked t src.bytes (mathsKernel M checked t src.bytes m) c) v) :
    Runs (mathsKernel M checked t src.bytes (m + 1) nd) v := by
  rw [mathsKernel, hc]
  simp only [List.foldlM]
  cases h with
  | value h => rw [h]; exact .value rfl
  | panics h => rw [h]; exact .panics rfl

theorem maths_recurse {k : Nat} {nd : Node R} {rec : Node R → Out Int} (h : t.getNode k = .ok nd) (hr : M.arm nd.rule = .recurse) :
    mathsChild M checked t src.bytes rec k = rec nd := by
  unfold mathsChild
  rw [h]
  simp only [Out.bind_ok, hr]

omit [DecidableEq R] in
/-- Two operands, then an operation. -/
theorem maths_binary {c d : Nat} {nd n1 n2 : Node R} {rec : Node R → Out Int} {v1 v2 : Option Int} {g : Int → Int → Out Int}
    {f : Int → Int → Option Int} (hc : nd.children = [c, d]) (h1 : t.getNode c = .ok n1) (h2 : t.getNode d = .ok n2)
    (r1 : Runs (rec n1) v1) (r2 : Runs (rec n2) v2) (hgf : ∀ a b, Runs (g a b) (f a b)) :
    Runs (mathsBinary checked t rec nd >>= fun x => g x.1 x.2) (do let a ← v1; let b ← v2; f a b) := by
  unfold mathsBinary
  have hd : debugAssert checked (decide (nd.children.length = 2)) = .ok () := by simp [debugAssert, hc]
  rw [hd, hc]
  simp only [Out.bind_ok, List.getElem?_cons_zero, List.getElem?_cons_succ, Out.ofOption, h1, h2]
  cases r1 with
  | panics r1 => rw [r1]; exact .panics rfl
  | value r1 =>
    rw [r1]
    cases r2 with
    | panics r2 => rw [Out.bind_ok, r2]; exact .panics rfl
    | value r2 => rw [Out.bind_ok, r2]; exact hgf _ _

theorem runs_div (a b : Int) : Runs (i64Div a b) (quotient a b) := by
  unfold i64Div quotient
  by_cases h : b = 0
  · simp only [h, ite_true, true_or]; exact .panics rfl
  · by_cases h' : a = -9223372036854775808 ∧ b = -1
    · have : a = -2 ^ 63 ∧ b = -1 := ⟨by rw [h'.1]; decide, h'.2⟩
      rw [if_neg h, if_pos h', if_pos (Or.inr this)]
      exact .panics rfl
    · have : ¬ (b = 0 ∨ (a = -2 ^ 63 ∧ b = -1)) := by
        rintro (h'' | ⟨h1, h2⟩)
        · exact h h''
        · exact h' ⟨by rw [h1]; decide, h2⟩
      rw [if_neg h, if_neg h', if_neg this]
      exact .value rfl

theorem runs_pow (a b : Int) : Runs (i64Pow checked a b) (power checked a b) := by
  unfold i64Pow power
  exact i64Result_runs checked _

/-! ## Numbers -/

theorem Number.intText_ne (n : Number) : n.intText ≠ [] := by
  have := nonNil_int n.int
  simp only [Number.intText]
  intro h
  exact this (List.append_eq_nil_iff.mp h).2

theorem Number.intText_ascii (n : Number) : ∀ c ∈ n.intText, c.toNat < 128 := by
  intro c hc
  rcases List.mem_append.mp hc with hc | hc
  · cases hs : n.sign <;> rw [hs] at hc <;> simp [Sign.text] at hc <;> subst hc <;> decide
  · exact digits_ascii _ c hc

theorem parse_intText (n : Number) : parseI64 n.intText = if Fits n.intVal then some n.intVal else none := by
  have hne : n.int.digits ≠ [] := by cases n.int <;> simp [IntPart.digits]
  unfold Number.intText Number.intVal
  cases n.sign with
  | absent => exact parseI64_digits hne
  | plus => exact parseI64_sign (Or.inl rfl) hne
  | minus => exact parseI64_sign (Or.inr rfl) hne

theorem maths_number (hM : ArmsOK M C w) (ht : src.IsText) {p k : Nat} {n : Number} (h : TextAt src p n.text)
    (hu : t.Unfolds k (n.tree C p)) (rec : Node R → Out Int) : Runs (mathsChild M checked t src.bytes rec k) n.eval := by
  unfold Number.tree spanOf at hu
  obtain ⟨nd, h1, h2, h3, h4, h5, h6⟩ := hu.node
  unfold mathsChild
  rw [h1]
  simp only [Out.bind_ok, h2, hM.numberArm]
  unfold mathsNumber
  have hd1 : debugAssert checked (decide (nd.rule = M.number)) = .ok () := by simp [debugAssert, h2, hM.number]
  have hd2 : debugAssert checked (!nd.children.isEmpty) = .ok () := by
    have : nd.children.isEmpty = false := by
      cases hc : nd.children with
      | nil => rw [hc] at h5; simp at h5
      | cons a l => rfl
    simp [debugAssert, this]
  rw [hd1, hd2]
  simp only [Out.bind_ok]
  by_cases hw : n.Whole
  · obtain ⟨hf, he⟩ := hw
    rw [hf, he] at h5 h6
    simp only [List.append_nil, List.length_cons, List.length_nil] at h5 h6
    obtain ⟨c, hc⟩ := List.length_eq_one_iff.mp h5.symm
    have hc' := h6 0 c _ (by rw [hc]; rfl) rfl
    obtain ⟨nd', g1, g2, g3, g4, _, _⟩ := hc'.node
    have hd3 : debugAssert checked (decide (nd'.rule = M.integer)) = .ok () := by simp [debugAssert, g2, hM.integer]
    rw [hc]
    simp only [List.length_cons, List.length_nil, List.getElem?_cons_zero, Out.ofOption, Out.bind_ok, g1, hd3]
    rw [if_neg (by omega), g3, g4]
    have htxt : TextAt src p n.intText := by
      have := h
      simp only [Number.text, List.append_assoc] at this
      exact (textAt_append.mp this).1
    rw [strSlice_ascii ht htxt (Number.intText_ne n) (Number.intText_ascii n)]
    simp only [Out.bind_ok, parse_intText, Number.eval]
    by_cases hfit : Fits n.intVal
    · rw [if_pos hfit, if_pos ⟨⟨hf, he⟩, hfit⟩]; exact .value rfl
    · rw [if_neg hfit, if_neg fun h => hfit h.2]; exact .panics rfl
  · have hlen : 1 < nd.children.length := by
      rw [← h5]
      unfold Number.Whole at hw
      cases hf : n.frac <;> cases he : n.exp <;> simp [hf, he] at hw ⊢
    rw [if_pos hlen]
    simp only [Number.eval]
    rw [if_neg fun h => hw h.1]
    exact .panics rfl

/-! ## Expressions -/

/-- The node of something with value `v`. -/
def NodeRuns (M : Maths R) (checked : Bool) (t : Publisher R) (src : Source) (k m : Nat) (v : Option Int) : Prop :=
  ∃ nd, t.getNode k = .ok nd ∧ M.arm nd.rule = .recurse ∧ Runs (mathsKernel M checked t src.bytes m nd) v

/-- A node with an operation on two operands below it. -/
theorem node_op {r o : R} {a b : Option (Nat × Nat)} {u v : Tree R} {k m : Nat} {v1 v2 : Option Int} {g : Int → Int → Out Int} {f : Int → Int → Option Int}
    (hr : M.arm r = .recurse)
    (ho : ∀ (rec : Node R → Out Int) k nd, t.getNode k = .ok nd → nd.rule = o →
      mathsChild M checked t src.bytes rec k = (mathsBinary checked t rec nd >>= fun x => g x.1 x.2))
    (hgf : ∀ a b, Runs (g a b) (f a b)) (ha : a ≠ none) (hb : b ≠ none) (hu : t.Unfolds k (.node r a [.node o b [u, v]]))
    (r1 : ∀ k, t.Unfolds k u → NodeRuns M checked t src k m v1) (r2 : ∀ k, t.Unfolds k v → NodeRuns M checked t src k m v2) :
    NodeRuns M checked t src k (m + 1) (do let a ← v1; let b ← v2; f a b) := by
  obtain ⟨⟨a1, a2⟩, rfl⟩ := Option.ne_none_iff_exists'.mp ha
  obtain ⟨⟨b1, b2⟩, rfl⟩ := Option.ne_none_iff_exists'.mp hb
  obtain ⟨nd, c, h1, h2, h3, h4, h5, h6⟩ := hu.one
  obtain ⟨nd', c', d', g1, g2, g3, g4, g5, g6, g7⟩ := h6.two
  obtain ⟨n1, k1, k2, k3⟩ := r1 _ g6
  obtain ⟨n2, j1, j2, j3⟩ := r2 _ g7
  refine ⟨nd, h1, by rw [h2]; exact hr, maths_pass h5 ?_⟩
  rw [ho _ _ _ g1 g2]
  exact maths_binary g5 k1 j1 k3 j3 hgf

/-- A node with one child that has a value. -/
theorem node_one {r : R} {a : Option (Nat × Nat)} {u : Tree R} {k m : Nat} {v : Option Int} (hr : M.arm r = .recurse) (ha : a ≠ none)
    (hu : t.Unfolds k (.node r a [u])) (r1 : ∀ k, t.Unfolds k u → NodeRuns M checked t src k m v) :
    NodeRuns M checked t src k (m + 1) v := by
  obtain ⟨⟨a1, a2⟩, rfl⟩ := Option.ne_none_iff_exists'.mp ha
  obtain ⟨nd, c, h1, h2, h3, h4, h5, h6⟩ := hu.one
  obtain ⟨n1, k1, k2, k3⟩ := r1 _ h6
  refine ⟨nd, h1, by rw [h2]; exact hr, maths_pass h5 ?_⟩
  rw [maths_recurse k1 k2]
  exact k3

/-- What the loop does with a child, by its arm. -/
def armOp (M : Maths R) (checked : Bool) (t : Publisher R) (src : List UInt8) (rec : Node R → Out Int) (nd : Node R) : Arm → Out Int
  | .recurse => rec nd
  | .power => mathsBinary checked t rec nd >>= fun x => i64Pow checked x.1 x.2
  | .addition => mathsBinary checked t rec nd >>= fun x => i64Result checked (x.1 + x.2)
  | .subtraction => mathsBinary checked t rec nd >>= fun x => i64Result checked (x.1 - x.2)
  | .multiplication => mathsBinary checked t rec nd >>= fun x => i64Result checked (x.1 * x.2)
  | .division => mathsBinary checked t rec nd >>= fun x => i64Div x.1 x.2
  | .number => mathsNumber M.number M.integer checked t src nd
  | .unreachable => .panic .explicit

theorem child_op {o : R} {A : Arm} (hA : M.arm o = A) {rec : Node R → Out Int} {k : Nat} {nd : Node R} (h : t.getNode k = .ok nd)
    (hr : nd.rule = o) : mathsChild M checked t src.bytes rec k = armOp M checked t src.bytes rec nd A := by
  unfold mathsChild
  rw [h, Out.bind_ok, hr, hA]
  cases A <;> rfl

omit [DecidableEq R] in
theorem spanOf_ne {p : Nat} {l : List UInt8} : spanOf p l ≠ none := by simp [spanOf]

mutual
theorem ev_expr (hM : ArmsOK M C w) (ht : src.IsText) : ∀ (e : MExpr w) {p k m : Nat}, t.Unfolds k (e.tree C p) →
    TextAt src p e.text → 6 * e.text.length + 3 ≤ m → NodeRuns M checked t src k m (e.eval checked)
  | .term u, p, k, m, hu, h, hm => by
    rw [MExpr.text] at h hm
    rw [MExpr.tree] at hu
    rw [MExpr.eval]
    obtain ⟨m, rfl⟩ : ∃ m', m = m' + 1 := ⟨m - 1, by omega⟩
    exact node_one hM.expr spanOf_ne hu fun k hk => ev_term hM ht u hk h (by omega)
  | .add e u, p, k, m, hu, h, hm => by
    rw [MExpr.text] at h hm
    rw [MExpr.tree] at hu
    rw [MExpr.eval]
    obtain ⟨h1, _, h2⟩ := textAt_append.mp h
    simp only [List.length_append, List.length_cons] at hm
    obtain ⟨m, rfl⟩ : ∃ m', m = m' + 1 := ⟨m - 1, by omega⟩
    exact node_op hM.expr (fun _ _ _ g1 g2 => child_op hM.addition g1 g2) (fun a b => i64Result_runs checked (a + b)) spanOf_ne spanOf_ne hu
      (fun k hk => ev_expr hM ht e hk h1 (by omega)) (fun k hk => ev_term hM ht u hk h2 (by omega))
  | .sub e u, p, k, m, hu, h, hm => by
    rw [MExpr.text] at h hm
    rw [MExpr.tree] at hu
    rw [MExpr.eval]
    obtain ⟨h1, _, h2⟩ := textAt_append.mp h
    simp only [List.length_append, List.length_cons] at hm
    obtain ⟨m, rfl⟩ : ∃ m', m = m' + 1 := ⟨m - 1, by omega⟩
    exact node_op hM.expr (fun _ _ _ g1 g2 => child_op hM.subtraction g1 g2) (fun a b => i64Result_runs checked (a - b)) spanOf_ne spanOf_ne hu
      (fun k hk => ev_expr hM ht e hk h1 (by omega)) (fun k hk => ev_term hM ht u hk h2 (by omega))
theorem ev_term (hM : ArmsOK M C w) (ht : src.IsText) : ∀ (e : MTerm w) {p k m : Nat}, t.Unfolds k (e.tree C p) →
    TextAt src p e.text → 6 * e.text.length + 2 ≤ m → NodeRuns M checked t src k m (e.eval checked)
  | .one o, p, k, m, hu, h, hm => by
    rw [MTerm.text] at h hm
    rw [MTerm.tree] at hu
    rw [MTerm.eval]
    obtain ⟨m, rfl⟩ : ∃ m', m = m' + 1 := ⟨m - 1, by omega⟩
    exact node_one hM.term spanOf_ne hu fun k hk => ev_pow hM ht o hk h (by omega)
  | .mul e u, p, k, m, hu, h, hm => by
    rw [MTerm.text] at h hm
    rw [MTerm.tree] at hu
    rw [MTerm.eval]
    obtain ⟨h1, _, h2⟩ := textAt_append.mp h
    simp only [List.length_append, List.length_cons] at hm
    obtain ⟨m, rfl⟩ : ∃ m', m = m' + 1 := ⟨m - 1, by omega⟩
    exact node_op hM.term (fun _ _ _ g1 g2 => child_op hM.multiplication g1 g2) (fun a b => i64Result_runs checked (a * b)) spanOf_ne spanOf_ne hu
      (fun k hk => ev_term hM ht e hk h1 (by omega)) (fun k hk => ev_pow hM ht u hk h2 (by omega))
  | .div e u, p, k, m, hu, h, hm => by
    rw [MTerm.text] at h hm
    rw [MTerm.tree] at hu
    rw [MTerm.eval]
    obtain ⟨h1, _, h2⟩ := textAt_append.mp h
    simp only [List.length_append, List.length_cons] at hm
    obtain ⟨m, rfl⟩ : ∃ m', m = m' + 1 := ⟨m - 1, by omega⟩
    exact node_op hM.term (fun _ _ _ g1 g2 => child_op hM.division g1 g2) runs_div spanOf_ne spanOf_ne hu
      (fun k hk => ev_term hM ht e hk h1 (by omega)) (fun k hk => ev_pow hM ht u hk h2 (by omega))
theorem ev_pow (hM : ArmsOK M C w) (ht : src.IsText) : ∀ (e : MPower w) {p k m : Nat}, t.Unfolds k (e.tree C p) →
    TextAt src p e.text → 6 * e.text.length + 1 ≤ m → NodeRuns M checked t src k m (e.eval checked)
  | .fac f, p, k, m, hu, h, hm => by
    rw [MPower.text] at h hm
    rw [MPower.tree] at hu
    rw [MPower.eval]
    split at hu
    · obtain ⟨m, rfl⟩ : ∃ m', m = m' + 1 := ⟨m - 1, by omega⟩
      exact node_one hM.powerExpr spanOf_ne hu fun k hk => ev_fac hM ht f hk h (by omega)
    · exact ev_fac hM ht f hu h (by omega)
  | .pow hw f o, p, k, m, hu, h, hm => by
    rw [MPower.text] at h hm
    rw [MPower.tree] at hu
    rw [MPower.eval]
    obtain ⟨h1, _, h2⟩ := textAt_append.mp h
    simp only [List.length_append, List.length_cons] at hm
    obtain ⟨m, rfl⟩ : ∃ m', m = m' + 1 := ⟨m - 1, by omega⟩
    exact node_op hM.powerExpr (fun _ _ _ g1 g2 => child_op (hM.power hw) g1 g2) (fun a b => runs_pow a b) spanOf_ne spanOf_ne hu
      (fun k hk => ev_fac hM ht f hk h1 (by omega)) (fun k hk => ev_pow hM ht o hk h2 (by omega))
theorem ev_fac (hM : ArmsOK M C w) (ht : src.IsText) : ∀ (e : MFactor w) {p k m : Nat}, t.Unfolds k (e.tree C p) →
    TextAt src p e.text → 6 * e.text.length ≤ m → NodeRuns M checked t src k m (e.eval checked)
  | .num n, p, k, m, hu, h, hm => by
    rw [MFactor.text] at h hm
    rw [MFactor.tree] at hu
    rw [MFactor.eval]
    have := List.length_pos_iff.mpr (nonNil_num n)
    obtain ⟨m, rfl⟩ : ∃ m', m = m' + 1 := ⟨m - 1, by omega⟩
    unfold spanOf at hu
    obtain ⟨nd, c, h1, h2, h3, h4, h5, h6⟩ := hu.one
    exact ⟨nd, h1, by rw [h2]; exact hM.factor, maths_pass h5 (maths_number hM ht h h6 _)⟩
  | .paren e, p, k, m, hu, h, hm => by
    rw [MFactor.text] at h hm
    rw [MFactor.tree] at hu
    rw [MFactor.eval]
    simp only [List.length_append, List.length_cons, List.length_nil] at hm
    obtain ⟨m, rfl⟩ : ∃ m', m = m' + 2 := ⟨m - 2, by omega⟩
    exact node_one hM.factor spanOf_ne hu fun k hk => node_one hM.parentheses spanOf_ne hk fun k hk =>
      ev_expr hM ht e hk (textAt_append.mp h.2).1 (by omega)
end

end
end PP
