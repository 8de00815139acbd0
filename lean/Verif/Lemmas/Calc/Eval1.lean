import Verif.Lemmas.Calc.Calc1

/-! # Example 1: evaluating the tree of a sum -/
namespace PP
open Calc

theorem result_fits {checked : Bool} {x v : Int} (h : Calc.result checked x = some v) : Fits v := by
  unfold Calc.result at h
  split at h
  · next hf => injection h with h; subst h; exact hf
  · split at h
    · cases h
    · injection h with h
      subst h
      have h1 := Int.le_bmod (x := x) (m := 2 ^ 64) (by decide)
      have h2 := Int.bmod_lt (x := x) (m := 2 ^ 64) (by decide)
      simp only [Fits]
      omega

theorem i64Result_ok {checked : Bool} {x : Int} (h : Fits x) : i64Result checked x = .ok x := by
  simp [i64Result, (fits_iff x).mp h]

theorem i64Result_runs (checked : Bool) (x : Int) : Runs (i64Result checked x) (Calc.result checked x) := by
  rw [i64Result_eq]
  cases Calc.result checked x with
  | some v => exact .value rfl
  | none => exact .panics rfl

theorem Sum1.eval_fits {checked : Bool} {s : Sum1} {v : Int} (h : s.eval checked = some v) : Fits v := by
  cases s with
  | num n =>
    simp only [Sum1.eval, Num1.eval] at h
    split at h
    · next hf => injection h with h; subst h; exact hf
    · cases h
  | add s n =>
    simp only [Sum1.eval, Option.bind_eq_bind, Option.bind_eq_some_iff] at h
    obtain ⟨a, ha, b, hb, h⟩ := h
    exact result_fits h
  | sub s n =>
    simp only [Sum1.eval, Option.bind_eq_bind, Option.bind_eq_some_iff] at h
    obtain ⟨a, ha, b, hb, h⟩ := h
    exact result_fits h

theorem Num1.ascii (n : Num1) : ∀ c ∈ n.text, c.toNat < 128 := digits_ascii _

theorem num1_slice {src : Source} (ht : src.IsText) {p : Nat} {n : Num1} (h : TextAt src p n.text) :
    (Source.strSlice src.bytes p (p + n.text.length)).bind (fun s => Out.ofOption .expectFailed (parseI64 s)) =
      Out.ofOption .expectFailed n.eval := by
  rw [strSlice_ascii ht h (Num1.text_ne n) (Num1.ascii n)]
  show Out.ofOption _ (parseI64 (digitsText n.digits)) = _
  rw [parseI64_digits (by simp [Num1.digits])]
  rfl

theorem calc1_int {t : Publisher Ex1} {src : Source} (ht : src.IsText) {p k : Nat} {n : Num1} (h : TextAt src p n.text)
    (hu : t.Unfolds k (.node .r_integer (some (p, p + n.text.length)) [])) (rec : Node Ex1 → Out Int) :
    calc1Child t src.bytes rec k = Out.ofOption .expectFailed n.eval := by
  obtain ⟨nd, g1, g2, g3, g4, g5⟩ := hu.none
  unfold calc1Child
  rw [g1]
  simp only [Out.bind_ok, g2, g3, g4]
  exact num1_slice ht h

theorem calc1_op {checked : Bool} {t : Publisher Ex1} {src : List UInt8} {k m : Nat} {nd : Node Ex1} (h : t.getNode k = .ok nd)
    (hr : nd.rule = .r_expr ∨ nd.rule = .r_addition ∨ nd.rule = .r_subtraction ∨ nd.rule = .r_grammar) :
    calc1Child t src (calc1Kernel checked t src m) k = calc1Kernel checked t src m nd := by
  unfold calc1Child
  rw [h]
  simp only [Out.bind_ok]
  rcases hr with hr | hr | hr | hr <;> simp only [hr]

/-- A node whose only child has a value passes it on. -/
theorem calc1_pass {checked : Bool} {t : Publisher Ex1} {src : List UInt8} {c m : Nat} {nd : Node Ex1} {v : Option Int}
    (hc : nd.children = [c]) (hr : nd.rule ≠ .r_subtraction) (hf : ∀ x, v = some x → Fits x)
    (h : Runs (calc1Child t src (calc1Kernel checked t src m) c) v) : Runs (calc1Kernel checked t src (m + 1) nd) v := by
  have hfin : ∀ x, calc1Finish checked nd.rule [x] = i64Result checked x := by
    intro x
    unfold calc1Finish
    generalize nd.rule = r at hr
    cases r <;> first | exact absurd rfl hr | (simp; cases i64Result checked x <;> rfl)
  rw [calc1Kernel, hc, mapM_one]
  cases h with
  | value h =>
    rw [h]
    exact .value (by simp only [Out.bind, Out.bind_ok]; rw [hfin, i64Result_ok (hf _ rfl)])
  | panics h =>
    rw [h]
    exact .panics rfl

theorem Num1.eval_nonneg {n : Num1} {v : Int} (h : n.eval = some v) : 0 ≤ v ∧ Fits v := by
  unfold Num1.eval at h
  split at h
  · next hf => injection h with h; subst h; exact ⟨by unfold Num1.val; omega, hf⟩
  · cases h

theorem finish_add {checked : Bool} {x y : Int} (hx : Fits x) :
    calc1Finish checked .r_addition [x, y] = i64Result checked (x + y) := by
  simp only [calc1Finish, Out.bind_ok, List.foldlM, Int.zero_add, i64Result_ok hx]
  cases i64Result checked (x + y) <;> rfl

theorem finish_sub {checked : Bool} {x y : Int} (hx : Fits x) (hy : Fits (-y)) :
    calc1Finish checked .r_subtraction [x, y] = i64Result checked (x - y) := by
  simp only [calc1Finish, List.getElem?_cons_succ, List.getElem?_cons_zero, Out.ofOption, Out.bind_ok, i64Result_ok hy,
    List.set, List.foldlM, Int.zero_add, i64Result_ok hx]
  rw [← Int.sub_eq_add_neg]
  cases i64Result checked (x - y) <;> rfl

theorem neg_fits {y : Int} (h : 0 ≤ y) (hf : Fits y) : Fits (-y) := by
  simp only [Fits] at hf ⊢; omega

theorem calc1_sum {checked : Bool} {t : Publisher Ex1} {src : Source} (ht : src.IsText) (s : Sum1) : ∀ {p k m : Nat},
    t.Unfolds k (s.tree p) → TextAt src p s.text → s.text.length ≤ m →
    ∃ nd, t.getNode k = .ok nd ∧ nd.rule = .r_expr ∧ Runs (calc1Kernel checked t src.bytes m nd) (s.eval checked) := by
  induction s with
  | num n =>
    intro p k m hu hs hm
    rw [Sum1.tree] at hu
    obtain ⟨nd, c, h1, h2, h3, h4, h5, h6⟩ := hu.one
    refine ⟨nd, h1, h2, ?_⟩
    have := Sum1.text_pos (.num n)
    obtain ⟨m, rfl⟩ : ∃ m', m = m' + 1 := ⟨m - 1, by omega⟩
    refine calc1_pass h5 (by rw [h2]; decide) (fun x hx => Sum1.eval_fits hx) ?_
    rw [calc1_int ht hs h6]
    show Runs _ n.eval
    cases n.eval with
    | none => exact .panics rfl
    | some v => exact .value rfl
  | add s n ih =>
    intro p k m hu hs hm
    rw [Sum1.tree] at hu
    obtain ⟨nd, c, h1, h2, h3, h4, h5, h6⟩ := hu.one
    refine ⟨nd, h1, h2, ?_⟩
    simp only [Sum1.text, List.length_append, List.length_cons] at hm
    have hpos := Num1.text_pos n
    obtain ⟨m, rfl⟩ : ∃ m', m = m' + 2 := ⟨m - 2, by omega⟩
    refine calc1_pass h5 (by rw [h2]; decide) (fun x hx => Sum1.eval_fits hx) ?_
    obtain ⟨nd', c', d', g1, g2, g3, g4, g5, g6, g7⟩ := h6.two
    rw [calc1_op g1 (by simp [g2])]
    obtain ⟨hs1, hs2⟩ := textAt_append.mp hs
    obtain ⟨nd1, k1, k2, k3⟩ := ih (m := m) g6 hs1 (by omega)
    rw [calc1Kernel, g5, mapM_two, calc1_op k1 (by simp [k2]), calc1_int ht hs2.2 g7, g2, Sum1.eval]
    generalize he : s.eval checked = o at k3
    cases k3 with
    | panics k3 => rw [k3]; exact .panics rfl
    | value k3 =>
      rw [k3]
      cases hn : n.eval with
      | none => exact .panics rfl
      | some y =>
        have hx := Sum1.eval_fits he
        have hy := Num1.eval_nonneg hn
        simp only [Out.bind, Out.ofOption, Out.bind_ok, finish_add hx]
        exact i64Result_runs _ _
  | sub s n ih =>
    intro p k m hu hs hm
    rw [Sum1.tree] at hu
    obtain ⟨nd, c, h1, h2, h3, h4, h5, h6⟩ := hu.one
    refine ⟨nd, h1, h2, ?_⟩
    simp only [Sum1.text, List.length_append, List.length_cons] at hm
    have hpos := Num1.text_pos n
    obtain ⟨m, rfl⟩ : ∃ m', m = m' + 2 := ⟨m - 2, by omega⟩
    refine calc1_pass h5 (by rw [h2]; decide) (fun x hx => Sum1.eval_fits hx) ?_
    obtain ⟨nd', c', d', g1, g2, g3, g4, g5, g6, g7⟩ := h6.two
    rw [calc1_op g1 (by simp [g2])]
    obtain ⟨hs1, hs2⟩ := textAt_append.mp hs
    obtain ⟨nd1, k1, k2, k3⟩ := ih (m := m) g6 hs1 (by omega)
    rw [calc1Kernel, g5, mapM_two, calc1_op k1 (by simp [k2]), calc1_int ht hs2.2 g7, g2, Sum1.eval]
    generalize he : s.eval checked = o at k3
    cases k3 with
    | panics k3 => rw [k3]; exact .panics rfl
    | value k3 =>
      rw [k3]
      cases hn : n.eval with
      | none => exact .panics rfl
      | some y =>
        have hx := Sum1.eval_fits he
        have hy := Num1.eval_nonneg hn
        simp only [Out.bind, Out.ofOption, Out.bind_ok, finish_sub hx (neg_fits hy.1 hy.2)]
        exact i64Result_runs _ _

end PP
