import Verif.Spec.RustText
import Verif.Model.Runner

/-! # The tokens of the generated text -/
namespace PP.Gen.Text

theorem run_append {m : Mode} {a b : Bytes} {ts us : List Tok} {m' m'' : Mode} (h : run m a = some (ts, m'))
    (h' : run m' b = some (us, m'')) : run m (a ++ b) = some (ts ++ us, m'') := by
  induction a generalizing m ts with
  | nil => simp only [run, Option.some.injEq, Prod.mk.injEq] at h; obtain ⟨rfl, rfl⟩ := h; exact h'
  | cons c cs ih =>
    simp only [run] at h
    simp only [List.cons_append, run]
    cases hs : step m c with
    | none => rw [hs] at h; cases h
    | some y =>
      obtain ⟨ts1, m1⟩ := y
      rw [hs] at h
      simp only at h ⊢
      cases hr : run m1 cs with
      | none => rw [hr] at h; cases h
      | some z =>
        obtain ⟨ts2, m2⟩ := z
        rw [hr] at h
        simp only [Option.some.injEq, Prod.mk.injEq] at h
        obtain ⟨rfl, rfl⟩ := h
        rw [ih hr]
        simp

theorem run_cons {m m1 : Mode} {c : UInt8} {cs : Bytes} {ts : List Tok} (h : step m c = some (ts, m1)) :
    run m (c :: cs) = (run m1 cs).map fun y => (ts ++ y.1, y.2) := by
  simp only [run, h]
  cases run m1 cs with
  | none => rfl
  | some y => rfl

theorem run_silent {m m1 : Mode} {c : UInt8} {cs : Bytes} {y} (h : step m c = some ([], m1)) (h' : run m1 cs = some y) :
    run m (c :: cs) = some y := by rw [run_cons h, h']; rfl

/-- A character that ends identifiers and numbers. -/
def delim (c : UInt8) : Bool := !isIdCont c && c != 39 && c != 34 && c != 35 && c != 46
def delimHead : Bytes → Bool
  | [] => false
  | c :: _ => delim c

theorem isDig_cont {c : UInt8} (h : isDig c = true) : isIdCont c = true := by simp [isIdCont, h]

theorem run_flush {acc bs : Bytes} {ts : List Tok} {m : Mode} (hd : delimHead bs = true) (h : run .code bs = some (ts, m)) :
    run (.ident acc) bs = some (.id acc.reverse :: ts, m) := by
  cases bs with
  | nil => simp [delimHead] at hd
  | cons c cs =>
    simp only [delimHead, delim, Bool.and_eq_true, Bool.not_eq_true', bne_iff_ne] at hd
    obtain ⟨⟨⟨⟨h1, h2⟩, h3⟩, h4⟩, h5⟩ := hd
    simp only [run, step] at h ⊢
    rw [if_neg (by simp [h1]), if_neg h2, if_neg h3, if_neg h4]
    cases hs : start c with
    | none => rw [hs] at h; cases h
    | some y =>
      rw [hs] at h
      simp only [emit] at h ⊢
      cases hr : run y.2 cs with
      | none => rw [hr] at h; cases h
      | some z =>
        rw [hr] at h
        simp only [Option.some.injEq, Prod.mk.injEq] at h ⊢
        exact ⟨by rw [← h.1]; simp, h.2⟩

theorem run_flushNum {acc bs : Bytes} {ts : List Tok} {m : Mode} (hd : delimHead bs = true) (h : run .code bs = some (ts, m)) :
    run (.num acc) bs = some (.num acc.reverse :: ts, m) := by
  cases bs with
  | nil => simp [delimHead] at hd
  | cons c cs =>
    simp only [delimHead, delim, Bool.and_eq_true, Bool.not_eq_true', bne_iff_ne] at hd
    obtain ⟨⟨⟨⟨h1, h2⟩, h3⟩, h4⟩, h5⟩ := hd
    have h6 : isDig c = false := by
      cases h : isDig c
      · rfl
      · rw [isDig_cont h] at h1; cases h1
    simp only [run, step] at h ⊢
    rw [if_neg (by simp [h6]), if_neg h5, if_neg (by simp [h1])]
    cases hs : start c with
    | none => rw [hs] at h; cases h
    | some y =>
      rw [hs] at h
      simp only [emit] at h ⊢
      cases hr : run y.2 cs with
      | none => rw [hr] at h; cases h
      | some z =>
        rw [hr] at h
        simp only [Option.some.injEq, Prod.mk.injEq] at h ⊢
        exact ⟨by rw [← h.1]; simp, h.2⟩

theorem run_lit {bs : Bytes} {y} (hd : delimHead bs = true) (h : run .code bs = some y) : run .lit bs = some y := by
  cases bs with
  | nil => simp [delimHead] at hd
  | cons c cs =>
    simp only [delimHead, delim, Bool.and_eq_true, Bool.not_eq_true', bne_iff_ne] at hd
    simp only [run, step] at h ⊢
    rw [if_neg (by simp [hd.1.1.1.1])]
    exact h

theorem run_more {acc s : Bytes} (h : ∀ c ∈ s, isIdCont c = true) : run (.ident acc) s = some ([], .ident (s.reverse ++ acc)) := by
  induction s generalizing acc with
  | nil => rfl
  | cons c cs ih =>
    have h1 := h c (by simp)
    refine run_silent (m1 := .ident (c :: acc)) (by simp [step, h1]) ?_
    rw [ih fun d hd => h d (by simp [hd])]
    simp

/-- An identifier. -/
def IsIdent : Bytes → Prop
  | [] => False
  | c :: cs => isIdStart c = true ∧ ∀ d ∈ cs, isIdCont d = true

theorem idStart_cont {c : UInt8} (h : isIdStart c = true) : isIdCont c = true := by simp [isIdCont, h]

theorem IsIdent.ne {s : Bytes} (h : IsIdent s) : s ≠ [] := by rintro rfl; exact h

theorem start_id {c : UInt8} (h : isIdStart c = true) : start c = some ([], .ident [c]) := by
  have : ¬ (c = 32 || c = 9 || c = 10 || c = 13) = true := by
    intro h2
    simp only [Bool.or_eq_true, decide_eq_true_eq] at h2
    rcases h2 with ((rfl | rfl) | rfl) | rfl <;> revert h <;> decide
  rw [start, if_neg this, if_pos h]

theorem start_dig {c : UInt8} (h : isDig c = true) : start c = some ([], .num [c]) := by
  have h1 : ¬ (c = 32 || c = 9 || c = 10 || c = 13) = true := by
    intro h2
    simp only [Bool.or_eq_true, decide_eq_true_eq] at h2
    rcases h2 with ((rfl | rfl) | rfl) | rfl <;> revert h <;> decide
  have h2 : ¬ isIdStart c = true := by
    simp only [isDig, Bool.and_eq_true, decide_eq_true_eq] at h
    simp only [isIdStart, Bool.or_eq_true, Bool.and_eq_true, decide_eq_true_eq, not_or, not_and]
    have a := UInt8.le_iff_toNat_le.mp h.1
    have b := UInt8.le_iff_toNat_le.mp h.2
    simp at a b
    refine ⟨⟨fun h3 => ?_, fun h3 => ?_⟩, ?_⟩
    · have := UInt8.le_iff_toNat_le.mp h3; simp at this; omega
    · have := UInt8.le_iff_toNat_le.mp h3; simp at this; omega
    · rintro rfl; simp at b
  rw [start, if_neg h1, if_neg h2, if_pos h]

theorem run_ident {s : Bytes} (h : IsIdent s) : run .code s = some ([], .ident s.reverse) := by
  cases s with
  | nil => exact h.elim
  | cons c cs =>
    refine run_silent (m1 := .ident [c]) (start_id h.1) ?_
    rw [run_more h.2]; simp

theorem run_digits {s : Bytes} (hne : s ≠ []) (h : ∀ c ∈ s, isDig c = true) : run .code s = some ([], .num s.reverse) := by
  cases s with
  | nil => exact (hne rfl).elim
  | cons c cs =>
    refine run_silent (m1 := .num [c]) (start_dig (h c (by simp))) ?_
    have key : ∀ (s acc : Bytes), (∀ c ∈ s, isDig c = true) → run (.num acc) s = some ([], .num (s.reverse ++ acc)) := by
      intro s
      induction s with
      | nil => intro acc _; rfl
      | cons d ds ih =>
        intro acc h
        refine run_silent (m1 := .num (d :: acc)) (by simp [step, h d (by simp)]) ?_
        rw [ih _ fun x hx => h x (by simp [hx])]; simp
    rw [key cs [c] fun x hx => h x (by simp [hx])]; simp

/-! ## Numbers -/

theorem isDig_ofNat {d : Nat} (h : d < 10) : isDig (UInt8.ofNat (48 + d)) = true := by
  have : d = 0 ∨ d = 1 ∨ d = 2 ∨ d = 3 ∨ d = 4 ∨ d = 5 ∨ d = 6 ∨ d = 7 ∨ d = 8 ∨ d = 9 := by omega
  rcases this with rfl | rfl | rfl | rfl | rfl | rfl | rfl | rfl | rfl | rfl <;> decide

theorem toNat_ofNat {d : Nat} (h : d < 10) : (UInt8.ofNat (48 + d)).toNat = 48 + d := by
  simp only [UInt8.toNat_ofNat']; omega

def decFrom (v : Nat) (ds : Bytes) : Nat := ds.foldl (fun v d => v * 10 + (d.toNat - 48)) v

theorem go_spec : ∀ (fuel n : Nat) (acc : Bytes), n < fuel →
    ∃ ds, decimal.go fuel n acc = ds ++ acc ∧ ds ≠ [] ∧ (∀ c ∈ ds, isDig c = true) ∧ decFrom 0 ds = n
  | 0, n, acc, h => absurd h (Nat.not_lt_zero _)
  | fuel + 1, n, acc, h => by
    simp only [decimal.go]
    by_cases h10 : n < 10
    · rw [if_pos h10]
      refine ⟨[UInt8.ofNat (48 + n)], rfl, by simp, ?_, ?_⟩
      · intro c hc
        simp only [List.mem_singleton] at hc
        subst hc; exact isDig_ofNat h10
      · simp only [decFrom, List.foldl, toNat_ofNat h10]; omega
    · rw [if_neg h10]
      obtain ⟨ds, h1, h2, h3, h4⟩ := go_spec fuel (n / 10) (UInt8.ofNat (48 + n % 10) :: acc) (by omega)
      refine ⟨ds ++ [UInt8.ofNat (48 + n % 10)], by rw [h1]; simp, by simp, ?_, ?_⟩
      · intro c hc
        rcases List.mem_append.mp hc with h | h
        · exact h3 c h
        · simp only [List.mem_singleton] at h
          subst h; exact isDig_ofNat (by omega)
      · unfold decFrom at h4 ⊢
        rw [List.foldl_append, h4]
        simp only [List.foldl, toNat_ofNat (show n % 10 < 10 by omega)]
        omega

theorem decimal_spec (n : Nat) : decimal n ≠ [] ∧ (∀ c ∈ decimal n, isDig c = true) ∧ decValue (decimal n) = n := by
  obtain ⟨ds, h1, h2, h3, h4⟩ := go_spec (n + 1) n [] (by omega)
  have : decimal n = ds := by unfold decimal; rw [h1]; simp
  rw [this]
  exact ⟨h2, h3, h4⟩

theorem decimal_inj {m n : Nat} (h : decimal m = decimal n) : m = n := by
  rw [← (decimal_spec m).2.2, h, (decimal_spec n).2.2]

/-- `closure_i` -/
def clo (i : Nat) : Bytes := utf8Of "closure_" ++ decimal i

theorem clo_inj {i j : Nat} (h : clo i = clo j) : i = j := decimal_inj (List.append_cancel_left h)

end PP.Gen.Text
