import Verif.Spec.Calc
import Verif.Spec.Group
import Verif.Model.Calc.Arith
import Verif.Props.LeftTrees

/-! # Texts at a position of the source; digits -/
namespace PP
open Calc

/-- The source reads `l` from `p` on. -/
def TextAt (src : Source) : Nat → List UInt8 → Prop
  | _, [] => True
  | p, c :: l => ByteAt src p c ∧ TextAt src (p + 1) l

theorem textAt_append {src : Source} : ∀ {l l' : List UInt8} {p : Nat},
    TextAt src p (l ++ l') ↔ TextAt src p l ∧ TextAt src (p + l.length) l'
  | [], l', p => by simp [TextAt]
  | c :: l, l', p => by
    simp only [List.cons_append, TextAt, textAt_append (l := l), List.length_cons]
    rw [show p + 1 + l.length = p + (l.length + 1) by omega, and_assoc]

theorem TextAt.get {src : Source} : ∀ {l : List UInt8} {p i : Nat} {c}, TextAt src p l → l[i]? = some c → ByteAt src (p + i) c
  | c :: l, p, 0, _, h, h' => by simp at h'; subst h'; exact h.1
  | c :: l, p, i + 1, _, h, h' => by
    have := TextAt.get (i := i) h.2 (by simpa using h')
    rwa [show p + 1 + i = p + (i + 1) by omega] at this

theorem TextAt.of_get {src : Source} : ∀ {l : List UInt8} {p : Nat}, (∀ i c, l[i]? = some c → ByteAt src (p + i) c) → TextAt src p l
  | [], _, _ => trivial
  | c :: l, p, h => ⟨h 0 c rfl, TextAt.of_get fun i d hd => by
      have := h (i + 1) d (by simpa using hd)
      rwa [show p + (i + 1) = p + 1 + i by omega] at this⟩

theorem src_len_le (src : Source) : src.len ≤ src.bytes.length := Nat.mod_le _ _

/-- Two texts at the same place: the shorter is a prefix of the longer. -/
theorem TextAt.prefix {src : Source} : ∀ {l l' : List UInt8} {p : Nat}, TextAt src p l → TextAt src p l' → l.length ≤ l'.length →
    l <+: l'
  | [], _, _, _, _, _ => List.nil_prefix
  | c :: l, [], _, _, _, h => by simp at h
  | c :: l, c' :: l', p, h, h', hl => by
    have h1 := h.1.unique h'.1
    subst h1
    exact List.cons_prefix_cons.mpr ⟨rfl, TextAt.prefix h.2 h'.2 (by simpa using hl)⟩

theorem TextAt.eq {src : Source} {l l' : List UInt8} {p : Nat} (h : TextAt src p l) (h' : TextAt src p l')
    (hl : l.length = l'.length) : l = l' := (h.prefix h' (by omega)).eq_of_length hl

theorem TextAt.take {src : Source} {l : List UInt8} (h : TextAt src 0 l) : src.bytes.take l.length = l := by
  apply List.ext_getElem?
  intro i
  rcases Nat.lt_or_ge i l.length with hi | hi
  · have := (h.get (i := i) (c := l[i]) (by simp [hi])).2
    rw [List.getElem?_take_of_lt hi]
    simp only [Nat.zero_add] at this
    rw [this]
    simp [hi]
  · rw [List.getElem?_eq_none (by simp; omega), List.getElem?_eq_none hi]

theorem TextAt.drop_take {src : Source} {l : List UInt8} {p : Nat} (h : TextAt src p l) :
    (src.bytes.drop p).take l.length = l := by
  apply List.ext_getElem?
  intro i
  rcases Nat.lt_or_ge i l.length with hi | hi
  · have := (h.get (i := i) (c := l[i]) (by simp [hi])).2
    rw [List.getElem?_take_of_lt hi, List.getElem?_drop, this]
    simp [hi]
  · rw [List.getElem?_eq_none (by simp; omega), List.getElem?_eq_none hi]

theorem TextAt.le_len {src : Source} {l : List UInt8} {p : Nat} (h : TextAt src p l) (hl : l ≠ []) : p + l.length ≤ src.len := by
  have hpos : 0 < l.length := List.length_pos_iff.mpr hl
  have := (h.get (i := l.length - 1) (c := l[l.length - 1]) (by simp)).1
  omega

/-- A text that the source starts with. -/
theorem TextAt.of_prefix {src : Source} {l : List UInt8} (h : l <+: src.bytes.take src.len) : TextAt src 0 l := by
  refine .of_get fun i c hc => ?_
  have hi : i < l.length := by
    rcases Nat.lt_or_ge i l.length with h | h
    · exact h
    · rw [List.getElem?_eq_none h] at hc; cases hc
  have hl := h.length_le
  rw [List.length_take] at hl
  obtain ⟨r, hr⟩ := h
  have h1 : (src.bytes.take src.len)[i]? = some c := by rw [← hr, List.getElem?_append_left hi]; exact hc
  have h2 : 0 + i < src.len := by omega
  refine ⟨h2, ?_⟩
  rw [List.getElem?_take_of_lt (by omega)] at h1
  simpa using h1

theorem TextAt.isPrefix {src : Source} {l : List UInt8} (h : TextAt src 0 l) : l <+: src.bytes.take src.len := by
  rcases Decidable.em (l = []) with rfl | hl
  · exact List.nil_prefix
  · have := h.le_len hl
    have h1 : (src.bytes.take src.len).take l.length = l := by
      rw [List.take_take, Nat.min_eq_left (by omega)]; exact h.take
    rw [← h1]
    exact List.take_prefix _ _

/-! ## Digits -/

theorem digitByte_toNat (d : Fin 10) : (digitByte d).toNat = 48 + d.val := by
  simp [digitByte, UInt8.toNat_ofNat']
  omega

theorem digitByte_inj {d d' : Fin 10} (h : digitByte d = digitByte d') : d = d' := by
  have := congrArg UInt8.toNat h
  rw [digitByte_toNat, digitByte_toNat] at this
  exact Fin.ext (by omega)

theorem digitByte_of {c : UInt8} (h : 48 ≤ c.toNat) (h' : c.toNat ≤ 57) : ∃ d : Fin 10, c = digitByte d ∧ d.val = c.toNat - 48 :=
  ⟨⟨c.toNat - 48, by omega⟩, UInt8.toNat_inj.mp (by rw [digitByte_toNat]; simp; omega), rfl⟩

theorem digitAt_digitByte {src : Source} {p : Nat} {d : Fin 10} (h : ByteAt src p (digitByte d)) : DigitAt src p :=
  ⟨_, h.1, h.2, by rw [digitByte_toNat]; omega, by rw [digitByte_toNat]; omega⟩

theorem DigitAt.byte {src : Source} {p : Nat} (h : DigitAt src p) : ∃ d : Fin 10, ByteAt src p (digitByte d) := by
  obtain ⟨c, h1, h2, h3, h4⟩ := h
  obtain ⟨d, rfl, _⟩ := digitByte_of h3 h4
  exact ⟨d, h1, h2⟩

theorem digitsText_length (ds : List (Fin 10)) : (digitsText ds).length = ds.length := by simp [digitsText]

theorem digitsText_inj {ds ds' : List (Fin 10)} (h : digitsText ds = digitsText ds') : ds = ds' :=
  (List.map_inj_right fun _ _ => digitByte_inj).mp h

theorem decimal_foldl (ds : List (Fin 10)) : ∀ a, (digitsText ds).foldl (fun a c => 10 * a + (c.toNat - 48)) a
    = a * 10 ^ ds.length + digitsVal ds := by
  induction ds with
  | nil => intro a; simp [digitsText, digitsVal]
  | cons d ds ih =>
    intro a
    simp only [digitsText, List.map_cons, List.foldl_cons] at ih ⊢
    rw [ih, digitByte_toNat, digitsVal, List.length_cons, Nat.pow_succ, Nat.add_sub_cancel_left, Nat.add_mul]
    have : 10 * a * 10 ^ ds.length = a * (10 ^ ds.length * 10) := by
      rw [Nat.mul_comm 10 a, Nat.mul_assoc, Nat.mul_comm 10]
    omega

theorem decimal_digits (ds : List (Fin 10)) : decimal (digitsText ds) = digitsVal ds := by
  simp [decimal, decimal_foldl]

theorem digits_all (ds : List (Fin 10)) : (digitsText ds).all (fun c => 48 ≤ c.toNat ∧ c.toNat ≤ 57) = true := by
  simp only [digitsText, List.all_map, List.all_eq_true, Function.comp, digitByte_toNat, decide_eq_true_eq]
  intro d _
  omega

theorem fits_iff (x : Int) : Fits x ↔ InI64 x := by simp [Fits, InI64]

theorem i64Result_eq (checked : Bool) (x : Int) : i64Result checked x =
    match Calc.result checked x with | some v => .ok v | none => .panic .overflow := by
  unfold i64Result Calc.result
  by_cases h : InI64 x
  · simp [h, (fits_iff x).mpr h]
  · have h' : ¬ Fits x := fun h' => h ((fits_iff x).mp h')
    cases checked <;> simp [h, h']

theorem digit_ne (d : Fin 10) {c : UInt8} (h : c.toNat < 48 ∨ 57 < c.toNat) : digitByte d ≠ c := by
  intro h'
  have := digitByte_toNat d
  rw [h'] at this
  omega

/-- Numbers without a sign. -/
theorem parseI64_digits {ds : List (Fin 10)} (h : ds ≠ []) : parseI64 (digitsText ds) =
    if Fits (digitsVal ds : Int) then some (digitsVal ds : Int) else none := by
  cases ds with
  | nil => exact absurd rfl h
  | cons d ds =>
    have h1 := digit_ne d (c := 43) (by decide)
    have h2 := digit_ne d (c := 45) (by decide)
    have h3 := digits_all (d :: ds)
    have h4 := decimal_digits (d :: ds)
    have h5 : digitsText (d :: ds) = digitByte d :: digitsText ds := rfl
    have hh : (digitsText (d :: ds)).head? = some (digitByte d) := rfl
    unfold parseI64
    simp only [hh, Option.some.injEq, h1, h2, or_self, ite_false, h3, h4]
    simp [h5, fits_iff]

/-- Numbers with a sign. -/
theorem parseI64_sign {c : UInt8} (hc : c = 43 ∨ c = 45) {ds : List (Fin 10)} (h : ds ≠ []) : parseI64 (c :: digitsText ds) =
    let x : Int := if c = 45 then -(digitsVal ds : Int) else digitsVal ds
    if Fits x then some x else none := by
  have h3 := digits_all ds
  have h4 := decimal_digits ds
  have h5 : digitsText ds ≠ [] := by simpa [digitsText] using h
  unfold parseI64
  simp only [List.head?_cons, Option.some.injEq, hc, ite_true, List.tail_cons, h3, h4]
  simp [h5, fits_iff]

/-- After a run of digits comes no digit: the run is determined by the text. -/
theorem digits_unique : ∀ {ds ds' : List (Fin 10)} {r r' : List UInt8},
    (∀ c, r.head? = some c → ¬ (48 ≤ c.toNat ∧ c.toNat ≤ 57)) → (∀ c, r'.head? = some c → ¬ (48 ≤ c.toNat ∧ c.toNat ≤ 57)) →
    digitsText ds ++ r = digitsText ds' ++ r' → ds = ds' ∧ r = r'
  | [], [], r, r', _, _, h => ⟨rfl, by simpa [digitsText] using h⟩
  | [], d :: ds', r, r', hr, _, h => by
    refine absurd ?_ (hr (digitByte d) (by simp [digitsText] at h; simp [h]))
    rw [digitByte_toNat]; omega
  | d :: ds, [], r, r', _, hr, h => by
    refine absurd ?_ (hr (digitByte d) (by simp [digitsText] at h; simp [← h]))
    rw [digitByte_toNat]; omega
  | d :: ds, d' :: ds', r, r', hr, hr', h => by
    simp only [digitsText, List.map_cons, List.cons_append, List.cons.injEq] at h
    obtain ⟨h1, h2⟩ := h
    obtain ⟨rfl, rfl⟩ := digits_unique hr hr' h2
    exact ⟨by rw [digitByte_inj h1], rfl⟩

/-! ## What digit rules match -/
section
variable {R : Type} {body : R → Expr R} {role : R → Role R} {src : Source} {D : R}

theorem gt_digit (hD : body D = .matchRange 48 57) {pre p b q ts} (h : GT body role src pre (.inlined D) p b q ts) :
    ts = [] ∧ ((b = true ∧ q = p + 1 ∧ ∃ d, ByteAt src p (digitByte d)) ∨ (b = false ∧ q = p ∧ ¬ DigitAt src p)) := by
  cases h with
  | inl h =>
    rw [hD] at h
    cases h with
    | range h =>
      cases h with
      | range_ok h1 h2 h3 h4 => exact ⟨rfl, Or.inl ⟨rfl, rfl, DigitAt.byte ⟨_, h1, h2, h3, h4⟩⟩⟩
      | range_fail hf => exact ⟨rfl, Or.inr ⟨rfl, rfl, hf⟩⟩

theorem gt_digits (hD : body D = .matchRange 48 57) : ∀ {pre e p b q ts}, GT body role src pre e p b q ts →
    e = .zeroOrMore (.inlined D) →
    b = true ∧ ts = [] ∧ ∃ ds, TextAt src p (digitsText ds) ∧ q = p + ds.length ∧ ¬ DigitAt src q
  | _, _, _, _, _, _, .star_stop h, he => by
    cases he
    obtain ⟨rfl, g⟩ := gt_digit hD h
    rcases g with ⟨h, _⟩ | ⟨_, _, h⟩
    · cases h
    · exact ⟨rfl, rfl, [], trivial, rfl, h⟩
  | _, _, _, _, _, _, .star_step h h', he => by
    have ih := gt_digits hD h' he
    cases he
    obtain ⟨rfl, g⟩ := gt_digit hD h
    rcases g with ⟨_, rfl, d, hd⟩ | ⟨h, _⟩
    · obtain ⟨_, rfl, ds, h1, rfl, h2⟩ := ih
      exact ⟨rfl, rfl, d :: ds, ⟨hd, h1⟩, by simp; omega, h2⟩
    · cases h

theorem gt_digits1 (hD : body D = .matchRange 48 57) {pre p b q ts} (h : GT body role src pre (.oneOrMore (.inlined D)) p b q ts) :
    ts = [] ∧ ((b = true ∧ ∃ ds, ds ≠ [] ∧ TextAt src p (digitsText ds) ∧ q = p + ds.length ∧ ¬ DigitAt src q) ∨
      (b = false ∧ q = p ∧ ¬ DigitAt src p)) := by
  cases h with
  | plus_ok h h' =>
    obtain ⟨rfl, g⟩ := gt_digit hD h
    rcases g with ⟨_, rfl, d, hd⟩ | ⟨h, _⟩
    · obtain ⟨_, rfl, ds, h1, rfl, h2⟩ := gt_digits hD h' rfl
      exact ⟨rfl, Or.inl ⟨rfl, d :: ds, by simp, ⟨hd, h1⟩, by simp; omega, h2⟩⟩
    · cases h
  | plus_fail h =>
    obtain ⟨rfl, g⟩ := gt_digit hD h
    rcases g with ⟨h, _⟩ | ⟨_, _, h⟩
    · cases h
    · exact ⟨rfl, Or.inr ⟨rfl, rfl, h⟩⟩

end
end PP
