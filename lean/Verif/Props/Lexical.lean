import Verif.Lemmas.Gen.Longest
import Verif.Props.Generator

/-! # C36: lexical classes of the grammar DSL

`DslReads src r p q`: the generated function of the DSL rule `r`, called at `p` on a source in a fresh context, succeeds
and returns the position `q`. -/
namespace PP.Gen

def DslReads (src : Bytes) (r : Dsl) (p q : Nat) : Prop :=
  ∃ n st, eval dslParser ⟨src⟩ n (.inlined r) 0 p (St.new .r_grammar ()) = .ok (true, q, st)

/-- The next byte, if there is one, is not in the class. -/
def StopsAt (cls : UInt8 → Prop) (rest : Bytes) : Prop := ∀ c, rest.head? = some c → ¬ cls c

section
variable {src : Bytes} {p q : Nat}

theorem dslReads_iff (hsm : src.length < 82000000) (hp : p ≤ src.length) {r : Dsl} :
    DslReads src r p q ↔ Peg Dsl.body ⟨src⟩ (Dsl.body r) p true q := by
  have hlen : (⟨src⟩ : Source).len = src.length := by unfold Source.len; exact Nat.mod_eq_of_lt (by simp; omega)
  have hcard : Dsl.all.length * ((⟨src⟩ : Source).len + 1) < 2 ^ 32 := by
    rw [show Dsl.all.length = 52 from rfl, hlen]; omega
  constructor
  · rintro ⟨n, st, h⟩
    have := C04_memoised_agrees_with_peg Dsl.body .r_grammar ⟨src⟩ dsl_plain .init (e := .inlined r) trivial h
    cases this with | inl h => exact h
  · intro h
    obtain ⟨N, hN⟩ := C05_peg_result_is_computed_small Dsl.body .r_grammar ⟨src⟩ dsl_plain Dsl.all Dsl.mem_all hcard
      (e := .inlined r) trivial (by omega) (.inl h)
    obtain ⟨st, h⟩ := hN N (Nat.le_refl _)
    exact ⟨N, st, h⟩

/-- The longest run of bytes of a class. -/
theorem run_split (cls : UInt8 → Prop) (t : Bytes) : ∃ w s, t = w ++ s ∧ (∀ c ∈ w, cls c) ∧ StopsAt cls s := by
  induction t with
  | nil => exact ⟨[], [], rfl, by simp, fun c h => by cases h⟩
  | cons c t ih =>
    by_cases hc : cls c
    · obtain ⟨w, s, rfl, hw, hs⟩ := ih
      refine ⟨c :: w, s, rfl, ?_, hs⟩
      intro d hd
      rcases List.mem_cons.mp hd with rfl | hd
      · exact hc
      · exact hw d hd
    · exact ⟨[], c :: t, rfl, by simp, fun d h => by injection h with h; subst h; exact hc⟩

theorem cut_rem {w : Bytes} (hsm : src.length < 82000000) (h : Cut ⟨src⟩ p q w) : ∃ t, src.drop p = w ++ t ∧ Rem ⟨src⟩ p (w ++ t) ∧ q = p + w.length := by
  obtain ⟨t, h1, h2, h3⟩ := h
  have h3 : q ≤ src.length := h3
  exact ⟨t, h1, ⟨by simp; omega, by simp; omega, h1⟩, h2⟩

theorem rem_of (hsm : src.length < 82000000) (hp : p ≤ src.length) {s : Bytes} (h : src.drop p = s) : Rem ⟨src⟩ p s :=
  ⟨by simp; omega, hp, h⟩

/-- C36: a rule or hook name is a letter followed by letters and underscores, and the longest one is read. -/
theorem C36_names (hsm : src.length < 82000000) (hp : p ≤ src.length) :
    DslReads src .r_var_name p q ↔ ∃ nm rest, src.drop p = nm ++ rest ∧ IsName nm ∧ q = p + nm.length ∧
      StopsAt (fun c => IsLetter c ∨ c = 95) rest := by
  rw [dslReads_iff hsm hp]
  constructor
  · intro h
    obtain ⟨nm, hn, hc⟩ := name_inv (src := ⟨src⟩) (Peg.inl h)
    obtain ⟨t, h1, h2, h3⟩ := cut_rem hsm hc
    obtain ⟨w, s, rfl, hw, hs⟩ := run_split (fun c => IsLetter c ∨ c = 95) t
    have hn' : IsName (nm ++ w) := by
      cases nm with
      | nil => cases hn
      | cons c nm =>
        refine ⟨hn.1, fun d hd => ?_⟩
        rcases List.mem_append.mp hd with hd | hd
        · exact hn.2 d hd
        · exact hw d hd
    have h4 := (ok_name hn' (by simpa using h2) hs).toPeg
    cases h4 with | inl h4 =>
    obtain ⟨_, h5⟩ := h.det h4
    have : w = [] := List.eq_nil_of_length_eq_zero (by simp at h5; omega)
    subst this
    exact ⟨nm, s, by simpa using h1, hn, h3, hs⟩
  · rintro ⟨nm, rest, h1, hn, rfl, hs⟩
    have := (ok_name hn (rem_of hsm hp h1) hs).toPeg
    cases this with | inl h => exact h

/-- C36: a hexadecimal literal is `0x` followed by one or more of `0`-`9`, `A`-`F`; all of them are read. -/
theorem C36_hex (hsm : src.length < 82000000) (hp : p ≤ src.length) :
    DslReads src .r_hex p q ↔ ∃ ds rest, src.drop p = 48 :: 120 :: (ds ++ rest) ∧ IsHex ds ∧ q = p + 2 + ds.length ∧
      StopsAt IsHexDigit rest := by
  rw [dslReads_iff hsm hp]
  constructor
  · intro h
    obtain ⟨ds, hn, hc⟩ := hex_inv (src := ⟨src⟩) (Peg.ref h)
    obtain ⟨t, h1, h2, h3⟩ := cut_rem hsm hc
    obtain ⟨w, s, rfl, hw, hs⟩ := run_split IsHexDigit t
    have hn' : IsHex (ds ++ w) := by
      refine ⟨by have := hn.1; simp [this], fun d hd => ?_⟩
      rcases List.mem_append.mp hd with hd | hd
      · exact hn.2 d hd
      · exact hw d hd
    have h4 := (ok_hex hn' (by simpa [hexText] using h2) hs).toPeg
    cases h4 with | ref h4 =>
    obtain ⟨_, h5⟩ := h.det h4
    have : w = [] := List.eq_nil_of_length_eq_zero (by simp [hexText] at h5 h3; omega)
    subst this
    exact ⟨ds, s, by simpa [hexText] using h1, hn, by simp [hexText] at h3; omega, hs⟩
  · rintro ⟨ds, rest, h1, hn, rfl, hs⟩
    have := (ok_hex hn (rem_of hsm hp h1) hs).toPeg
    cases this with | ref h => rw [show p + 2 + ds.length = p + (ds.length + 2) by omega]; exact h

/-- C36: a decimal literal is a digit `1`-`9` followed by digits; all of them are read. -/
theorem C36_integers (hsm : src.length < 82000000) (hp : p ≤ src.length) :
    DslReads src .r_integer p q ↔ ∃ ds rest, src.drop p = ds ++ rest ∧ IsInt ds ∧ q = p + ds.length ∧ StopsAt IsDigit rest := by
  rw [dslReads_iff hsm hp]
  constructor
  · intro h
    obtain ⟨ds, hn, hc⟩ := int_inv (src := ⟨src⟩) (Peg.ref h)
    obtain ⟨t, h1, h2, h3⟩ := cut_rem hsm hc
    obtain ⟨w, s, rfl, hw, hs⟩ := run_split IsDigit t
    have hn' : IsInt (ds ++ w) := by
      cases ds with
      | nil => cases hn
      | cons c ds =>
        refine ⟨hn.1, fun d hd => ?_⟩
        rcases List.mem_append.mp hd with hd | hd
        · exact hn.2 d hd
        · exact hw d hd
    have h4 := (ok_int hn' (by simpa using h2) hs).toPeg
    cases h4 with | ref h4 =>
    obtain ⟨_, h5⟩ := h.det h4
    have : w = [] := List.eq_nil_of_length_eq_zero (by simp at h5; omega)
    subst this
    exact ⟨ds, s, by simpa using h1, hn, h3, hs⟩
  · rintro ⟨ds, rest, h1, hn, rfl, hs⟩
    have := (ok_int hn (rem_of hsm hp h1) hs).toPeg
    cases this with | ref h => exact h

/-- C36: a string terminal is two or more bytes other than `"` between double quotes, or a hexadecimal literal, or a decimal
literal (all digits of which are read). -/
theorem C36_string_terminals (hsm : src.length < 82000000) (hp : p ≤ src.length) :
    DslReads src .r_stringterminal p q ↔
      (∃ s rest, src.drop p = 34 :: (s ++ 34 :: rest) ∧ 2 ≤ s.length ∧ (34 : UInt8) ∉ s ∧ q = p + s.length + 2) ∨
      DslReads src .r_hex p q ∨ DslReads src .r_integer p q := by
  have hh := C36_hex (q := q) hsm hp
  have hi := C36_integers (q := q) hsm hp
  constructor
  · intro h
    rw [dslReads_iff hsm hp] at h
    obtain ⟨d, hd, hc⟩ := string_inv (src := ⟨src⟩) (by simp; omega) (Peg.ref h)
    obtain ⟨t, h1, h2, h3⟩ := cut_rem hsm hc
    cases d with
    | quoted s =>
      left
      refine ⟨s, t, by simpa [DStr.text] using h1, hd.1, fun h => hd.2 34 h rfl, ?_⟩
      simp [DStr.text] at h3; omega
    | hex ds =>
      right; left
      rw [hh]
      obtain ⟨w, s, rfl, hw, hs⟩ := run_split IsHexDigit t
      have hd : IsHex ds := hd
      have hn' : IsHex (ds ++ w) := by
        refine ⟨by have := hd.1; simp [this], fun d hd' => ?_⟩
        rcases List.mem_append.mp hd' with hd' | hd'
        · exact hd.2 d hd'
        · exact hw d hd'
      have h4 := (ok_string' (d := .hex (ds ++ w)) hn' (by simpa [DStr.text, hexText] using h2) hs).toPeg
      cases h4 with | ref h4 =>
      obtain ⟨_, h5⟩ := h.det h4
      have : w = [] := List.eq_nil_of_length_eq_zero (by simp [DStr.text, hexText] at h5 h3; omega)
      subst this
      exact ⟨ds, s, by simpa [DStr.text, hexText] using h1, hd, by simp [DStr.text, hexText] at h3; omega, hs⟩
    | int ds =>
      right; right
      rw [hi]
      obtain ⟨w, s, rfl, hw, hs⟩ := run_split IsDigit t
      have hd : IsInt ds := hd
      have hn' : IsInt (ds ++ w) := by
        cases ds with
        | nil => cases hd
        | cons c ds =>
          refine ⟨hd.1, fun d hd' => ?_⟩
          rcases List.mem_append.mp hd' with hd' | hd'
          · exact hd.2 d hd'
          · exact hw d hd'
      have h4 := (ok_string' (d := .int (ds ++ w)) hn' (by simpa [DStr.text] using h2) hs).toPeg
      cases h4 with | ref h4 =>
      obtain ⟨_, h5⟩ := h.det h4
      have : w = [] := List.eq_nil_of_length_eq_zero (by simp [DStr.text] at h5 h3; omega)
      subst this
      exact ⟨ds, s, by simpa [DStr.text] using h1, hd, by simp [DStr.text] at h3; omega, hs⟩
  · intro h
    rw [dslReads_iff hsm hp]
    have key : ∀ {d : DStr} {rest : Bytes}, d.WF → src.drop p = d.text ++ rest → d.EndsAt rest → q = p + d.text.length →
        Peg Dsl.body ⟨src⟩ (Dsl.body .r_stringterminal) p true q := by
      intro d rest h1 h2 h3 h4
      have := (ok_string' h1 (rem_of hsm hp h2) h3).toPeg
      subst h4
      cases this with | ref h => exact h
    rcases h with ⟨s, rest, h1, h2, h3, rfl⟩ | h | h
    · exact key (d := .quoted s) (rest := rest) ⟨h2, fun c hc e => h3 (e ▸ hc)⟩ (by simpa [DStr.text] using h1) trivial (by simp [DStr.text]; omega)
    · obtain ⟨ds, rest, h1, h2, rfl, h4⟩ := hh.mp h
      exact key (d := .hex ds) (rest := rest) h2 (by simpa [DStr.text, hexText] using h1) h4 (by simp [DStr.text, hexText]; omega)
    · obtain ⟨ds, rest, h1, h2, rfl, h4⟩ := hi.mp h
      exact key (d := .int ds) (rest := rest) h2 h1 h4 rfl

/-- C36: a terminal is `'c'` for any byte `c`, one of `'\n'`, `'\r'`, `'\t'`, or `''` (unless another `'` follows, in which
case `'''` is read as the quote character). -/
theorem C36_terminals (hsm : src.length < 82000000) (hp : p ≤ src.length) :
    DslReads src .r_terminal p q ↔
      (∃ c rest, src.drop p = 39 :: c :: 39 :: rest ∧ q = p + 3) ∨
      (∃ c rest, src.drop p = 39 :: 92 :: c :: 39 :: rest ∧ (c = 110 ∨ c = 114 ∨ c = 116) ∧ q = p + 4) ∨
      (∃ rest, src.drop p = 39 :: 39 :: rest ∧ StopsAt (· = 39) rest ∧ q = p + 2) := by
  rw [dslReads_iff hsm hp]
  have key : ∀ {t : DTerm} {rest : Bytes}, t.WF → src.drop p = t.text ++ rest → (t = .eps → Hd rest (· ≠ 39)) →
      Peg Dsl.body ⟨src⟩ (Dsl.body .r_terminal) p true (p + t.text.length) := by
    intro t rest h1 h2 h3
    have := (ok_terminal' h1 (rem_of hsm hp h2) h3).toPeg
    cases this with | ref h => exact h
  constructor
  · intro h
    obtain ⟨t, ht, hc⟩ := terminal_inv (src := ⟨src⟩) (Peg.ref h)
    obtain ⟨rest, h1, h2, h3⟩ := cut_rem hsm hc
    cases t with
    | chr c => exact Or.inl ⟨c, rest, h1, h3⟩
    | esc c => exact Or.inr (Or.inl ⟨c, rest, h1, ht, h3⟩)
    | eps =>
      right; right
      refine ⟨rest, h1, fun c hc e => ?_, h3⟩
      subst e
      cases rest with
      | nil => cases hc
      | cons d rest =>
        injection hc with hc
        subst hc
        have := key (t := .chr 39) (rest := rest) trivial h1 (by simp)
        obtain ⟨_, h5⟩ := h.det this
        simp [DTerm.text] at h5 h3; omega
  · rintro (⟨c, rest, h1, rfl⟩ | ⟨c, rest, h1, hc, rfl⟩ | ⟨rest, h1, hs, rfl⟩)
    · exact key (t := .chr c) (rest := rest) trivial h1 (by simp)
    · exact key (t := .esc c) (rest := rest) hc h1 (by simp)
    · exact key (t := .eps) (rest := rest) trivial h1 fun _ => hs

/-- Non-trivial cases: `Ab_c1` at 0 is read as the name `Ab_c`, `0xFfF` as `0xF`. -/
example : DslReads (bytesOf "Ab_c1") .r_var_name 0 4 ∧ DslReads (bytesOf "0xFfF") .r_hex 0 3 := by
  constructor
  · exact (C36_names (by decide) (by decide)).mpr ⟨bytesOf "Ab_c", bytesOf "1", by decide,
      isName_of (c := 65) (cs := bytesOf "b_c") (by decide) (by decide), by decide, by
        intro c hc
        have : c = 49 := by simpa [bytesOf] using hc.symm
        subst this; simp [IsLetter]⟩
  · exact (C36_hex (by decide) (by decide)).mpr ⟨bytesOf "F", bytesOf "fF", by decide,
      ⟨by decide, by intro d hd; simp [bytesOf] at hd; subst hd; simp [IsHexDigit]⟩, by decide, by
        intro c hc
        have : c = 102 := by simpa [bytesOf] using hc.symm
        subst this; simp [IsHexDigit]⟩

end
end PP.Gen
