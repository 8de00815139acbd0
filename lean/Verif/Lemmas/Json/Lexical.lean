import Verif.Lemmas.Json.LPeg
import Verif.Model.Grammars.Json
import Verif.Spec.Json

/-! # JSON: white space, strings, numbers -/
namespace PP
open PP.Gen (Hd)

theorem LPeg.det {R : Type} {body : R → Expr R} {e : Expr R} {s : List UInt8} {o o' : Option (List UInt8)} (h : LPeg body e s o)
    (h' : LPeg body e s o') : o = o' := by
  induction h generalizing o' with
  | term_ok => cases h' with
    | term_ok => rfl
    | term_fail h => simp at h
  | term_fail h => cases h' with
    | term_ok => simp at h
    | term_fail => rfl
  | range_ok h1 h2 => cases h' with
    | range_ok => rfl
    | range_fail h => exact absurd ⟨h1, h2⟩ (h _ rfl)
  | range_fail h => cases h' with
    | range_ok h1 h2 => exact absurd ⟨h1, h2⟩ (h _ rfl)
    | range_fail => rfl
  | @str_ok d s =>
    generalize he : d ++ s = x at h'
    cases h' with
    | str_ok => rw [List.append_cancel_left he]
    | str_fail h => rw [← he] at h; simp at h
  | @str_fail d s h =>
    cases h' with
    | str_ok => simp at h
    | str_fail => rfl
  | seq _ _ ih1 ih2 => cases h' with
    | seq h1 h2 => cases ih1 h1; exact ih2 h2
    | seq_fail h1 => cases ih1 h1
  | seq_fail _ ih1 => cases h' with
    | seq h1 h2 => cases ih1 h1
    | seq_fail h1 => rfl
  | left _ ih1 => cases h' with
    | left h1 => exact ih1 h1
    | right h1 _ => cases ih1 h1
  | right _ _ ih1 ih2 => cases h' with
    | left h1 => cases ih1 h1
    | right h1 h2 => exact ih2 h2
  | and_ok _ ih => cases h' with
    | and_ok h1 => rfl
    | and_fail h1 => cases ih h1
  | and_fail _ ih => cases h' with
    | and_ok h1 => cases ih h1
    | and_fail h1 => rfl
  | not_ok _ ih => cases h' with
    | not_ok h1 => rfl
    | not_fail h1 => cases ih h1
  | not_fail _ ih => cases h' with
    | not_ok h1 => cases ih h1
    | not_fail h1 => rfl
  | opt_some _ ih => cases h' with
    | opt_some h1 => exact ih h1
    | opt_none h1 => cases ih h1
  | opt_none _ ih => cases h' with
    | opt_some h1 => cases ih h1
    | opt_none h1 => rfl
  | star_stop _ ih => cases h' with
    | star_stop h1 => rfl
    | star_step h1 _ => cases ih h1
  | star_step _ _ ih1 ih2 => cases h' with
    | star_stop h1 => cases ih1 h1
    | star_step h1 h2 => cases ih1 h1; exact ih2 h2
  | plus_ok _ _ ih1 ih2 => cases h' with
    | plus_ok h1 h2 => cases ih1 h1; exact ih2 h2
    | plus_fail h1 => cases ih1 h1
  | plus_fail _ ih1 => cases h' with
    | plus_ok h1 h2 => cases ih1 h1
    | plus_fail h1 => rfl
  | sub _ ih => cases h' with
    | sub h1 => exact ih h1
  | ref _ ih => cases h' with
    | ref h1 => exact ih h1
  | inl _ ih => cases h' with
    | inl h1 => exact ih h1

/-- `e` reads one byte of the class `P`. -/
def Class {R : Type} (body : R → Expr R) (e : Expr R) (P : UInt8 → Prop) : Prop :=
  (∀ c s, P c → LPeg body e (c :: s) (some s)) ∧ ∀ s, Hd s (fun c => ¬ P c) → LPeg body e s none

section
variable {R : Type} {body : R → Expr R} {e a b : Expr R} {P Q : UInt8 → Prop} {s s' : List UInt8}

theorem Class.some (h : Class body e P) (hd : LPeg body e s (some s')) : ∃ c, P c ∧ s = c :: s' := by
  cases s with
  | nil => have := (h.2 [] .nil).det hd; cases this
  | cons c s =>
    rcases Classical.em (P c) with hc | hc
    · have := (h.1 c s hc).det hd; cases this; exact ⟨c, hc, rfl⟩
    · have := (h.2 (c :: s) (.cons hc)).det hd; cases this

theorem class_term (c : UInt8) : Class body (.terminal c) (· = c) :=
  ⟨fun d s h => by subst h; exact .term_ok, fun s h => .term_fail fun hc => h _ hc rfl⟩
theorem class_range (lo hi : Nat) : Class body (.matchRange lo hi) (fun c => lo ≤ c.toNat ∧ c.toNat ≤ hi) :=
  ⟨fun d s h => .range_ok h.1 h.2, fun s h => .range_fail h⟩
theorem Class.sub (h : Class body e P) : Class body (.subexpression e) P := ⟨fun c s hc => .sub (h.1 c s hc), fun s hs => .sub (h.2 s hs)⟩
theorem Class.inl {r : R} (h : Class body (body r) P) : Class body (.inlined r) P := ⟨fun c s hc => .inl (h.1 c s hc), fun s hs => .inl (h.2 s hs)⟩
theorem Class.choice (h : Class body a P) (h' : Class body b Q) : Class body (.orderedChoice a b) (fun c => P c ∨ Q c) := by
  refine ⟨fun c s hc => ?_, fun s hs => .right (h.2 s (hs.mono fun c hc hp => hc (Or.inl hp))) (h'.2 s (hs.mono fun c hc hp => hc (Or.inr hp)))⟩
  rcases Classical.em (P c) with hp | hp
  · exact .left (h.1 c s hp)
  · exact .right (h.2 _ (.cons hp)) (h'.1 c s (hc.resolve_left hp))
theorem Class.congr (h : Class body e P) (hp : ∀ c, P c ↔ Q c) : Class body e Q :=
  ⟨fun c s hc => h.1 c s ((hp c).mpr hc), fun s hs => h.2 s (hs.mono fun c hc h => hc ((hp c).mp h))⟩

theorem Class.star (h : Class body e P) : ∀ {w : List UInt8}, (∀ c ∈ w, P c) → Hd s (fun c => ¬ P c) → LPeg body (.zeroOrMore e) (w ++ s) (.some s)
  | [], _, hs => .star_stop (h.2 s hs)
  | c :: w, hw, hs => .star_step (h.1 c (w ++ s) (hw c (by simp))) (h.star (fun d hd => hw d (by simp [hd])) hs)

theorem star_sound (h : Class body e P) {x : Expr R} {o} (hd : LPeg body x s o) : x = .zeroOrMore e → ∃ w s', o = .some s' ∧ s = w ++ s' ∧ (∀ c ∈ w, P c) ∧
    Hd s' (fun c => ¬ P c) := by
  induction hd with
  | @star_stop x s hx _ =>
    intro he
    cases he
    refine ⟨[], s, rfl, rfl, nofun, fun c hc hp => ?_⟩
    cases s with
    | nil => cases hc
    | cons d s => cases hc; have := hx.det (h.1 _ s hp); cases this
  | @star_step x s s' o hx hxs _ ih =>
    intro he
    cases he
    obtain ⟨c, hc, rfl⟩ := h.some hx
    obtain ⟨w, t, rfl, rfl, h1, h2⟩ := ih rfl
    refine ⟨c :: w, t, rfl, rfl, ?_, h2⟩
    intro d hd
    rcases List.mem_cons.mp hd with rfl | hd
    · exact hc
    · exact h1 d hd
  | _ => intro he; cases he

theorem Class.starSome (h : Class body e P) (hd : LPeg body (.zeroOrMore e) s (.some s')) : ∃ w, s = w ++ s' ∧ (∀ c ∈ w, P c) ∧ Hd s' (fun c => ¬ P c) := by
  obtain ⟨w, t, h1, h2, h3, h4⟩ := star_sound h hd rfl
  cases h1
  exact ⟨w, h2, h3, h4⟩

/-- The star always ends. -/
theorem Class.splits (P : UInt8 → Prop) : ∀ s : List UInt8, ∃ w t, s = w ++ t ∧ (∀ c ∈ w, P c) ∧ Hd t (fun c => ¬ P c)
  | [] => ⟨[], [], rfl, nofun, .nil⟩
  | c :: s => by
    rcases Classical.em (P c) with hp | hp
    · obtain ⟨w, t, h1, h2, h3⟩ := Class.splits P s
      refine ⟨c :: w, t, by rw [h1]; rfl, ?_, h3⟩
      intro d hd
      rcases List.mem_cons.mp hd with rfl | hd
      · exact hp
      · exact h2 d hd
    · exact ⟨[], c :: s, rfl, nofun, .cons hp⟩

theorem Hd.append' {w t : List UInt8} (hw : ∀ c ∈ w, P c) (ht : Hd t P) : Hd (w ++ t) P := by
  cases w with
  | nil => exact ht
  | cons c w => exact .cons (hw c (by simp))
end

namespace JsonText
variable {s s' : List UInt8}

local notation "J" => LPeg Json.body

def WsB (c : UInt8) : Prop := c = 32 ∨ c = 9 ∨ c = 10 ∨ c = 13
def DigitB (c : UInt8) : Prop := 48 ≤ c.toNat ∧ c.toNat ≤ 57

/-! ### White space -/

theorem class_ws : Class Json.body (.subexpression (.orderedChoice (.orderedChoice (.orderedChoice (.terminal 10) (.terminal 9))
    (.terminal 13)) (.terminal 32))) WsB :=
  (((((class_term 10).choice (class_term 9)).choice (class_term 13)).choice (class_term 32)).sub).congr fun c => by
    unfold WsB; constructor
    · rintro (((h | h) | h) | h) <;> simp [h]
    · rintro (h | h | h | h) <;> simp [h]

theorem ok_ws {w : List UInt8} (hw : IsLayout w) (hs : Hd s fun c => ¬ WsB c) : J (.inlined .r_ws) (w ++ s) (some s) :=
  .inl (class_ws.star hw hs)

theorem of_ws (h : J (.inlined .r_ws) s (some s')) : ∃ w, s = w ++ s' ∧ IsLayout w ∧ Hd s' fun c => ¬ WsB c := by
  cases h with
  | inl h => exact class_ws.starSome h

theorem ws_total (s : List UInt8) : ∃ w t, s = w ++ t ∧ IsLayout w ∧ (Hd t fun c => ¬ WsB c) ∧ J (.inlined .r_ws) s (some t) := by
  obtain ⟨w, t, h1, h2, h3⟩ := Class.splits WsB s
  exact ⟨w, t, h1, h2, h3, by rw [h1]; exact ok_ws h2 h3⟩

/-! ### Digits -/

theorem class_digit : Class Json.body (.inlined .r_digit) DigitB := .inl (class_range 48 57)
theorem class_onenine : Class Json.body (.inlined .r_onenine) (fun c => 49 ≤ c.toNat ∧ c.toNat ≤ 57) := .inl (class_range 49 57)

theorem ok_digits {d : List UInt8} (hd : IsDigits d) (hs : Hd s fun c => ¬ DigitB c) : J (.oneOrMore (.inlined .r_digit)) (d ++ s) (some s) := by
  cases d with
  | nil => exact absurd rfl hd.1
  | cons c d => exact .plus_ok (class_digit.1 c _ (hd.2 c (by simp))) (class_digit.star (w := d) (fun x hx => hd.2 x (by simp [hx])) hs)

theorem of_digits (h : J (.oneOrMore (.inlined .r_digit)) s (some s')) : ∃ d, s = d ++ s' ∧ IsDigits d ∧ Hd s' fun c => ¬ DigitB c := by
  cases h with
  | plus_ok h1 h2 =>
    obtain ⟨c, hc, rfl⟩ := class_digit.some h1
    obtain ⟨w, rfl, h3, h4⟩ := class_digit.starSome h2
    refine ⟨c :: w, rfl, ⟨by simp, ?_⟩, h4⟩
    intro x hx
    rcases List.mem_cons.mp hx with rfl | hx
    · exact hc
    · exact h3 x hx

/-! ### Strings -/

def CharB (c : UInt8) : Prop := c ≠ 34 ∧ c ≠ 92

theorem hd_cases (s : List UInt8) (c : UInt8) : (∃ t, s = c :: t) ∨ s.head? ≠ some c := by
  cases s with
  | nil => exact Or.inr (by simp)
  | cons d s =>
    rcases Classical.em (d = c) with rfl | h
    · exact Or.inl ⟨s, rfl⟩
    · exact Or.inr (by simpa using h)

theorem class_char : Class Json.body (.subexpression (.sequence (.notPredicate (.subexpression
    (.orderedChoice (.orderedChoice (.terminal 34) (.subexpression (.sequence (.sequence (.terminal 92)
    (.terminal 92)) (.varName .r_escape)))) (.terminal 92)))) (.inlined .r_ascii))) CharB := by
  constructor
  · intro c s hc
    have n1 : (c :: s).head? ≠ some 34 := by simpa using hc.1
    have n2 : (c :: s).head? ≠ some 92 := by simpa using hc.2
    exact .sub (.seq (.not_ok (.sub (.right (.right (.term_fail n1) (.sub (.seq_fail (.seq_fail (.term_fail n2))))) (.term_fail n2))))
      (.inl (.range_ok (Nat.zero_le _) (by have := c.toNat_lt; omega))))
  · intro s hs
    cases s with
    | nil => exact .sub (.seq (.not_ok (.sub (.right (.right (.term_fail (by simp)) (.sub (.seq_fail (.seq_fail (.term_fail (by simp))))))
        (.term_fail (by simp))))) (.inl (.range_fail nofun)))
    | cons c s =>
      have : c = 34 ∨ c = 92 := by
        have := hs c rfl
        unfold CharB at this
        rcases Classical.em (c = 34) with h | h
        · exact Or.inl h
        · rcases Classical.em (c = 92) with h' | h'
          · exact Or.inr h'
          · exact absurd ⟨h, h'⟩ this
      rcases this with rfl | rfl
      · exact .sub (.seq_fail (.not_fail (.sub (.left (.left .term_ok)))))
      · have esc : ∃ u, LPeg Json.body (.subexpression (.orderedChoice (.orderedChoice (.terminal 34) (.subexpression (.sequence (.sequence (.terminal 92)
            (.terminal 92)) (.varName .r_escape)))) (.terminal 92))) (92 :: s) (some u) := by
          have n1 : ((92 : UInt8) :: s).head? ≠ some 34 := by simp
          rcases hd_cases s 92 with ⟨t, rfl⟩ | hn
          · have : ∃ u, J (.varName .r_escape) t (some u) := by
              have tot : ∃ o, J (.subexpression (.orderedChoice (.orderedChoice (.orderedChoice (.orderedChoice (.orderedChoice
                  (.orderedChoice (.terminal 92) (.terminal 98)) (.terminal 102)) (.terminal 110)) (.terminal 114))
                  (.terminal 116)) (.subexpression (.sequence (.sequence (.sequence (.sequence (.terminal 117) (.inlined
                  .r_hex)) (.inlined .r_hex)) (.inlined .r_hex)) (.inlined .r_hex))))) t o := by
                have tcl : ∀ {e P}, Class Json.body e P → ∀ s, ∃ o, J e s o := by
                  intro e P h s
                  cases s with
                  | nil => exact ⟨_, h.2 [] .nil⟩
                  | cons c s =>
                    rcases Classical.em (P c) with hc | hc
                    · exact ⟨_, h.1 c s hc⟩
                    · exact ⟨_, h.2 _ (.cons hc)⟩
                have tch : ∀ {a b}, (∀ s, ∃ o, J a s o) → (∀ s, ∃ o, J b s o) → ∀ s, ∃ o, J (.orderedChoice a b) s o := by
                  intro a b ha hb s
                  obtain ⟨o, h1⟩ := ha s
                  cases o with
                  | none => obtain ⟨o, h2⟩ := hb s; exact ⟨o, .right h1 h2⟩
                  | some u => exact ⟨_, .left h1⟩
                have tsq : ∀ {a b}, (∀ s, ∃ o, J a s o) → (∀ s, ∃ o, J b s o) → ∀ s, ∃ o, J (.sequence a b) s o := by
                  intro a b ha hb s
                  obtain ⟨o, h1⟩ := ha s
                  cases o with
                  | none => exact ⟨_, .seq_fail h1⟩
                  | some u => obtain ⟨o, h2⟩ := hb u; exact ⟨o, .seq h1 h2⟩
                have tsub : ∀ {a}, (∀ s, ∃ o, J a s o) → ∀ s, ∃ o, J (.subexpression a) s o := fun ha s => by
                  obtain ⟨o, h⟩ := ha s; exact ⟨o, .sub h⟩
                have thex : ∀ s, ∃ o, J (.inlined .r_hex) s o := fun s => by
                  obtain ⟨o, h⟩ := tch (tcl (class_range 48 57)) (tcl (class_range 65 70)) s; exact ⟨o, .inl h⟩
                exact tsub (tch (tch (tch (tch (tch (tch (tcl (class_term 92)) (tcl (class_term 98))) (tcl (class_term 102))) (tcl (class_term 110)))
                  (tcl (class_term 114))) (tcl (class_term 116))) (tsub (tsq (tsq (tsq (tsq (tcl (class_term 117)) thex) thex) thex) thex))) t
              obtain ⟨o, ho⟩ := tot
              cases o with
              | none => exact ⟨_, .ref (.opt_none ho)⟩
              | some u => exact ⟨_, .ref (.opt_some ho)⟩
            obtain ⟨u, hu⟩ := this
            exact ⟨u, .sub (.left (.right (.term_fail n1) (.sub (.seq (.seq .term_ok .term_ok) hu))))⟩
          · exact ⟨s, .sub (.right (.right (.term_fail n1) (.sub (.seq_fail (.seq .term_ok (.term_fail hn))))) .term_ok)⟩
        obtain ⟨u, hu⟩ := esc
        exact .sub (.seq_fail (.not_fail hu))

theorem ok_string {x : List UInt8} (hx : IsString x) : J (.varName .r_sstring) (x ++ s) (some s) := by
  obtain ⟨t, rfl, ht⟩ := hx
  have h1 := class_char.star (s := 34 :: s) ht (.cons fun h => h.1 rfl)
  have e : 34 :: (t ++ [34]) ++ s = 34 :: (t ++ 34 :: s) := by simp
  rw [e]
  exact .ref (.seq (.seq .term_ok h1) .term_ok)

theorem of_string (h : J (.varName .r_sstring) s (some s')) : ∃ x, s = x ++ s' ∧ IsString x := by
  cases h with
  | ref h =>
    cases h with
    | seq h h3 =>
      cases h with
      | seq h1 h2 =>
        cases h1
        obtain ⟨w, rfl, h4, h5⟩ := class_char.starSome h2
        cases h3
        exact ⟨34 :: (w ++ [34]), by simp, w, rfl, h4⟩

theorem bad_string (hs : s.head? ≠ some 34) : J (.varName .r_sstring) s none := .ref (.seq_fail (.seq_fail (.term_fail hs)))

end JsonText
end PP
