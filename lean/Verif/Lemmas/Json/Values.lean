import Verif.Lemmas.Json.Lexical

/-! # JSON: numbers and values -/
namespace PP.JsonText
open PP.Gen (Hd)
variable {s s' : List UInt8}
local notation "J" => LPeg Json.body

/-! ### Numbers -/

theorem hd_not_digits {d : List UInt8} (h : IsDigits d) : ∃ c t, d = c :: t ∧ DigitB c ∧ ∀ x ∈ t, DigitB x := by
  cases d with
  | nil => exact absurd rfl h.1
  | cons c t => exact ⟨c, t, rfl, h.2 c (by simp), fun x hx => h.2 x (by simp [hx])⟩

theorem ok_integer {i : List UInt8} (hi : IsInteger i) (hs : Hd s fun c => ¬ DigitB c) : J (.varName .r_integer) (i ++ s) (some s) := by
  obtain ⟨sign, ds, rfl, hsg, hd, hz⟩ := hi
  obtain ⟨c, t, rfl, hc, ht⟩ := hd_not_digits hd
  have body : J (.subexpression (.orderedChoice (.subexpression (.sequence (.inlined .r_onenine) (.oneOrMore (.inlined .r_digit))))
      (.inlined .r_digit))) (c :: (t ++ s)) (some s) := by
    rcases Classical.em (c.toNat = 48) with h0 | h0
    · have hc0 : c = 48 := UInt8.toNat_inj.mp (by simpa using h0)
      subst hc0
      have : t = [] := by have := hz rfl; simpa using this
      subst this
      exact .sub (.right (.sub (.seq_fail (class_onenine.2 _ (.cons (by simp))))) (class_digit.1 _ _ hc))
    · have h19 : 49 ≤ c.toNat ∧ c.toNat ≤ 57 := by have h1 := hc.1; have h2 := hc.2; omega
      cases t with
      | nil => exact .sub (.right (.sub (.seq (class_onenine.1 _ _ h19) (.plus_fail (class_digit.2 _ hs)))) (class_digit.1 _ _ hc))
      | cons d t => exact .sub (.left (.sub (.seq (class_onenine.1 _ _ h19) (ok_digits (d := d :: t) ⟨by simp, ht⟩ hs))))
  rcases hsg with rfl | rfl
  · have : (c :: t ++ s).head? ≠ some 45 := by
      rintro h
      simp only [List.cons_append, List.head?_cons, Option.some.injEq] at h
      subst h
      exact absurd hc.1 (by decide)
    exact .ref (.seq (.opt_none (.term_fail this)) body)
  · exact .ref (.seq (.opt_some .term_ok) body)

theorem of_integer (h : J (.varName .r_integer) s (some s')) : ∃ i, s = i ++ s' ∧ IsInteger i := by
  have hb : ∀ {u}, J (.subexpression (.orderedChoice (.subexpression (.sequence (.inlined .r_onenine) (.oneOrMore (.inlined .r_digit))))
      (.inlined .r_digit))) u (some s') → ∃ ds, u = ds ++ s' ∧ IsDigits ds ∧ (ds.head? = some 48 → ds.length = 1) := by
    intro u h
    cases h with
    | sub h =>
      cases h with
      | left h =>
        cases h with
        | sub h =>
          cases h with
          | seq h1 h2 =>
            obtain ⟨c, hc, rfl⟩ := class_onenine.some h1
            obtain ⟨d, rfl, hd, -⟩ := of_digits h2
            refine ⟨c :: d, rfl, ⟨by simp, ?_⟩, ?_⟩
            · intro x hx
              rcases List.mem_cons.mp hx with rfl | hx
              · have := hc.1; have := hc.2; omega
              · exact hd.2 x hx
            · intro h
              simp only [List.head?_cons, Option.some.injEq] at h
              subst h
              exact absurd hc.1 (by decide)
      | right _ h =>
        obtain ⟨c, hc, rfl⟩ := class_digit.some h
        exact ⟨[c], rfl, ⟨by simp, fun x hx => by rw [List.mem_singleton.mp hx]; exact hc⟩, fun _ => rfl⟩
  cases h with
  | ref h =>
    cases h with
    | seq h1 h2 =>
      cases h1 with
      | opt_some h1 =>
        cases h1
        obtain ⟨ds, rfl, hd, hz⟩ := hb h2
        exact ⟨45 :: ds, rfl, [45], ds, rfl, Or.inr rfl, hd, hz⟩
      | opt_none h1 =>
        obtain ⟨ds, rfl, hd, hz⟩ := hb h2
        exact ⟨ds, rfl, [], ds, rfl, Or.inl rfl, hd, hz⟩

theorem bad_integer (hs : Hd s fun c => c ≠ 45 ∧ ¬ DigitB c) : J (.varName .r_integer) s none :=
  .ref (.seq (.opt_none (.term_fail fun h => (hs _ h).1 rfl)) (.sub (.right (.sub (.seq_fail (class_onenine.2 _ (hs.mono fun c h h' =>
    h.2 ⟨by have := h'.1; omega, h'.2⟩)))) (class_digit.2 _ (hs.mono fun _ h => h.2)))))

theorem ok_fraction {f : List UInt8} (hf : IsFraction f) (hs : Hd s fun c => ¬ DigitB c) : J (.varName .r_fraction) (f ++ s) (some s) := by
  obtain ⟨ds, rfl, hd⟩ := hf
  exact .ref (.sub (.seq .term_ok (ok_digits hd hs)))

theorem of_fraction (h : J (.varName .r_fraction) s (some s')) : ∃ f, s = f ++ s' ∧ IsFraction f := by
  cases h with
  | ref h =>
    cases h with
    | sub h =>
      cases h with
      | seq h1 h2 =>
        cases h1
        obtain ⟨d, rfl, hd, -⟩ := of_digits h2
        exact ⟨46 :: d, rfl, d, rfl, hd⟩

theorem ok_exponent {x : List UInt8} (hx : IsExponent x) (hs : Hd s fun c => ¬ DigitB c) : J (.varName .r_exponent) (x ++ s) (some s) := by
  obtain ⟨e, sign, ds, rfl, he, hsg, hd⟩ := hx
  have h1 : ∀ t, J (.subexpression (.orderedChoice (.terminal 69) (.terminal 101))) (e :: t) (some t) := by
    intro t
    rcases he with rfl | rfl
    · exact .sub (.right (.term_fail (by simp)) .term_ok)
    · exact .sub (.left .term_ok)
  have h2 : J (.varName .r_sign) (sign ++ (ds ++ s)) (some (ds ++ s)) := by
    rcases hsg with rfl | rfl | rfl
    · obtain ⟨c, t, rfl, hc, -⟩ := hd_not_digits hd
      have n1 : c ≠ 43 := by rintro rfl; exact absurd hc.1 (by decide)
      have n2 : c ≠ 45 := by rintro rfl; exact absurd hc.1 (by decide)
      exact .ref (.opt_none (.sub (.right (.term_fail (by simpa using n1)) (.term_fail (by simpa using n2)))))
    · exact .ref (.opt_some (.sub (.left .term_ok)))
    · exact .ref (.opt_some (.sub (.right (.term_fail (by simp)) .term_ok)))
  have e' : e :: (sign ++ ds) ++ s = e :: (sign ++ (ds ++ s)) := by simp
  rw [e']
  exact .ref (.sub (.seq (.seq (h1 _) h2) (ok_digits hd hs)))

theorem of_sign (h2 : J (.varName .r_sign) s (some s')) : ∃ sign, s = sign ++ s' ∧ (sign = [] ∨ sign = [43] ∨ sign = [45]) := by
  cases h2 with
  | ref h2 =>
    cases h2 with
    | opt_some h2 =>
      obtain ⟨c, hc, rfl⟩ := ((class_term 43).choice (class_term 45)).sub.some h2
      exact ⟨[c], rfl, by simpa using hc⟩
    | opt_none h2 => exact ⟨[], rfl, Or.inl rfl⟩

theorem of_opt {x : Expr Json} {P : List UInt8 → Prop} (hx : ∀ {s s'}, J x s (some s') → ∃ v, s = v ++ s' ∧ P v)
    (h : J (.optional x) s (some s')) : ∃ v, s = v ++ s' ∧ (v = [] ∨ P v) := by
  cases h with
  | opt_some h => obtain ⟨e, rfl, he⟩ := hx h; exact ⟨e, rfl, Or.inr he⟩
  | opt_none h => exact ⟨[], rfl, Or.inl rfl⟩

theorem of_exponent (h : J (.varName .r_exponent) s (some s')) : ∃ x, s = x ++ s' ∧ IsExponent x := by
  cases h with
  | ref h =>
    cases h with
    | sub h =>
      cases h with
      | seq h h3 =>
        cases h with
        | seq h1 h2 =>
          obtain ⟨d, rfl, hd, -⟩ := of_digits h3
          obtain ⟨e, he, rfl⟩ := ((class_term 69).choice (class_term 101)).sub.some h1
          obtain ⟨sign, rfl, hsg⟩ := of_sign h2
          exact ⟨e :: (sign ++ d), by simp, e, sign, d, rfl, he.symm, hsg, hd⟩

/-- Bytes that can follow a value. -/
def Follow (c : UInt8) : Prop := WsB c ∨ c = 44 ∨ c = 93 ∨ c = 125

theorem Follow.not {c : UInt8} (h : Follow c) : ¬ DigitB c ∧ c ≠ 46 ∧ c ≠ 101 ∧ c ≠ 69 := by
  rcases h with (rfl | rfl | rfl | rfl) | rfl | rfl | rfl <;> simp [DigitB]

theorem ok_number {n : List UInt8} (hn : IsNumber n) (hs : Hd s Follow) : J (.varName .r_number) (n ++ s) (some s) := by
  obtain ⟨i, f, e, rfl, hi, hf, he⟩ := hn
  have hs' : Hd s fun c => ¬ DigitB c := hs.mono fun _ h => h.not.1
  have h3 : J (.optional (.varName .r_exponent)) (e ++ s) (some s) := by
    rcases he with rfl | he
    · exact .opt_none (.ref (.sub (.seq_fail (.seq_fail (.sub (.right (.term_fail fun h => (hs _ h).not.2.2.2 rfl) (.term_fail fun h => (hs _ h).not.2.2.1 rfl)))))))
    · exact .opt_some (ok_exponent he hs')
  have he' : Hd (e ++ s) fun c => ¬ DigitB c ∧ c ≠ 46 := by
    rcases he with rfl | ⟨x, sg, ds, rfl, hx, -⟩
    · exact hs.mono fun _ h => ⟨h.not.1, h.not.2.1⟩
    · refine .cons ?_
      rcases hx with rfl | rfl <;> simp [DigitB]
  have h2 : J (.optional (.varName .r_fraction)) (f ++ (e ++ s)) (some (e ++ s)) := by
    rcases hf with rfl | hf
    · exact .opt_none (.ref (.sub (.seq_fail (.term_fail fun h => (he' _ h).2 rfl))))
    · exact .opt_some (ok_fraction hf (he'.mono fun _ h => h.1))
  have hf' : Hd (f ++ (e ++ s)) fun c => ¬ DigitB c := by
    rcases hf with rfl | ⟨ds, rfl, -⟩
    · exact he'.mono fun _ h => h.1
    · exact .cons (by simp [DigitB])
  have e' : i ++ (f ++ e) ++ s = i ++ (f ++ (e ++ s)) := by simp
  rw [e']
  exact .ref (.seq (.seq (ok_integer hi hf') h2) h3)

theorem of_number (h : J (.varName .r_number) s (some s')) : ∃ n, s = n ++ s' ∧ IsNumber n := by
  cases h with
  | ref h =>
    cases h with
    | seq h h3 =>
      cases h with
      | seq h1 h2 =>
        obtain ⟨i, rfl, hi⟩ := of_integer h1
        obtain ⟨e, rfl, he⟩ := of_opt of_exponent h3
        obtain ⟨f, rfl, hf⟩ := of_opt of_fraction h2
        exact ⟨i ++ (f ++ e), by simp, i, f, e, rfl, hi, hf, he⟩

theorem bad_number (hs : Hd s fun c => c ≠ 45 ∧ ¬ DigitB c) : J (.varName .r_number) s none := .ref (.seq_fail (.seq_fail (bad_integer hs)))

theorem number_hd {n : List UInt8} (hn : IsNumber n) : ∃ c t, n = c :: t ∧ (c = 45 ∨ DigitB c) := by
  obtain ⟨i, f, e, rfl, ⟨sg, ds, rfl, hs, hd, -⟩, -, -⟩ := hn
  obtain ⟨c, t, rfl, hc, -⟩ := hd_not_digits hd
  rcases hs with rfl | rfl
  · exact ⟨c, _, rfl, Or.inr hc⟩
  · exact ⟨45, _, rfl, Or.inl rfl⟩

/-! ### Which alternative -/

theorem bad_object (hs : s.head? ≠ some 123) : J (.varName .r_object) s none := .ref (.seq_fail (.seq_fail (.term_fail hs)))
theorem bad_array (hs : s.head? ≠ some 91) : J (.varName .r_array) s none := .ref (.seq_fail (.seq_fail (.term_fail hs)))
theorem bad_lit {d s : List UInt8} {c : UInt8} {t} (hd : d = c :: t) (hs : s.head? ≠ some c) : J (.stringTerminal d) s none := by
  refine .str_fail fun h => hs ?_
  subst hd
  cases s with
  | nil => simp at h
  | cons x s => simp at h; simp [h.1]

/-- First bytes of values. -/
def StartB (c : UInt8) : Prop := c = 123 ∨ c = 91 ∨ c = 34 ∨ (c = 45 ∨ DigitB c) ∨ c = 116 ∨ c = 102 ∨ c = 110

theorem StartB.notWs {c : UInt8} (h : StartB c) : ¬ WsB c := by
  rintro (rfl | rfl | rfl | rfl) <;> exact absurd h (by simp [StartB, DigitB])

theorem value_hd {v : List UInt8} (h : IsValue v) : ∃ c t, v = c :: t ∧ StartB c := by
  cases h with
  | emptyObject => exact ⟨_, _, rfl, Or.inl rfl⟩
  | object => exact ⟨_, _, rfl, Or.inl rfl⟩
  | emptyArray => exact ⟨_, _, rfl, Or.inr (Or.inl rfl)⟩
  | array => exact ⟨_, _, rfl, Or.inr (Or.inl rfl)⟩
  | string h => obtain ⟨s, rfl, -⟩ := h; exact ⟨_, _, rfl, Or.inr (Or.inr (Or.inl rfl))⟩
  | number h => obtain ⟨c, t, rfl, hc⟩ := number_hd h; exact ⟨c, t, rfl, Or.inr (Or.inr (Or.inr (Or.inl hc)))⟩
  | true => exact ⟨_, _, rfl, Or.inr (Or.inr (Or.inr (Or.inr (Or.inl rfl))))⟩
  | false => exact ⟨_, _, rfl, Or.inr (Or.inr (Or.inr (Or.inr (Or.inr (Or.inl rfl)))))⟩
  | null => exact ⟨_, _, rfl, Or.inr (Or.inr (Or.inr (Or.inr (Or.inr (Or.inr rfl)))))⟩

theorem bad_value (hs : Hd s fun c => ¬ StartB c) : J (.inlined .r_value) s none := by
  have ne : ∀ c, StartB c → s.head? ≠ some c := fun c hc h => hs c h hc
  refine .inl (.right (.right (.right (.right (.right (.right (bad_object (ne _ ?_)) (bad_array (ne _ ?_))) (bad_string (ne _ ?_)))
    (bad_number (hs.mono ?_))) (.ref (bad_lit rfl (ne _ ?_)))) (.ref (bad_lit rfl (ne _ ?_)))) (.ref (bad_lit rfl (ne _ ?_))))
  · simp [StartB]
  · simp [StartB]
  · simp [StartB]
  · intro c h
    refine ⟨?_, fun hd => h ?_⟩
    · rintro rfl; exact h (by simp [StartB])
    · simp [StartB, hd]
  · simp [StartB]
  · simp [StartB]
  · simp [StartB]

theorem ok_value_string (h : J (.varName .r_sstring) (34 :: s) (some s')) : J (.inlined .r_value) (34 :: s) (some s') :=
  .inl (.left (.left (.left (.left (.right (.right (bad_object (by simp)) (bad_array (by simp))) h)))))
theorem ok_value_number {c : UInt8} (hc : c = 45 ∨ DigitB c) (h : J (.varName .r_number) (c :: s) (some s')) : J (.inlined .r_value) (c :: s) (some s') := by
  have ne : ∀ d : UInt8, ¬ (d = 45 ∨ DigitB d) → (c :: s).head? ≠ some d := by
    intro d hd h
    simp only [List.head?_cons, Option.some.injEq] at h
    subst h
    exact hd hc
  exact .inl (.left (.left (.left (.right (.right (.right (bad_object (ne _ (by simp [DigitB]))) (bad_array (ne _ (by simp [DigitB])))) (bad_string (ne _ (by simp [DigitB])))) h))))
theorem ok_value_true : J (.inlined .r_value) ([116, 114, 117, 101] ++ s) (some s) :=
  .inl (.left (.left (.right (.right (.right (.right (bad_object (by simp)) (bad_array (by simp))) (bad_string (by simp))) (bad_number (.cons (by simp [DigitB])))) (.ref .str_ok))))
theorem ok_value_false : J (.inlined .r_value) ([102, 97, 108, 115, 101] ++ s) (some s) :=
  .inl (.left (.right (.right (.right (.right (.right (bad_object (by simp)) (bad_array (by simp))) (bad_string (by simp))) (bad_number (.cons (by simp [DigitB])))) (.ref (bad_lit rfl (by simp)))) (.ref .str_ok)))
theorem ok_value_null : J (.inlined .r_value) ([110, 117, 108, 108] ++ s) (some s) :=
  .inl (.right (.right (.right (.right (.right (.right (bad_object (by simp)) (bad_array (by simp))) (bad_string (by simp))) (bad_number (.cons (by simp [DigitB])))) (.ref (bad_lit rfl (by simp)))) (.ref (bad_lit rfl (by simp)))) (.ref .str_ok))
theorem ok_value_object (h : J (.varName .r_object) (123 :: s) (some s')) : J (.inlined .r_value) (123 :: s) (some s') :=
  .inl (.left (.left (.left (.left (.left (.left h))))))
theorem ok_value_array (h : J (.varName .r_array) (91 :: s) (some s')) : J (.inlined .r_value) (91 :: s) (some s') :=
  .inl (.left (.left (.left (.left (.left (.right (bad_object (by simp)) h))))))

/-! ### Completeness -/

/-- Where an element ends. -/
def EndB (c : UInt8) : Prop := c = 44 ∨ c = 93 ∨ c = 125
theorem EndB.notWs {c : UInt8} (h : EndB c) : ¬ WsB c := by
  rcases h with rfl | rfl | rfl <;> simp [WsB]

/-- `, x` repeated -/
abbrev more (x : Expr Json) : Expr Json := .zeroOrMore (.subexpression (.sequence (.terminal 44) x))

mutual
theorem ok_value : ∀ {v}, IsValue v → ∀ {s}, Hd s Follow → J (.inlined .r_value) (v ++ s) (some s)
  | _, .emptyObject (w := w) hw, s, hs => by
    have h1 : J (.varName .r_member) (w ++ 125 :: s) none :=
      .ref (.seq_fail (.seq_fail (.seq_fail (.seq_fail (.seq_fail (.seq (ok_ws hw (.cons (by simp [WsB]))) (bad_string (by simp))))))))
    have e : 123 :: (w ++ [125]) ++ s = 123 :: (w ++ 125 :: s) := by simp
    rw [e]
    exact ok_value_object (.ref (.seq (.seq .term_ok (.sub (.right (.sub (.seq_fail h1)) (ok_ws hw (.cons (by simp [WsB])))))) .term_ok))
  | _, .object (m := m) hm, s, hs => by
    obtain ⟨u, h1, h2⟩ := ok_members hm (s := 125 :: s) (.cons (by simp [EndB])) (by simp)
    have e : 123 :: (m ++ [125]) ++ s = 123 :: (m ++ 125 :: s) := by simp
    rw [e]
    exact ok_value_object (.ref (.seq (.seq .term_ok (.sub (.left (.sub (.seq h1 h2))))) .term_ok))
  | _, .emptyArray (w := w) hw, s, hs => by
    have h1 : J (.inlined .r_elements) (w ++ 93 :: s) none :=
      .inl (.seq_fail (.inl (.seq_fail (.seq (ok_ws hw (.cons (by simp [WsB]))) (bad_value (.cons (by simp [StartB, DigitB])))))))
    have e : 91 :: (w ++ [93]) ++ s = 91 :: (w ++ 93 :: s) := by simp
    rw [e]
    exact ok_value_array (.ref (.seq (.seq .term_ok (.sub (.right h1 (ok_ws hw (.cons (by simp [WsB])))))) .term_ok))
  | _, .array (e := e) he, s, hs => by
    obtain ⟨u, h1, h2⟩ := ok_elements he (s := 93 :: s) (.cons (by simp [EndB])) (by simp)
    have e : 91 :: (e ++ [93]) ++ s = 91 :: (e ++ 93 :: s) := by simp
    rw [e]
    exact ok_value_array (.ref (.seq (.seq .term_ok (.sub (.left (.inl (.seq h1 h2))))) .term_ok))
  | _, .string h, s, hs => by
    have h1 := ok_string (s := s) h
    obtain ⟨x, rfl, -⟩ := h
    exact ok_value_string h1
  | _, .number h, s, hs => by
    have h1 := ok_number (s := s) h hs
    obtain ⟨c, t, rfl, hc⟩ := number_hd h
    exact ok_value_number hc h1
  | _, .true, s, hs => ok_value_true
  | _, .false, s, hs => ok_value_false
  | _, .null, s, hs => ok_value_null
theorem ok_element : ∀ {e}, IsElement e → ∀ {s}, Hd s EndB → J (.inlined .r_element) (e ++ s) (some s) ∧
    ∃ t, J (.inlined .r_ws) (e ++ s) (some t) ∧ J (.inlined .r_element) t (some s)
  | _, .mk (w := w) (v := v) (w' := w') hw hv hw', s, hs => by
    have h3 := ok_ws hw' (s := s) (hs.mono fun _ h => h.notWs)
    have h2 := ok_value hv (s := w' ++ s) (Hd.append' (fun c hc => Or.inl (hw' c hc)) (hs.mono fun c h => Or.inr h))
    have hh : Hd (v ++ (w' ++ s)) fun c => ¬ WsB c := by
      obtain ⟨c, t, rfl, hc⟩ := value_hd hv
      exact .cons hc.notWs
    have h1 := ok_ws hw hh
    have e : w ++ (v ++ w') ++ s = w ++ (v ++ (w' ++ s)) := by simp
    rw [e]
    exact ⟨.inl (.seq (.seq h1 h2) h3), _, h1, .inl (.seq (.seq (ok_ws (w := []) nofun hh) h2) h3)⟩
theorem ok_elements : ∀ {e}, IsElements e → ∀ {s}, Hd s EndB → s.head? ≠ some 44 → ∃ u, J (.inlined .r_element) (e ++ s) (some u) ∧ J (more (.inlined .r_element)) u (some s)
  | _, .one he, s, hs, hn => ⟨s, (ok_element he hs).1, .star_stop (.sub (.seq_fail (.term_fail hn)))⟩
  | _, .cons (e := e) (es := es) he hes, s, hs, hn => by
    obtain ⟨u, h1, h2⟩ := ok_elements hes hs hn
    have h3 := (ok_element he (s := 44 :: (es ++ s)) (.cons (by simp [EndB]))).1
    exact ⟨44 :: (es ++ s), by simpa using h3, .star_step (.sub (.seq .term_ok h1)) h2⟩
theorem ok_member : ∀ {m}, IsMember m → ∀ {s}, Hd s EndB → J (.varName .r_member) (m ++ s) (some s)
  | _, .mk (w := w) (s := x) (w' := w') (e := e) hw hx hw' he, s, hs => by
    obtain ⟨t, h5, h6⟩ := (ok_element he hs).2
    have h3 := ok_ws hw' (s := 58 :: (e ++ s)) (.cons (by simp [WsB]))
    have h2 := ok_string (s := w' ++ 58 :: (e ++ s)) hx
    have h1 := ok_ws hw (s := x ++ (w' ++ 58 :: (e ++ s))) (by
      obtain ⟨y, rfl, -⟩ := hx
      exact .cons (by simp [WsB]))
    have h7 := ok_ws (w := []) (s := s) nofun (hs.mono fun _ h => h.notWs)
    have e' : w ++ (x ++ (w' ++ 58 :: e)) ++ s = w ++ (x ++ (w' ++ 58 :: (e ++ s))) := by simp
    rw [e']
    exact .ref (.seq (.seq (.seq (.seq (.seq (.seq h1 h2) h3) .term_ok) h5) h6) h7)
theorem ok_members : ∀ {m}, IsMembers m → ∀ {s}, Hd s EndB → s.head? ≠ some 44 → ∃ u, J (.varName .r_member) (m ++ s) (some u) ∧ J (more (.varName .r_member)) u (some s)
  | _, .one hm, s, hs, hn => ⟨s, ok_member hm hs, .star_stop (.sub (.seq_fail (.term_fail hn)))⟩
  | _, .cons (m := m) (ms := ms) hm hms, s, hs, hn => by
    obtain ⟨u, h1, h2⟩ := ok_members hms hs hn
    have h3 := ok_member hm (s := 44 :: (ms ++ s)) (.cons (by simp [EndB]))
    exact ⟨44 :: (ms ++ s), by simpa using h3, .star_step (.sub (.seq .term_ok h1)) h2⟩
end

/-! ### Soundness -/

/-- `x` reads only things in `P`, on inputs of length at most `n`. -/
def SoundTo (n : Nat) (x : Expr Json) (P : List UInt8 → Prop) : Prop :=
  ∀ s s', s.length ≤ n → J x s (some s') → ∃ v, s = v ++ s' ∧ P v

theorem of_more {n : Nat} {x : Expr Json} {P : List UInt8 → Prop} (hx : SoundTo n x P) {y : Expr Json} {s o} (h : J y s o) :
    y = more x → s.length ≤ n → ∃ (l : List (List UInt8)) (s' : List UInt8), o = some s' ∧ s = (l.map (44 :: ·)).flatten ++ s' ∧ ∀ v ∈ l, P v := by
  induction h with
  | star_stop _ _ => intro he _; cases he; exact ⟨[], _, rfl, rfl, nofun⟩
  | @star_step e s s' o h1 h2 _ ih =>
    intro he hl
    cases he
    cases h1 with
    | sub h1 =>
      cases h1 with
      | seq h3 h4 =>
        cases h3
        obtain ⟨v, rfl, hv⟩ := hx _ _ (by simp at hl; omega) h4
        obtain ⟨l, t, rfl, rfl, hall⟩ := ih rfl (by simp at hl ⊢; omega)
        refine ⟨v :: l, t, rfl, by simp, ?_⟩
        intro y hy
        rcases List.mem_cons.mp hy with rfl | hy
        · exact hv
        · exact hall y hy
  | _ => intro he; cases he

theorem elements_of {e : List UInt8} {l : List (List UInt8)} (he : IsElement e) (hl : ∀ v ∈ l, IsElement v) : IsElements (e ++ (l.map (44 :: ·)).flatten) := by
  induction l generalizing e with
  | nil => simpa using IsElements.one he
  | cons x l ih =>
    have := ih (hl x (by simp)) (fun v hv => hl v (by simp [hv]))
    simpa using IsElements.cons he this

theorem members_of {e : List UInt8} {l : List (List UInt8)} (he : IsMember e) (hl : ∀ v ∈ l, IsMember v) : IsMembers (e ++ (l.map (44 :: ·)).flatten) := by
  induction l generalizing e with
  | nil => simpa using IsMembers.one he
  | cons x l ih =>
    have := ih (hl x (by simp)) (fun v hv => hl v (by simp [hv]))
    simpa using IsMembers.cons he this

theorem element_sound {n : Nat} (h : SoundTo n (.inlined .r_value) IsValue) : SoundTo n (.inlined .r_element) IsElement := by
  intro s s' hl hd
  cases hd with
  | inl hd =>
    cases hd with
    | seq hd h3 =>
      cases hd with
      | seq h1 h2 =>
        obtain ⟨w, rfl, hw, -⟩ := of_ws h1
        obtain ⟨v, rfl, hv⟩ := h _ _ (by simp at hl; omega) h2
        obtain ⟨w', rfl, hw', -⟩ := of_ws h3
        exact ⟨w ++ (v ++ w'), by simp, .mk hw hv hw'⟩

theorem element_pad {w e w' : List UInt8} (hw : IsLayout w) (he : IsElement e) (hw' : IsLayout w') : IsElement (w ++ (e ++ w')) := by
  cases he with
  | @mk a v b ha hv hb =>
    have : w ++ (a ++ (v ++ b) ++ w') = (w ++ a) ++ (v ++ (b ++ w')) := by simp
    rw [this]
    refine .mk ?_ hv ?_
    · exact fun c hc => (List.mem_append.mp hc).elim (hw c) (ha c)
    · exact fun c hc => (List.mem_append.mp hc).elim (hb c) (hw' c)

theorem member_sound {n : Nat} (h : SoundTo n (.inlined .r_value) IsValue) : SoundTo n (.varName .r_member) IsMember := by
  intro s s' hl hd
  cases hd with
  | ref hd =>
    cases hd with
    | seq hd h7 =>
      cases hd with
      | seq hd h6 =>
        cases hd with
        | seq hd h5 =>
          cases hd with
          | seq hd h4 =>
            cases hd with
            | seq hd h3 =>
              cases hd with
              | seq h1 h2 =>
                obtain ⟨w, rfl, hw, -⟩ := of_ws h1
                obtain ⟨x, rfl, hx⟩ := of_string h2
                obtain ⟨w', rfl, hw', -⟩ := of_ws h3
                cases h4
                obtain ⟨a, rfl, ha, -⟩ := of_ws h5
                obtain ⟨e, rfl, he⟩ := element_sound h _ _ (by simp at hl; omega) h6
                obtain ⟨b, rfl, hb, -⟩ := of_ws h7
                exact ⟨w ++ (x ++ (w' ++ 58 :: (a ++ (e ++ b)))), by simp, .mk hw hx hw' (element_pad ha he hb)⟩

theorem value_sound : ∀ n, SoundTo n (.inlined .r_value) IsValue := by
  intro n
  induction n with
  | zero =>
    intro s s' hl hd
    cases s with
    | nil => have := hd.det (bad_value .nil); cases this
    | cons => simp at hl
  | succ n ih =>
    intro s s' hl hd
    have obj : J (.varName .r_object) s (some s') → ∃ v, s = v ++ s' ∧ IsValue v := by
      intro h
      cases h with
      | ref h =>
        cases h with
        | seq h h3 =>
          cases h with
          | seq h1 h2 =>
            cases h1
            have hl' : _ ≤ n := Nat.le_of_succ_le_succ hl
            cases h3
            cases h2 with
            | sub h2 =>
              cases h2 with
              | left h2 =>
                cases h2 with
                | sub h2 =>
                  cases h2 with
                  | seq h4 h5 =>
                    obtain ⟨m, rfl, hm⟩ := member_sound ih _ _ hl' h4
                    obtain ⟨l, t, ht, rfl, hall⟩ := of_more (member_sound ih) h5 rfl (by simp at hl'; omega)
                    cases ht
                    exact ⟨123 :: ((m ++ (l.map (44 :: ·)).flatten) ++ [125]), by simp, .object (members_of hm hall)⟩
              | right _ h2 =>
                obtain ⟨w, rfl, hw, -⟩ := of_ws h2
                exact ⟨123 :: (w ++ [125]), by simp, .emptyObject hw⟩
    have arr : J (.varName .r_array) s (some s') → ∃ v, s = v ++ s' ∧ IsValue v := by
      intro h
      cases h with
      | ref h =>
        cases h with
        | seq h h3 =>
          cases h with
          | seq h1 h2 =>
            cases h1
            have hl' : _ ≤ n := Nat.le_of_succ_le_succ hl
            cases h3
            cases h2 with
            | sub h2 =>
              cases h2 with
              | left h2 =>
                cases h2 with
                | inl h2 =>
                  cases h2 with
                  | seq h4 h5 =>
                    obtain ⟨m, rfl, hm⟩ := element_sound ih _ _ hl' h4
                    obtain ⟨l, t, ht, rfl, hall⟩ := of_more (element_sound ih) h5 rfl (by simp at hl'; omega)
                    cases ht
                    exact ⟨91 :: ((m ++ (l.map (44 :: ·)).flatten) ++ [93]), by simp, .array (elements_of hm hall)⟩
              | right _ h2 =>
                obtain ⟨w, rfl, hw, -⟩ := of_ws h2
                exact ⟨91 :: (w ++ [93]), by simp, .emptyArray hw⟩
    have lit : ∀ {d : List UInt8} {s s'}, J (.stringTerminal d) s (some s') → s = d ++ s' := by
      intro d s s' h
      cases h with
      | str_ok => rfl
    cases hd with
    | inl hd =>
      cases hd with
      | right _ h => cases h with | ref h => exact ⟨_, lit h, .null⟩
      | left hd =>
        cases hd with
        | right _ h => cases h with | ref h => exact ⟨_, lit h, .false⟩
        | left hd =>
          cases hd with
          | right _ h => cases h with | ref h => exact ⟨_, lit h, .true⟩
          | left hd =>
            cases hd with
            | right _ h => obtain ⟨v, h1, h2⟩ := of_number h; exact ⟨v, h1, .number h2⟩
            | left hd =>
              cases hd with
              | right _ h => obtain ⟨v, h1, h2⟩ := of_string h; exact ⟨v, h1, .string h2⟩
              | left hd =>
                cases hd with
                | right _ h => exact arr h
                | left h => exact obj h

/-- The whole text. -/
theorem json_whole (s : List UInt8) : J (.varName .r_json) s (some []) ↔ IsJson s := by
  constructor
  · intro h
    cases h with
    | ref h =>
      obtain ⟨v, h1, h2⟩ := element_sound (value_sound s.length) _ _ (Nat.le_refl _) h
      rw [h1, List.append_nil]
      exact h2
  · intro h
    have := (ok_element h (s := []) .nil).1
    rw [List.append_nil] at this
    exact .ref this

end PP.JsonText
