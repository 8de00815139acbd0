import Verif.Lemmas.Gen.ReadGrammar
import Verif.Lemmas.PegFacts

/-! # Whatever the DSL parser accepts was written -/
namespace PP.Gen

/-- `s` stands at `p..q`. -/
def Cut (src : Source) (p q : Nat) (s : Bytes) : Prop :=
  ∃ t, src.bytes.drop p = s ++ t ∧ q = p + s.length ∧ q ≤ src.bytes.length

abbrev PG (src : Source) (e : Expr Dsl) (p q : Nat) : Prop := Peg Dsl.body src e p true q

section
variable {src : Source} {p q r : Nat} {e a b : Expr Dsl} {s t : Bytes}

theorem Cut.nil (h : p ≤ src.bytes.length) : Cut src p p [] := ⟨_, rfl, rfl, h⟩
theorem Cut.append (h1 : Cut src p q s) (h2 : Cut src q r t) : Cut src p r (s ++ t) := by
  obtain ⟨x, e1, rfl, l1⟩ := h1
  obtain ⟨y, e2, rfl, l2⟩ := h2
  refine ⟨y, ?_, by simp; omega, l2⟩
  have : src.bytes.drop (p + s.length) = x := by rw [← List.drop_drop, e1]; simp
  rw [e1, ← this, e2]; simp
theorem Cut.cons {c : UInt8} (h1 : Cut src p q [c]) (h2 : Cut src q r t) : Cut src p r (c :: t) := h1.append h2
theorem Cut.end (h : Cut src p q s) : q = p + s.length := by obtain ⟨_, _, h, _⟩ := h; exact h
theorem Cut.byte {c : UInt8} (h : src.bytes[p]? = some c) : Cut src p (p + 1) [c] := by
  obtain ⟨hlt, he⟩ := List.getElem?_eq_some_iff.mp h
  refine ⟨src.bytes.drop (p + 1), ?_, rfl, hlt⟩
  rw [List.drop_eq_getElem_cons hlt, he]; rfl
theorem Cut.get {c : UInt8} (h : Cut src p q (c :: s)) : src.bytes[p]? = some c := by
  obtain ⟨t, h1, _, _⟩ := h
  have := congrArg (fun l => l[0]?) h1
  simpa using this

theorem peg_le {e : Expr Dsl} {p b q} (h : Peg Dsl.body src e p b q) : p ≤ q := by
  induction h <;> omega

theorem PG.seq (h : PG src (.sequence a b) p r) : ∃ q, PG src a p q ∧ PG src b q r := by
  cases h with | seq_ok h1 h2 => exact ⟨_, h1, h2⟩
theorem PG.choice (h : PG src (.orderedChoice a b) p q) : PG src a p q ∨ PG src b p q := by
  cases h with
  | choice_left h => exact Or.inl h
  | choice_right _ h => exact Or.inr h
theorem PG.sub (h : PG src (.subexpression e) p q) : PG src e p q := by cases h with | sub_ok h => exact h
theorem PG.inl {x : Dsl} (h : PG src (.inlined x) p q) : PG src (Dsl.body x) p q := by cases h with | inl h => exact h
theorem PG.ref {x : Dsl} (h : PG src (.varName x) p q) : PG src (Dsl.body x) p q := by cases h with | ref h => exact h
theorem PG.term {c : UInt8} (h : PG src (.terminal c) p q) : Cut src p q [c] := by
  cases h with | terminal_ok _ h => exact .byte h
theorem PG.range {lo hi : Nat} (h : PG src (.matchRange lo hi) p q) : ∃ c : UInt8, Cut src p q [c] ∧ lo ≤ c.toNat ∧ c.toNat ≤ hi := by
  cases h with | range_ok _ h h1 h2 => exact ⟨_, .byte h, h1, h2⟩
theorem PG.plus (h : PG src (.oneOrMore e) p r) : ∃ q, PG src e p q ∧ PG src (.zeroOrMore e) q r := by
  cases h with | plus_ok h1 h2 => exact ⟨_, h1, h2⟩
theorem PG.not (h : PG src (.notPredicate e) p q) : q = p ∧ ∃ q', Peg Dsl.body src e p false q' := by
  cases h with | not_ok h1 => exact ⟨rfl, _, h1⟩
theorem PG.opt (h : PG src (.optional e) p q) : PG src e p q ∨ (q = p ∧ ∃ q', Peg Dsl.body src e p false q') := by
  cases h with
  | opt_some h => exact Or.inl h
  | opt_none h => exact Or.inr ⟨rfl, _, h⟩

theorem PG.star {M : Nat → Nat → Prop} (stop : ∀ p q', Peg Dsl.body src e p false q' → M p p)
    (step : ∀ p q r, PG src e p q → PG src (.zeroOrMore e) q r → M q r → M p r) (h : PG src (.zeroOrMore e) p q) : M p q := by
  have key : ∀ {x : Expr Dsl} {p b q}, Peg Dsl.body src x p b q → x = .zeroOrMore e → b = true → M p q := by
    intro x p b q h
    induction h with
    | star_stop hf => intro h1 _; injection h1 with h1; subst h1; exact stop _ _ hf
    | star_step h1 h3 _ ih => intro h2 _; injection h2 with h2; subst h2; exact step _ _ _ h1 h3 (ih rfl rfl)
    | _ => intro h1 h2; first | cases h1 | cases h2
  exact key h rfl rfl

/-- An expression that reads one byte of a class. -/
def One (src : Source) (e : Expr Dsl) (P : UInt8 → Prop) : Prop := ∀ p q, PG src e p q → ∃ c, Cut src p q [c] ∧ P c

theorem One.term {c : UInt8} : One src (.terminal c) (· = c) := fun _ _ h => ⟨c, h.term, rfl⟩
theorem One.range {lo hi : Nat} : One src (.matchRange lo hi) (fun c => lo ≤ c.toNat ∧ c.toNat ≤ hi) := fun _ _ h => h.range
theorem One.choice {P Q} (h1 : One src a P) (h2 : One src b Q) : One src (.orderedChoice a b) (fun c => P c ∨ Q c) := by
  intro p q h
  rcases h.choice with h | h
  · obtain ⟨c, h, hc⟩ := h1 _ _ h; exact ⟨c, h, Or.inl hc⟩
  · obtain ⟨c, h, hc⟩ := h2 _ _ h; exact ⟨c, h, Or.inr hc⟩
theorem One.sub {P} (h : One src e P) : One src (.subexpression e) P := fun _ _ h1 => h _ _ h1.sub
theorem One.inl {x : Dsl} {P} (h : One src (Dsl.body x) P) : One src (.inlined x) P := fun _ _ h1 => h _ _ h1.inl
theorem One.ref {x : Dsl} {P} (h : One src (Dsl.body x) P) : One src (.varName x) P := fun _ _ h1 => h _ _ h1.ref
theorem One.star {P} (h1 : One src e P) (hp : p ≤ src.bytes.length) (h : PG src (.zeroOrMore e) p q) :
    ∃ w, Cut src p q w ∧ ∀ c ∈ w, P c := by
  refine PG.star (M := fun p q => p ≤ src.bytes.length → ∃ w, Cut src p q w ∧ ∀ c ∈ w, P c) ?_ ?_ h hp
  · intro p _ _ hp; exact ⟨[], .nil hp, by simp⟩
  · intro p q r h2 _ ih hp
    obtain ⟨c, hc, hP⟩ := h1 _ _ h2
    obtain ⟨w, hw, hPw⟩ := ih (by obtain ⟨_, _, _, h⟩ := hc; exact h)
    exact ⟨c :: w, hc.cons hw, by simpa [hP] using hPw⟩

theorem Cut.le (h : Cut src p q s) : q ≤ src.bytes.length := by obtain ⟨_, _, _, h⟩ := h; exact h

/-- The byte at `p`, if any, is not white space. -/
def NW (src : Source) (p : Nat) : Prop := ∀ c, src.bytes[p]? = some c → ¬ WsByte c

theorem small_len (hsm : src.bytes.length < 4294967296) : src.len = src.bytes.length := by
  unfold Source.len; exact Nat.mod_eq_of_lt hsm

def wsExpr : Expr Dsl := .subexpression (.orderedChoice (.orderedChoice (.orderedChoice (.terminal 32) (.terminal 10))
    (.terminal 13)) (.terminal 9))

theorem one_ws : One src wsExpr WsByte := by
  intro p q h
  obtain ⟨c, hc, hh⟩ := (One.sub (One.choice (One.choice (One.choice One.term One.term) One.term) One.term)) p q h
  refine ⟨c, hc, ?_⟩
  unfold WsByte; rcases hh with ((h | h) | h) | h <;> simp [h]

theorem ws_inv (hsm : src.bytes.length < 4294967296) (hp : p ≤ src.bytes.length) (h : PG src (.inlined .r_whitespace) p q) :
    ∃ w, IsWs w ∧ Cut src p q w ∧ NW src q := by
  have h : PG src (.zeroOrMore wsExpr) p q := h.inl
  obtain ⟨w, hw, hP⟩ := one_ws.star hp h
  refine ⟨w, hP, hw, ?_⟩
  refine PG.star (M := fun p q => NW src q) ?_ (fun _ _ _ _ _ h => h) h
  intro p q' hf c hc hw
  have hlt : p < src.len := by rw [small_len hsm]; exact (List.getElem?_eq_some_iff.mp hc).1
  have hf0 : Peg Dsl.body src (.subexpression (.orderedChoice (.orderedChoice (.orderedChoice (.terminal 32) (.terminal 10))
    (.terminal 13)) (.terminal 9))) p false q' := hf
  cases hf0 with | sub_fail hf1 =>
  cases hf1 with | choice_fail hg h4 =>
  cases hg with | choice_fail hk h3 =>
  cases hk with | choice_fail h1 h2 =>
  cases h1 with | terminal_fail h1 =>
  cases h2 with | terminal_fail h2 =>
  cases h3 with | terminal_fail h3 =>
  cases h4 with | terminal_fail h4 =>
  rcases hw with rfl | rfl | rfl | rfl
  · exact h1 ⟨hlt, hc⟩
  · exact h2 ⟨hlt, hc⟩
  · exact h3 ⟨hlt, hc⟩
  · exact h4 ⟨hlt, hc⟩

theorem ws_nil (hnw : NW src p) {w : Bytes} (hw : IsWs w) (h : Cut src p q w) : w = [] := by
  cases w with
  | nil => rfl
  | cons c w => exact absurd (hw c (by simp)) (hnw c h.get)

theorem name_inv (h : PG src (.inlined .r_var_name) p q) : ∃ nm, IsName nm ∧ Cut src p q nm := by
  obtain ⟨m, h1, h2⟩ := PG.seq h.inl
  obtain ⟨c, hc, hl⟩ := (One.sub (One.choice (One.inl (x := .r_alphabet_lower) One.range)
    (One.inl (x := .r_alphabet_upper) One.range))) _ _ h1
  obtain ⟨w, hw, hP⟩ := (One.sub (One.choice (One.choice (One.inl (x := .r_alphabet_lower) One.range)
    (One.inl (x := .r_alphabet_upper) One.range)) One.term)).star hc.le h2
  exact ⟨c :: w, ⟨hl, hP⟩, hc.cons hw⟩

theorem ch_inv {x : Dsl} {c : UInt8} (hx : Dsl.body x = .terminal c) (h : PG src (.inlined x) p q) : Cut src p q [c] := by
  have := h.inl; rw [hx] at this; exact this.term

theorem angle_inv (h : PG src (.sequence (.sequence (.inlined .r_left_angle_bracket) (.inlined .r_var_name))
    (.inlined .r_right_angle_bracket)) p q) : ∃ nm, IsName nm ∧ Cut src p q (60 :: (nm ++ [62])) := by
  obtain ⟨m, h1, h3⟩ := h.seq
  obtain ⟨m', h1, h2⟩ := h1.seq
  have c1 := ch_inv (c := 60) rfl h1
  obtain ⟨nm, hn, c2⟩ := name_inv h2
  exact ⟨nm, hn, c1.cons (c2.append (ch_inv (c := 62) rfl h3))⟩

theorem hex_inv (h : PG src (.varName .r_hex) p q) : ∃ ds, IsHex ds ∧ Cut src p q (hexText ds) := by
  obtain ⟨m, h1, h3⟩ := PG.seq h.ref
  obtain ⟨m', h1, h2⟩ := h1.seq
  obtain ⟨m2, h4, h5⟩ := h3.plus
  have one : One src (.varName .r_hexval) IsHexDigit := One.ref (x := .r_hexval) (One.choice One.range One.range)
  obtain ⟨d, hd, hP⟩ := one _ _ h4
  obtain ⟨w, hw, hPw⟩ := one.star hd.le h5
  refine ⟨d :: w, ⟨by simp, ?_⟩, h1.term.cons (h2.term.cons (hd.cons hw))⟩
  intro x hx; rcases List.mem_cons.mp hx with rfl | hx
  · exact hP
  · exact hPw x hx

theorem int_inv (h : PG src (.varName .r_integer) p q) : ∃ ds, IsInt ds ∧ Cut src p q ds := by
  obtain ⟨m, h1, h3⟩ := PG.seq h.ref
  obtain ⟨d, hd, hP⟩ := One.ref (x := .r_numnozero) One.range _ _ h1
  obtain ⟨w, hw, hPw⟩ := (One.ref (x := .r_num) One.range).star hd.le h3
  exact ⟨d :: w, ⟨hP, hPw⟩, hd.cons hw⟩

theorem terminal_inv (h : PG src (.varName .r_terminal) p q) : ∃ t : DTerm, t.WF ∧ Cut src p q t.text := by
  rcases PG.choice h.ref with h | h
  · rcases h.choice with h | h
    · obtain ⟨m, h1, h3⟩ := h.sub.seq
      obtain ⟨m', h1, h2⟩ := h1.seq
      obtain ⟨c, hc, _⟩ := One.ref (x := .r_ascii) One.range _ _ h2
      exact ⟨.chr c, trivial, (ch_inv rfl h1).cons (hc.cons (ch_inv rfl h3))⟩
    · obtain ⟨m, h1, h4⟩ := h.sub.seq
      obtain ⟨m', h1, h3⟩ := h1.seq
      obtain ⟨m'', h1, h2⟩ := h1.seq
      obtain ⟨c, hc, hP⟩ := One.sub (One.choice (One.choice One.term One.term) One.term) _ _ h3
      exact ⟨.esc c, by rcases hP with (h | h) | h <;> simp [DTerm.WF, h], (ch_inv rfl h1).cons (h2.term.cons (hc.cons (ch_inv rfl h4)))⟩
  · obtain ⟨m, h1, h2⟩ := PG.seq h.ref
    exact ⟨.eps, trivial, (ch_inv rfl h1).cons (ch_inv rfl h2)⟩

theorem bound_inv (h : PG src (.subexpression (.orderedChoice (.orderedChoice (.varName .r_terminal) (.varName .r_integer))
    (.varName .r_hex))) p q) : ∃ b : DBound, b.WF ∧ Cut src p q b.text := by
  rcases h.sub.choice with h | h
  · rcases h.choice with h | h
    · obtain ⟨t, ht, hc⟩ := terminal_inv h; exact ⟨.term t, ht, hc⟩
    · obtain ⟨t, ht, hc⟩ := int_inv h; exact ⟨.int t, ht, hc⟩
  · obtain ⟨t, ht, hc⟩ := hex_inv h; exact ⟨.hex t, ht, hc⟩

/-- `!'c', <ASCII>` reads a byte other than `c`. -/
theorem one_not (hsm : src.bytes.length < 4294967296) {c : UInt8} {x : Expr Dsl}
    (hx : ∀ p q', Peg Dsl.body src x p false q' → ¬ (p < src.len ∧ src.bytes[p]? = some c)) :
    One src (.subexpression (.sequence (.notPredicate x) (.varName .r_ascii))) (· ≠ c) := by
  intro p q h
  obtain ⟨m, h1, h2⟩ := h.sub.seq
  obtain ⟨rfl, q', hf⟩ := h1.not
  obtain ⟨d, hd, _⟩ := One.ref (x := .r_ascii) One.range _ _ h2
  refine ⟨d, hd, ?_⟩
  rintro rfl
  exact hx _ _ hf ⟨by rw [small_len hsm]; exact (List.getElem?_eq_some_iff.mp hd.get).1, hd.get⟩

theorem apos_false {q'} (h : Peg Dsl.body src (.inlined .r_apostrophe) p false q') : ¬ (p < src.len ∧ src.bytes[p]? = some 34) := by
  cases h with | inl h1 =>
  have h2 : Peg Dsl.body src (.terminal 34) p false q' := h1
  cases h2 with | terminal_fail h3 => exact h3
theorem hash_false {q'} (h : Peg Dsl.body src (.terminal 35) p false q') : ¬ (p < src.len ∧ src.bytes[p]? = some 35) := by
  cases h with | terminal_fail h => exact h

theorem string_inv (hsm : src.bytes.length < 4294967296) (h : PG src (.varName .r_stringterminal) p q) :
    ∃ t : DStr, t.WF ∧ Cut src p q t.text := by
  rcases PG.choice h.ref with h | h
  · rcases h.choice with h | h
    · obtain ⟨m, h1, h4⟩ := h.sub.seq
      obtain ⟨m', h1, h3⟩ := h1.seq
      obtain ⟨m'', h1, h2⟩ := h1.seq
      obtain ⟨rfl, q', hf⟩ := h2.not
      obtain ⟨k, h5, h6⟩ := h3.sub.seq
      obtain ⟨k', h6, h7⟩ := h6.plus
      have one := one_not (src := src) hsm (c := 34) (x := .inlined .r_apostrophe) (fun _ _ h => apos_false h)
      obtain ⟨c, hc, _⟩ := One.ref (x := .r_ascii) One.range _ _ h5
      obtain ⟨d, hd, hd'⟩ := one _ _ h6
      obtain ⟨w, hw, hw'⟩ := one.star hd.le h7
      have hc' : c ≠ 34 := by
        rintro rfl
        exact apos_false hf ⟨by rw [small_len hsm]; exact (List.getElem?_eq_some_iff.mp hc.get).1, hc.get⟩
      refine ⟨.quoted (c :: d :: w), ⟨by simp, ?_⟩, ?_⟩
      · intro x hx; simp at hx
        rcases hx with rfl | rfl | hx
        · exact hc'
        · exact hd'
        · exact hw' x hx
      · exact (ch_inv rfl h1).cons (hc.cons (hd.cons (hw.append (ch_inv rfl h4))))
    · obtain ⟨t, ht, hc⟩ := hex_inv h; exact ⟨.hex t, ht, hc⟩
  · obtain ⟨t, ht, hc⟩ := int_inv h; exact ⟨.int t, ht, hc⟩

/-- Right-hand sides shorter than `n` were written. -/
def RhsInv (src : Source) (n : Nat) : Prop :=
  ∀ p q, p ≤ src.bytes.length → q - p < n → PG src (.varName .r_rhs) p q →
    ∃ r : DRhs, r.WF ∧ Cut src p q r.text ∧ NW src q

variable (hsm : src.bytes.length < 4294967296)
include hsm

theorem core_inv {n : Nat} (ih : RhsInv src n) (hp : p ≤ src.bytes.length) (hn : q - p ≤ n) (h : PG src coreExpr p q) :
    ∃ (c : DCore) (w : Bytes), c.WF ∧ IsWs w ∧ Cut src p q (c.text ++ w) ∧ (NW src p → c.lead = []) ∧
      (w = [] ∨ NW src q) := by
  have h := h.sub
  rcases h.choice with h | h
  · rcases h.choice with h | h
    · rcases h.choice with h | h
      · rcases h.choice with h | h
        · rcases h.choice with h | h
          · obtain ⟨m9, h, h10⟩ := PG.seq h.ref
            obtain ⟨m8, h, h9⟩ := h.seq
            obtain ⟨m7, h, h8⟩ := h.seq
            obtain ⟨m6, h, h7⟩ := h.seq
            obtain ⟨m5, h, h6⟩ := h.seq
            obtain ⟨m4, h, h5⟩ := h.seq
            obtain ⟨m3, h, h4⟩ := h.seq
            obtain ⟨m2, h, h3⟩ := h.seq
            obtain ⟨m1, h1, h2⟩ := h.seq
            obtain ⟨w0, hw0, c1, _⟩ := ws_inv hsm hp h1
            have c2 := h2.term
            obtain ⟨w1, hw1, c3, _⟩ := ws_inv hsm c2.le h3
            obtain ⟨lo, hlo, c4⟩ := bound_inv h4
            have c5 := h5.term
            have c6 := h6.term
            obtain ⟨hi, hhi, c7⟩ := bound_inv h7
            obtain ⟨w2, hw2, c8, _⟩ := ws_inv hsm c7.le h8
            have c9 := h9.term
            obtain ⟨w, hw, c10, hnw⟩ := ws_inv hsm c9.le h10
            refine ⟨.range w0 w1 lo hi w2, w, ⟨hw0, hw1, hlo, hhi, hw2⟩, hw, ?_, fun hn => ws_nil hn hw0 c1, Or.inr hnw⟩
            have := c1.append (c2.cons (c3.append (c4.append (c5.cons (c6.cons (c7.append (c8.append (c9.append c10))))))))
            simpa [DCore.text] using this
          · obtain ⟨m3, h, h4⟩ := PG.seq h.ref
            obtain ⟨m2, h, h3⟩ := h.seq
            obtain ⟨m1, h1, h2⟩ := h.seq
            obtain ⟨nm, hnm, c1⟩ := name_inv h1
            have c2 := ch_inv (c := 40) rfl h2
            have c4 := ch_inv (c := 41) rfl h4
            obtain ⟨r, hr, c3, _⟩ := ih _ _ c2.le (by have := c1.end; have := c2.end; have := c4.end; have := peg_le h3; simp at *; omega) h3
            refine ⟨.hook nm r, [], ⟨hnm, hr⟩, fun _ h => by simp at h, ?_, fun _ => rfl, Or.inl rfl⟩
            have := c1.append (c2.cons (c3.append c4))
            simpa [DCore.text] using this
        · obtain ⟨m2, h, h3⟩ := PG.seq h.ref
          obtain ⟨m1, h1, h2⟩ := h.seq
          have c1 := ch_inv (c := 40) rfl h1
          have c3 := ch_inv (c := 41) rfl h3
          obtain ⟨r, hr, c2, _⟩ := ih _ _ c1.le (by have := c1.end; have := c3.end; have := peg_le h2; simp at *; omega) h2
          refine ⟨.sub r, [], hr, fun _ h => by simp at h, ?_, fun _ => rfl, Or.inl rfl⟩
          have := c1.cons (c2.append c3)
          simpa [DCore.text] using this
      · obtain ⟨t, ht, hc⟩ := terminal_inv h
        exact ⟨.term t, [], ht, fun _ h => by simp at h, by simpa [DCore.text] using hc, fun _ => rfl, Or.inl rfl⟩
    · obtain ⟨t, ht, hc⟩ := string_inv hsm h
      exact ⟨.str t, [], ht, fun _ h => by simp at h, by simpa [DCore.text] using hc, fun _ => rfl, Or.inl rfl⟩
  · obtain ⟨nm, hn, hc⟩ := angle_inv h.ref
    exact ⟨.ref nm, [], hn, fun _ h => by simp at h, by simpa [DCore.text] using hc, fun _ => rfl, Or.inl rfl⟩

theorem nuc_inv {n : Nat} (ih : RhsInv src n) (hp : p ≤ src.bytes.length) (hn : q - p ≤ n)
    (h : PG src (.varName .r_nucleus) p q) :
    ∃ u : DNuc, u.WF ∧ Cut src p q u.text ∧ NW src q ∧ (NW src p → u.lead = []) := by
  obtain ⟨m, h1, h2⟩ := PG.seq h.ref
  have hle : m ≤ q := by
    obtain ⟨us, h2⟩ := h2.pegT
    have key : ∀ {e : Expr Dsl} {p b q us}, PegT Dsl.body src e p b q us → p ≤ q := by
      intro e p b q us h
      induction h <;> omega
    exact key h2
  obtain ⟨c, w, hc, hw, hcut, hlead, hor⟩ := core_inv hsm ih hp (by omega) h1
  obtain ⟨w', hw', hcut', hnw⟩ := ws_inv hsm hcut.le h2
  refine ⟨.mk c (w ++ w'), ⟨hc, ?_⟩, ?_, hnw, hlead⟩
  · intro d hd; rcases List.mem_append.mp hd with hd | hd
    · exact hw d hd
    · exact hw' d hd
  · have := hcut.append hcut'
    simpa [DNuc.text] using this

theorem post_inv {n : Nat} (o : PostOp) (ih : RhsInv src n) (hp : p ≤ src.bytes.length) (hn : q - p ≤ n)
    (h : PG src (.varName o.rule) p q) :
    ∃ u : DNuc, u.WF ∧ Cut src p q (u.text ++ [o.byte]) ∧ (NW src p → u.lead = []) := by
  obtain ⟨y, hb, hy⟩ := post_body o
  have h := h.ref
  rw [hb] at h
  obtain ⟨m2, h, h3⟩ := h.seq
  obtain ⟨m1, h1, h2⟩ := h.seq
  have c3 := ch_inv hy h3
  have hle : m1 ≤ m2 := by
    have key : ∀ {e : Expr Dsl} {p b q us}, PegT Dsl.body src e p b q us → p ≤ q := by
      intro e p b q us h
      induction h <;> omega
    obtain ⟨us, h2⟩ := h2.pegT
    exact key h2
  obtain ⟨u, hu, c1, hnw, hl⟩ := nuc_inv hsm ih hp (by have := c3.end; simp at this; omega) h1
  obtain ⟨w, hw, c2, _⟩ := ws_inv hsm c1.le h2
  have := ws_nil hnw hw c2
  subst this
  have e : m2 = m1 := by simpa using c2.end
  subst e
  exact ⟨u, hu, c1.append c3, hl⟩

theorem pre_inv {n : Nat} (o : PreOp) (ih : RhsInv src n) (_hp : p ≤ src.bytes.length) (hn : q - p ≤ n)
    (h : PG src (.varName o.rule) p q) : ∃ u : DNuc, u.WF ∧ Cut src p q (o.byte :: u.text) ∧ NW src q := by
  cases o
  all_goals
    obtain ⟨m, h1, h2⟩ := PG.seq h.ref
    have c1 := ch_inv rfl h1
    obtain ⟨u, hu, c2, hnw, _⟩ := nuc_inv hsm ih c1.le (by have := c1.end; simp at this; omega) h2
    exact ⟨u, hu, c1.cons c2, hnw⟩

theorem atom_inv {n : Nat} (ih : RhsInv src n) (hp : p ≤ src.bytes.length) (hn : q - p ≤ n) (hnw : NW src p)
    (h : PG src (.varName .r_atom) p q) :
    ∃ a : DAtom, a.WF ∧ Cut src p q a.text ∧ NW src q := by
  obtain ⟨m, h1, h2⟩ := PG.seq h.ref
  have hle : m ≤ q := by
    obtain ⟨us, h2⟩ := h2.pegT
    have key : ∀ {e : Expr Dsl} {p b q us}, PegT Dsl.body src e p b q us → p ≤ q := by
      intro e p b q us h
      induction h <;> omega
    exact key h2
  have post : ∀ o : PostOp, PG src (.varName o.rule) p m → ∃ a : DAtom, a.WF ∧ Cut src p q a.text ∧ NW src q := by
    intro o h
    obtain ⟨u, hu, c1, hl⟩ := post_inv hsm o ih hp (by omega) h
    obtain ⟨w, hw, c2, hnw'⟩ := ws_inv hsm c1.le h2
    refine ⟨.post o u w, ⟨hu, hl hnw, hw⟩, ?_, hnw'⟩
    have := c1.append c2
    simpa [DAtom.text] using this
  have pre : ∀ o : PreOp, PG src (.varName o.rule) p m → ∃ a : DAtom, a.WF ∧ Cut src p q a.text ∧ NW src q := by
    intro o h
    obtain ⟨u, hu, c1, hnw1⟩ := pre_inv hsm o ih hp (by omega) h
    obtain ⟨w, hw, c2, hnw'⟩ := ws_inv hsm c1.le h2
    have := ws_nil hnw1 hw c2
    subst this
    exact ⟨.pre o u, hu, by have := c1.append c2; simpa [DAtom.text] using this, hnw'⟩
  have h1 := h1.sub
  rcases h1.choice with h | h
  · rcases h.choice with h | h
    · rcases h.choice with h | h
      · rcases h.choice with h | h
        · rcases h.choice with h | h
          · exact pre .and h
          · exact pre .not h
        · exact post .plus h
      · exact post .star h
    · exact post .opt h
  · obtain ⟨u, hu, c1, hnw1, hl⟩ := nuc_inv hsm ih hp (by omega) h
    obtain ⟨w, hw, c2, hnw'⟩ := ws_inv hsm c1.le h2
    have := ws_nil hnw1 hw c2
    subst this
    exact ⟨.plain u, ⟨hu, hl hnw⟩, by have := c1.append c2; simpa [DAtom.text] using this, hnw'⟩

theorem item_inv {n : Nat} (o : ChainOp) (ih : RhsInv src n) (hp : p ≤ src.bytes.length) (hn : q - p ≤ n) (hnw : NW src p)
    (h : PG src (itemExpr o) p q) :
    ∃ w a, IsWs w ∧ DAtom.WF a ∧ Cut src p q (o.byte :: (w ++ a.text)) ∧ NW src q := by
  have go : ∀ m, PG src (.inlined (sepRule o)) p m → (∃ k, PG src (.inlined .r_whitespace) m k ∧ PG src (.varName .r_atom) k q) →
      ∃ w a, IsWs w ∧ DAtom.WF a ∧ Cut src p q (o.byte :: (w ++ a.text)) ∧ NW src q := by
    rintro m h1 ⟨k, h2, h3⟩
    have c1 := ch_inv (sep_body o) h1
    obtain ⟨w, hw, c2, hnw2⟩ := ws_inv hsm c1.le h2
    have := peg_le h1
    have := peg_le h2
    obtain ⟨a, ha, c3, hnw3⟩ := atom_inv hsm ih c2.le (by omega) hnw2 h3
    exact ⟨w, a, hw, ha, c1.cons (c2.append c3), hnw3⟩
  cases o
  · obtain ⟨m2, h, h3⟩ := PG.seq (PG.sub h)
    obtain ⟨m1, h1, h2⟩ := h.seq
    exact go _ h1 ⟨_, h2, h3⟩
  · obtain ⟨m2, h, h3⟩ := PG.seq (PG.sub h)
    obtain ⟨m1, h, h2⟩ := h.seq
    obtain ⟨m0, h0, h1⟩ := h.seq
    obtain ⟨w, hw, c0, _⟩ := ws_inv hsm hp h0
    have := ws_nil hnw hw c0
    subst this
    have e : m0 = p := by simpa using c0.end
    subst e
    exact go _ h1 ⟨_, h2, h3⟩

/-- The items after the second one, as a list. -/
theorem items_inv {n : Nat} (o : ChainOp) (ih : RhsInv src n) (hp : p ≤ src.bytes.length) (hn : q - p ≤ n) (hnw : NW src p)
    (h : PG src (.zeroOrMore (itemExpr o)) p q) :
    NW src q ∧ ((q = p) ∨ ∃ as : DAtoms, as.WF ∧ Cut src p q (as.text o)) := by
  refine PG.star (M := fun p q => p ≤ src.bytes.length → q - p ≤ n → NW src p → p ≤ q ∧ NW src q ∧
    ((q = p) ∨ ∃ as : DAtoms, as.WF ∧ Cut src p q (as.text o))) ?_ ?_ h hp hn hnw |>.2
  · intro p _ _ _ _ hnw; exact ⟨Nat.le_refl _, hnw, Or.inl rfl⟩
  · intro p q r h1 h2 ihs hp hn hnw
    have hle := peg_le h1
    have hle2 := peg_le h2
    obtain ⟨w, a, hw, ha, c1, hnw1⟩ := item_inv hsm o ih hp (by omega) hnw h1
    obtain ⟨hle', hnw2, h2⟩ := ihs c1.le (by omega) hnw1
    refine ⟨by omega, hnw2, Or.inr ?_⟩
    rcases h2 with rfl | ⟨as, has, c2⟩
    · exact ⟨.one w a, ⟨hw, ha⟩, c1⟩
    · refine ⟨.cons w a as, ⟨hw, ha, has⟩, ?_⟩
      have := c1.append c2
      simpa [DAtoms.text] using this

theorem rhs_inv_step {n : Nat} (ih : RhsInv src n) (hp : p ≤ src.bytes.length) (hn : q - p ≤ n) (h : PG src (.varName .r_rhs) p q) :
    ∃ r : DRhs, r.WF ∧ Cut src p q r.text ∧ NW src q := by
  obtain ⟨m, h1, h2⟩ := PG.seq h.ref
  have l1 := peg_le h1
  have l2 := peg_le h2
  obtain ⟨w, hw, c1, hnw1⟩ := ws_inv hsm hp h1
  have chain : ∀ o : ChainOp, PG src (.varName o.rule) m q → ∃ r : DRhs, r.WF ∧ Cut src p q r.text ∧ NW src q := by
    intro o h
    have h := h.ref
    rw [chain_body] at h
    obtain ⟨k5, h, h6⟩ := h.seq
    obtain ⟨k4, h, h5⟩ := h.seq
    obtain ⟨k3, h, h4⟩ := h.seq
    obtain ⟨k2, h, h3⟩ := h.seq
    obtain ⟨k1, h1, h2⟩ := h.seq
    have l1 := peg_le h1
    have l2 := peg_le h2
    have l3 := peg_le h3
    have l4 := peg_le h4
    have l5 := peg_le h5
    have l6 := peg_le h6
    obtain ⟨a, ha, d1, n1⟩ := atom_inv hsm ih c1.le (by omega) hnw1 h1
    obtain ⟨x, hx, d2, _⟩ := ws_inv hsm d1.le h2
    have := ws_nil n1 hx d2
    subst this
    have e : k2 = k1 := by simpa using d2.end
    subst e
    have d3 := ch_inv (sep_body o) h3
    obtain ⟨w2, hw2, d4, n4⟩ := ws_inv hsm d3.le h4
    obtain ⟨a2, ha2, d5, n5⟩ := atom_inv hsm ih d4.le (by omega) n4 h5
    obtain ⟨n6, d6⟩ := items_inv hsm o ih d5.le (by omega) n5 h6
    rcases d6 with rfl | ⟨as, has, d6⟩
    · refine ⟨.chain o w a (.one w2 a2), ⟨hw, ha, hw2, ha2⟩, ?_, n6⟩
      have := c1.append (d1.append (d3.cons (d4.append d5)))
      simpa [DRhs.text, DAtoms.text] using this
    · refine ⟨.chain o w a (.cons w2 a2 as), ⟨hw, ha, hw2, ha2, has⟩, ?_, n6⟩
      have := c1.append (d1.append (d3.cons (d4.append (d5.append d6))))
      simpa [DRhs.text, DAtoms.text] using this
  have h2 := h2.sub
  rcases h2.choice with h | h
  · rcases h.choice with h | h
    · exact chain .seq h
    · exact chain .choice h
  · obtain ⟨a, ha, d1, n1⟩ := atom_inv hsm ih c1.le (by omega) hnw1 h
    exact ⟨.atom w a, ⟨hw, ha⟩, by have := c1.append d1; simpa [DRhs.text] using this, n1⟩

theorem rhs_inv : ∀ n, RhsInv src n := by
  intro n
  induction n with
  | zero => intro p q _ h; omega
  | succ n ih => intro p q hp hn h; exact rhs_inv_step hsm ih hp (by omega) h

theorem comment_inv (hp : p ≤ src.bytes.length) (hnw : NW src p) (h : PG src (.varName .r_comment) p q) :
    ∃ c : DComment, c.WF ∧ Cut src p q c.text ∧ NW src q := by
  obtain ⟨k4, h, h5⟩ := PG.seq h.ref
  obtain ⟨k3, h, h4⟩ := h.seq
  obtain ⟨k2, h, h3⟩ := h.seq
  obtain ⟨k1, h1, h2⟩ := h.seq
  obtain ⟨x, hx, d1, _⟩ := ws_inv hsm hp h1
  have := ws_nil hnw hx d1
  subst this
  have e : k1 = p := by simpa using d1.end
  subst e
  have d2 := h2.term
  obtain ⟨b, d3, hb⟩ := (one_not (src := src) hsm (c := 35) (fun _ _ h => hash_false h)).star d2.le h3
  have d4 := h4.term
  obtain ⟨w, hw, d5, n5⟩ := ws_inv hsm d4.le h5
  refine ⟨⟨b, w⟩, ⟨hb, hw⟩, ?_, n5⟩
  have := d2.cons (d3.append (d4.cons d5))
  simpa [DComment.text] using this

theorem comments_inv (hp : p ≤ src.bytes.length) (hnw : NW src p) (h : PG src (.zeroOrMore (.varName .r_comment)) p q) :
    ∃ cs : List DComment, (∀ c ∈ cs, c.WF) ∧ Cut src p q (commentsText cs) ∧ NW src q := by
  refine PG.star (M := fun p q => p ≤ src.bytes.length → NW src p → ∃ cs : List DComment, (∀ c ∈ cs, c.WF) ∧
    Cut src p q (commentsText cs) ∧ NW src q) ?_ ?_ h hp hnw
  · intro p _ _ hp hnw; exact ⟨[], by simp, .nil hp, hnw⟩
  · intro p q r h1 _ ih hp hnw
    obtain ⟨c, hc, d1, n1⟩ := comment_inv hsm hp hnw h1
    obtain ⟨cs, hcs, d2, n2⟩ := ih d1.le n1
    exact ⟨c :: cs, by simpa [hc] using hcs, d1.append d2, n2⟩

theorem rule_inv (hp : p ≤ src.bytes.length) (h : PG src (.varName .r_rule) p q) :
    ∃ r : DRule, r.WF ∧ Cut src p q r.text ∧ NW src q := by
  obtain ⟨k8, h, h9⟩ := PG.seq h.ref
  obtain ⟨k7, h, h8⟩ := h.seq
  obtain ⟨k6, h, h7⟩ := h.seq
  obtain ⟨k5, h, h6⟩ := h.seq
  obtain ⟨k4, h, h5⟩ := h.seq
  obtain ⟨k3, h, h4⟩ := h.seq
  obtain ⟨k2, h, h3⟩ := h.seq
  obtain ⟨k1, h1, h2⟩ := h.seq
  obtain ⟨j, h1a, h1b⟩ := PG.seq h1.ref
  obtain ⟨nm, hnm, d1⟩ := angle_inv h1a.ref
  have hsep : ∃ sep : DSep, sep.WF ∧ Cut src j k2 sep.text := by
    rcases h1b.opt with h | ⟨rfl, _⟩
    · obtain ⟨j2, h, hc⟩ := h.sub.seq
      obtain ⟨j1, ha, hb⟩ := h.seq
      obtain ⟨w, hw, c1, _⟩ := ws_inv hsm d1.le ha
      have c2 : Cut src j1 j2 inlineText := by
        have : PG src (.stringTerminal inlineText) j1 j2 := hb.ref.ref
        cases this with
        | string_ok hl hs =>
          rcases hl with hl | hl
          · simp [inlineText] at hl
          · rw [small_len hsm] at hl
            refine ⟨src.bytes.drop (j1 + inlineText.length), ?_, rfl, hl⟩
            unfold Source.slice at hs
            rw [Nat.add_sub_cancel_left] at hs
            have h3 := List.take_append_drop inlineText.length (src.bytes.drop j1)
            rw [hs, List.drop_drop] at h3
            exact h3.symm
      obtain ⟨w', hw', c3, n3⟩ := ws_inv hsm c2.le hc
      obtain ⟨x, hx, c4, _⟩ := ws_inv hsm c3.le h2
      have := ws_nil n3 hx c4
      subst this
      exact ⟨.inline w w', ⟨hw, hw'⟩, by have := c1.append (c2.append (c3.append c4)); simpa [DSep.text] using this⟩
    · obtain ⟨w, hw, c1, _⟩ := ws_inv hsm d1.le h2
      exact ⟨.plain w, hw, c1⟩
  obtain ⟨sep, hsep, d2⟩ := hsep
  have d3 := ch_inv (c := 61) rfl h3
  obtain ⟨w1, hw1, d4, n4⟩ := ws_inv hsm d3.le h4
  obtain ⟨rhs, hr, d5, n5⟩ := rhs_inv hsm _ _ _ d4.le (Nat.lt_succ_self _) h5
  obtain ⟨x, hx, d6, _⟩ := ws_inv hsm d5.le h6
  have := ws_nil n5 hx d6
  subst this
  have d7 := ch_inv (c := 59) rfl h7
  obtain ⟨w2, hw2, d8, n8⟩ := ws_inv hsm d7.le h8
  obtain ⟨cs, hcs, d9, n9⟩ := comments_inv hsm d8.le n8 h9
  have hlead : rhs.lead = [] := by
    have h2 := hr.strip.1
    rw [rhs.text_strip] at d5
    obtain ⟨t, e, _, _⟩ := d5
    cases hl : rhs.lead with
    | nil => rfl
    | cons c cs =>
      have : Cut src k4 (k4 + 1) [c] := .byte (by
        have := congrArg (fun l => l[0]?) e
        simpa [hl] using this)
      exact absurd (h2 c (by simp [hl])) (n4 c this.get)
  have hrhs : ∃ r' : DRhs, r'.WF ∧ r'.text = w1 ++ rhs.text := by
    cases rhs with
    | atom w a => exact ⟨.atom w1 a, ⟨hw1, hr.2⟩, by simp [DRhs.lead] at hlead; subst hlead; simp [DRhs.text]⟩
    | chain o w a as => exact ⟨.chain o w1 a as, ⟨hw1, hr.2⟩, by simp [DRhs.lead] at hlead; subst hlead; simp [DRhs.text]⟩
  obtain ⟨r', hr', et⟩ := hrhs
  refine ⟨⟨nm, sep, r', w2, cs⟩, ⟨hnm, hsep, hr', hw2, hcs⟩, ?_, n9⟩
  have := d1.append (d2.append (d3.cons (d4.append (d5.append (d6.append (d7.cons (d8.append d9)))))))
  simp only [DRule.text, et]
  simpa using this

theorem rules_inv (hp : p ≤ src.bytes.length) (hnw : NW src p) (h : PG src (.zeroOrMore (.varName .r_rule)) p q) :
    ∃ g : DGrammar, g.WF ∧ Cut src p q g.text ∧ NW src q := by
  refine PG.star (M := fun p q => p ≤ src.bytes.length → NW src p → ∃ g : DGrammar, g.WF ∧
    Cut src p q g.text ∧ NW src q) ?_ ?_ h hp hnw
  · intro p _ _ hp hnw; exact ⟨[], fun _ h => by simp at h, .nil hp, hnw⟩
  · intro p q r h1 _ ih hp hnw
    obtain ⟨c, hc, d1, n1⟩ := rule_inv hsm hp h1
    obtain ⟨cs, hcs, d2, n2⟩ := ih d1.le n1
    refine ⟨c :: cs, ?_, d1.append d2, n2⟩
    intro x hx; rcases List.mem_cons.mp hx with rfl | hx
    · exact hc
    · exact hcs x hx

/-- What the DSL's start rule accepts is a written grammar of at least one rule. -/
theorem grammar_inv (h : PG src (Dsl.body .r_grammar) 0 q) :
    ∃ g : DGrammar, g.WF ∧ g ≠ [] ∧ Cut src 0 q g.text := by
  obtain ⟨k, h, h2⟩ := PG.seq h
  obtain ⟨j, h1, h3⟩ := h.plus
  obtain ⟨r, hr, d1, n1⟩ := rule_inv hsm (Nat.zero_le _) h1
  obtain ⟨g, hg, d2, n2⟩ := rules_inv hsm d1.le n1 h3
  have e : q = k := by
    rcases h2.opt with h | ⟨h, _⟩
    · obtain ⟨w, hw, d3, _⟩ := ws_inv hsm d2.le h
      have := ws_nil n2 hw d3
      subst this
      simpa using d3.end
    · exact h
  subst e
  refine ⟨r :: g, ?_, by simp, d1.append d2⟩
  intro x hx; rcases List.mem_cons.mp hx with rfl | hx
  · exact hr
  · exact hg x hx

end
end PP.Gen
