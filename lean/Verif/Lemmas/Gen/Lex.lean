import Verif.Lemmas.Gen.Combi

/-! # Reading the lexical elements of the DSL -/
namespace PP.Gen

/-- The first byte, if any, satisfies `P`. -/
def Hd (s : Bytes) (P : UInt8 → Prop) : Prop := ∀ c, s.head? = some c → P c

theorem Hd.cons {c : UInt8} {s : Bytes} {P : UInt8 → Prop} (h : P c) : Hd (c :: s) P := by
  intro d hd; simp at hd; exact hd ▸ h
theorem Hd.nil {P : UInt8 → Prop} : Hd [] P := by intro d hd; simp at hd
theorem Hd.mono {s : Bytes} {P Q : UInt8 → Prop} (h : Hd s P) (hpq : ∀ c, P c → Q c) : Hd s Q :=
  fun c hc => hpq c (h c hc)
theorem Hd.ne {s : Bytes} {c : UInt8} (h : Hd s (· ≠ c)) : s.head? ≠ some c := fun hc => h c hc rfl

theorem u8ne {c d : UInt8} (h : c.toNat ≠ d.toNat) : c ≠ d := fun e => h (e ▸ rfl)

def WsByte (c : UInt8) : Prop := c = 32 ∨ c = 10 ∨ c = 13 ∨ c = 9

section
variable {src : Source} {p q : Nat} {s : Bytes}

theorem ok_ws {w : Bytes} (hw : IsWs w) (h : Rem src p (w ++ s)) (hs : Hd s fun c => ¬ WsByte c) :
    Ok src (.inlined .r_whitespace) p (p + w.length) [] := by
  refine .inl ?_
  show Ok src (.zeroOrMore (.subexpression (.orderedChoice (.orderedChoice (.orderedChoice (.terminal 32) (.terminal 10))
    (.terminal 13)) (.terminal 9)))) p (p + w.length) []
  induction w generalizing p with
  | nil =>
    have h : Rem src p s := h
    have k : ∀ c : UInt8, WsByte c → s.head? ≠ some c := fun c hc e => hs c e hc
    exact .starNil (.sub (.choice (ts := []) (.choice (ts := []) (.choice (ts := []) (.term h (k _ (by simp [WsByte])))
      (.term h (k _ (by simp [WsByte])))) (.term h (k _ (by simp [WsByte])))) (.term h (k _ (by simp [WsByte])))))
  | cons c w ih =>
    have h : Rem src p (c :: (w ++ s)) := h
    have := ih (fun d hd => hw d (by simp [hd])) h.tail
    have hc := hw c (by simp)
    have one : Ok src (.subexpression (.orderedChoice (.orderedChoice (.orderedChoice (.terminal 32) (.terminal 10))
        (.terminal 13)) (.terminal 9))) p (p + 1) [] := by
      refine .sub ?_
      have k : ∀ d : UInt8, c ≠ d → (c :: (w ++ s)).head? ≠ some d := by intro d hd; simpa using hd
      rcases hc with rfl | rfl | rfl | rfl
      · exact .left (.left (.left (.term h)))
      · exact .left (.left (.right (ts := []) (.term h (k _ (by decide))) (.term h)))
      · exact .left (.right (ts := []) (.choice (ts := []) (.term h (k _ (by decide))) (.term h (k _ (by decide)))) (.term h))
      · exact .right (ts := []) (.choice (ts := []) (.choice (ts := []) (.term h (k _ (by decide))) (.term h (k _ (by decide))))
          (.term h (k _ (by decide)))) (.term h)
    refine (Ok.starCons one this).cast (by simp; omega) rfl

/-- A class of bytes read by an expression in one step. -/
def Reads (src : Source) (e : Expr Dsl) (P : UInt8 → Prop) (ts : Nat → List (Tree Dsl)) : Prop :=
  (∀ p c s, Rem src p (c :: s) → P c → Ok src e p (p + 1) (ts p)) ∧
  (∀ p s, Rem src p s → Hd s (fun c => ¬ P c) → Bad src e p [])

theorem reads_term (c : UInt8) : Reads src (.terminal c) (· = c) (fun _ => []) :=
  ⟨fun _ _ _ h hc => hc ▸ .term h, fun _ _ h hs => .term h hs.ne⟩
theorem reads_range (lo hi : Nat) : Reads src (.matchRange lo hi) (fun c => lo ≤ c.toNat ∧ c.toNat ≤ hi) (fun _ => []) :=
  ⟨fun _ _ _ h hc => .range h hc.1 hc.2, fun _ _ h hs => .range h hs⟩
theorem Reads.inl {x : Dsl} {P ts} (h : Reads src (Dsl.body x) P ts) : Reads src (.inlined x) P ts :=
  ⟨fun p c s hr hc => .inl (h.1 p c s hr hc), fun p s hr hs => .inl (h.2 p s hr hs)⟩
theorem Reads.sub {e : Expr Dsl} {P ts} (h : Reads src e P ts) : Reads src (.subexpression e) P ts :=
  ⟨fun p c s hr hc => .sub (h.1 p c s hr hc), fun p s hr hs => .sub (h.2 p s hr hs)⟩
theorem Reads.ref {x : Dsl} {P ts} (h : Reads src (Dsl.body x) P ts) :
    Reads src (.varName x) P (fun p => [.node x (some (p, p + 1)) (ts p)]) :=
  ⟨fun p c s hr hc => .ref (by omega) (h.1 p c s hr hc), fun p s hr hs => .ref (h.2 p s hr hs)⟩
theorem Reads.choice {a b : Expr Dsl} {P Q} (h1 : Reads src a P (fun _ => [])) (h2 : Reads src b Q (fun _ => [])) :
    Reads src (.orderedChoice a b) (fun c => P c ∨ Q c) (fun _ => []) := by
  constructor
  · intro p c s hr hc
    by_cases hp : P c
    · exact .left (h1.1 p c s hr hp)
    · exact .right (ts := []) (h1.2 p _ hr (.cons hp)) (h2.1 p c s hr (hc.resolve_left hp))
  · intro p s hr hs
    exact .choice (ts := []) (h1.2 p s hr (hs.mono fun c hc x => hc (Or.inl x)))
      (h2.2 p s hr (hs.mono fun c hc x => hc (Or.inr x)))
theorem Reads.congr {e : Expr Dsl} {P Q ts} (h : Reads src e P ts) (hpq : ∀ c, P c ↔ Q c) : Reads src e Q ts := by
  have : P = Q := funext fun c => propext (hpq c)
  exact this ▸ h

/-- Repetition of a byte class. -/
theorem Reads.star {e : Expr Dsl} {P ts} (h : Reads src e P ts) {w : Bytes} (hw : ∀ c ∈ w, P c)
    (hr : Rem src p (w ++ s)) (hs : Hd s fun c => ¬ P c) :
    Ok src (.zeroOrMore e) p (p + w.length) ((List.range w.length).flatMap fun i => ts (p + i)) := by
  induction w generalizing p with
  | nil => exact .starNil (h.2 _ _ hr hs)
  | cons c w ih =>
    have hr : Rem src p (c :: (w ++ s)) := hr
    refine (Ok.starCons (h.1 _ _ _ hr (hw c (by simp))) (ih (fun d hd => hw d (by simp [hd])) hr.tail)).cast
      (by simp; omega) ?_
    rw [List.length_cons, List.range_succ_eq_map, List.flatMap_cons, List.flatMap_map]
    simp [Nat.add_assoc, Nat.add_comm 1]

theorem flatMap_leaves (r : Dsl) (n : Nat) : ∀ p,
    ((List.range n).flatMap fun i => [Tree.node r (some (p + i, p + i + 1)) []]) = leaves r p n := by
  induction n with
  | zero => intro p; rfl
  | succ n ih =>
    intro p
    rw [List.range_succ_eq_map, List.flatMap_cons, List.flatMap_map]
    simp [leaves, ← ih (p + 1), Nat.add_assoc, Nat.add_comm 1]

theorem flatMap_nil {α : Type} (n : Nat) : ((List.range n).flatMap fun _ => ([] : List α)) = [] := by simp

theorem reads_letter : Reads src (.subexpression (.orderedChoice (.inlined .r_alphabet_lower) (.inlined .r_alphabet_upper)))
    IsLetter (fun _ => []) :=
  .sub (.choice (.inl (reads_range 97 122)) (.inl (reads_range 65 90)))

def NameByte (c : UInt8) : Prop := IsLetter c ∨ c = 95

theorem reads_nameByte : Reads src (.subexpression (.orderedChoice (.orderedChoice (.inlined .r_alphabet_lower) (.inlined
    .r_alphabet_upper)) (.terminal 95))) NameByte (fun _ => []) :=
  .sub (.choice (.choice (.inl (reads_range 97 122)) (.inl (reads_range 65 90))) (reads_term 95))

theorem ok_name {nm : Bytes} (hn : IsName nm) (h : Rem src p (nm ++ s)) (hs : Hd s fun c => ¬ NameByte c) :
    Ok src (.inlined .r_var_name) p (p + nm.length) [] := by
  cases nm with
  | nil => cases hn
  | cons c nm =>
    have h : Rem src p (c :: (nm ++ s)) := h
    refine .inl ((Ok.seq (reads_letter.1 _ _ _ h hn.1) (reads_nameByte.star (w := nm) hn.2 h.tail hs)).cast
      (by simp; omega) (by simp))

theorem bad_name (h : Rem src p s) (hs : Hd s fun c => ¬ IsLetter c) : Bad src (.inlined .r_var_name) p [] :=
  .inl (.seq1 (reads_letter.2 _ _ h hs))

theorem reads_ascii : Reads src (.varName .r_ascii) (fun _ => True) (fun p => [.node .r_ascii (some (p, p + 1)) []]) :=
  (Reads.ref (x := .r_ascii) (reads_range 0 255)).congr fun c => by
    have := c.toNat_lt; simp; omega

theorem reads_hexval : Reads src (.varName .r_hexval) IsHexDigit (fun p => [.node .r_hexval (some (p, p + 1)) []]) :=
  Reads.ref (x := .r_hexval) (.choice (reads_range 48 57) (reads_range 65 70))
theorem reads_num : Reads src (.varName .r_num) IsDigit (fun p => [.node .r_num (some (p, p + 1)) []]) :=
  Reads.ref (x := .r_num) (reads_range 48 57)
theorem reads_numnozero : Reads src (.varName .r_numnozero) (fun c => 49 ≤ c.toNat ∧ c.toNat ≤ 57)
    (fun p => [.node .r_numnozero (some (p, p + 1)) []]) :=
  Reads.ref (x := .r_numnozero) (reads_range 49 57)
theorem reads_quote : Reads src (.inlined .r_quotationmark) (· = 39) (fun _ => []) := .inl (reads_term 39)
theorem reads_apos : Reads src (.inlined .r_apostrophe) (· = 34) (fun _ => []) := .inl (reads_term 34)

/-- `<name>` for declarations and references -/
theorem ok_angle {nm : Bytes} (hn : IsName nm) (h : Rem src p (60 :: (nm ++ 62 :: s))) :
    Ok src (.sequence (.sequence (.inlined .r_left_angle_bracket) (.inlined .r_var_name)) (.inlined .r_right_angle_bracket))
      p (p + (nm.length + 2)) [] := by
  have h1 := ok_name hn h.tail (.cons (by simp [NameByte, IsLetter]))
  have h2 : Rem src (p + 1 + nm.length) (62 :: s) := h.tail.skip
  have a1 : Ok src (.inlined .r_left_angle_bracket) p (p + 1) [] := .inl (x := .r_left_angle_bracket) (.term h)
  have a2 : Ok src (.inlined .r_right_angle_bracket) (p + 1 + nm.length) (p + 1 + nm.length + 1) [] :=
    .inl (x := .r_right_angle_bracket) (.term h2)
  exact (Ok.seq (ts := []) (.seq (ts := []) a1 h1) a2).cast (by omega) rfl

theorem ok_decl {nm : Bytes} (hn : IsName nm) (h : Rem src p (60 :: (nm ++ 62 :: s))) :
    Ok src (.varName .r_var_name_decl) p (p + (nm.length + 2))
      [.node .r_var_name_decl (some (p, p + (nm.length + 2))) []] := .ref (by omega) (ok_angle hn h)
theorem ok_vref {nm : Bytes} (hn : IsName nm) (h : Rem src p (60 :: (nm ++ 62 :: s))) :
    Ok src (.varName .r_var_name_ref) p (p + (nm.length + 2))
      [.node .r_var_name_ref (some (p, p + (nm.length + 2))) []] := .ref (by omega) (ok_angle hn h)

theorem ok_hex {ds : Bytes} (hd : IsHex ds) (h : Rem src p (hexText ds ++ s)) (hs : Hd s fun c => ¬ IsHexDigit c) :
    Ok src (.varName .r_hex) p (p + (ds.length + 2)) [hexTree p ds] := by
  obtain ⟨hne, hall⟩ := hd
  cases ds with
  | nil => exact absurd rfl hne
  | cons d ds =>
    have h : Rem src p (48 :: 120 :: d :: (ds ++ s)) := h
    have h1 := reads_hexval.1 _ _ _ h.tail.tail (hall d (by simp))
    have h2 := reads_hexval.star (w := ds) (fun c hc => hall c (by simp [hc])) h.tail.tail.tail hs
    have := Ok.ref (x := .r_hex) (by omega)
      (Ok.seq (.seq (.term h) (.term h.tail)) (.plus h1 h2))
    refine this.cast (by simp; omega) ?_
    rw [flatMap_leaves]
    simp [hexTree, leaves]
    omega

theorem bad_hex (h : Rem src p s) (hs : Hd s (· ≠ 48)) : Bad src (.varName .r_hex) p [] :=
  .ref (.seq1 (.seq1 (.term h hs.ne)))

theorem ok_int {ds : Bytes} (hd : IsInt ds) (h : Rem src p (ds ++ s)) (hs : Hd s fun c => ¬ IsDigit c) :
    Ok src (.varName .r_integer) p (p + ds.length) [intTree p ds] := by
  cases ds with
  | nil => cases hd
  | cons d ds =>
    have h : Rem src p (d :: (ds ++ s)) := h
    have h1 := reads_numnozero.1 _ _ _ h hd.1
    have h2 := reads_num.star (w := ds) hd.2 h.tail hs
    have := Ok.ref (x := .r_integer) (by omega) (Ok.seq h1 h2)
    refine this.cast (by simp; omega) ?_
    rw [flatMap_leaves]
    simp [intTree]
    omega

theorem bad_int (h : Rem src p s) (hs : Hd s fun c => ¬ (49 ≤ c.toNat ∧ c.toNat ≤ 57)) :
    Bad src (.varName .r_integer) p [] :=
  .ref (.seq1 (reads_numnozero.2 _ _ h hs))

theorem ok_terminal' {t : DTerm} (ht : t.WF) (h : Rem src p (t.text ++ s)) (hs : t = .eps → Hd s (· ≠ 39)) :
    Ok src (.varName .r_terminal) p (p + t.text.length) [t.tree p] := by
  cases t with
  | chr c =>
    have h : Rem src p (39 :: c :: 39 :: s) := h
    exact .ref (by simp [DTerm.text]) (.left (.left (.sub (.seq (.seq (reads_quote.1 _ _ _ h rfl)
      (reads_ascii.1 _ _ _ h.tail trivial)) (reads_quote.1 _ _ _ h.tail.tail rfl)))))
  | esc c =>
    have h : Rem src p (39 :: 92 :: c :: 39 :: s) := h
    have ht : c = 110 ∨ c = 114 ∨ c = 116 := ht
    have hc : c ≠ 39 := by rcases ht with rfl | rfl | rfl <;> decide
    have b1 : Bad src (.subexpression (.sequence (.sequence (.inlined .r_quotationmark) (.varName .r_ascii))
        (.inlined .r_quotationmark))) p _ := .sub (.seq2 (.seq (reads_quote.1 _ _ _ h rfl)
      (reads_ascii.1 _ _ _ h.tail trivial)) (reads_quote.2 _ _ h.tail.tail (.cons hc)))
    have cc : Reads src (.subexpression (.orderedChoice (.orderedChoice (.terminal 110) (.terminal 114)) (.terminal 116)))
      (fun c => (c = 110 ∨ c = 114) ∨ c = 116) (fun _ => []) :=
      .sub (.choice (.choice (reads_term 110) (reads_term 114)) (reads_term 116))
    have c1 := cc.1 _ _ _ h.tail.tail (by rcases ht with rfl | rfl | rfl <;> simp)
    have := Ok.ref (x := .r_terminal) (by omega) (.left (.right b1 (.sub (.seq (.seq (.seq (reads_quote.1 _ _ _ h rfl) (.term h.tail)) c1)
      (reads_quote.1 _ _ _ h.tail.tail.tail rfl)))))
    exact this.cast rfl (by simp [DTerm.tree, leaves])
  | eps =>
    have h : Rem src p (39 :: 39 :: s) := h
    have b1 : Bad src (.subexpression (.sequence (.sequence (.inlined .r_quotationmark) (.varName .r_ascii))
        (.inlined .r_quotationmark))) p _ := .sub (.seq2 (.seq (reads_quote.1 _ _ _ h rfl)
      (reads_ascii.1 _ _ _ h.tail trivial)) (reads_quote.2 _ _ h.tail.tail (hs rfl)))
    have b2 : Bad src (.subexpression (.sequence (.sequence (.sequence (.inlined
      .r_quotationmark) (.terminal 92)) (.subexpression (.orderedChoice (.orderedChoice (.terminal 110) (.terminal
      114)) (.terminal 116)))) (.inlined .r_quotationmark))) p _ := .sub (.seq1 (.seq1 (.seq2 (reads_quote.1 _ _ _ h rfl)
        (.term h.tail (by simp)))))
    have := Ok.ref (x := .r_terminal) (by omega) (.right (.choice b1 b2)
      (.ref (x := .r_epsilon) (by omega) (.seq (reads_quote.1 _ _ _ h rfl) (reads_quote.1 _ _ _ h.tail rfl))))
    exact this.cast rfl (by simp [DTerm.tree, leaves])

theorem ok_terminal {t : DTerm} (ht : t.WF) (h : Rem src p (t.text ++ s)) (hs : Hd s (· ≠ 39)) :
    Ok src (.varName .r_terminal) p (p + t.text.length) [t.tree p] := ok_terminal' ht h fun _ => hs

theorem bad_terminal (h : Rem src p s) (hs : Hd s (· ≠ 39)) : Bad src (.varName .r_terminal) p [] := by
  have b := reads_quote.2 _ _ h hs
  exact .ref (.choice (ts := []) (.choice (ts := []) (.sub (.seq1 (.seq1 b))) (.sub (.seq1 (.seq1 (.seq1 b))))) (.ref (.seq1 b)))

theorem intHead {ds : Bytes} (hd : IsInt ds) : Hd (ds ++ s) fun c => 49 ≤ c.toNat ∧ c.toNat ≤ 57 := by
  cases ds with
  | nil => cases hd
  | cons d ds => exact .cons hd.1

theorem ok_bound {b : DBound} (hb : b.WF) (h : Rem src p (b.text ++ s))
    (hs : Hd s fun c => c ≠ 39 ∧ ¬ IsHexDigit c) :
    Ok src (.subexpression (.orderedChoice (.orderedChoice (.varName .r_terminal) (.varName .r_integer)) (.varName .r_hex)))
      p (p + b.text.length) [b.tree p] := by
  refine .sub ?_
  cases b with
  | term t => exact .left (.left (ok_terminal hb h (hs.mono fun c h => h.1)))
  | int ds =>
    have hh := intHead (s := s) hb
    exact .left (.right (ts := []) (bad_terminal h (hh.mono fun c hc => by rintro rfl; simp at hc))
      (ok_int hb h (hs.mono fun c h x => h.2 (Or.inl x))))
  | hex ds =>
    have h' : Rem src p (48 :: 120 :: (ds ++ s)) := h
    refine (Ok.right (ts := []) (.choice (ts := []) (bad_terminal h' (.cons (by decide))) (bad_int h' (.cons (by decide))))
      (ok_hex hb h (hs.mono fun c h => h.2))).cast ?_ rfl
    simp [DBound.text, hexText]

/-- The literal `d` cannot be continued with `s`. -/
def DStr.EndsAt (s : Bytes) : DStr → Prop
  | .quoted _ => True
  | .hex _ => Hd s fun c => ¬ IsHexDigit c
  | .int _ => Hd s fun c => ¬ IsDigit c

theorem ok_string' {d : DStr} (hd : d.WF) (h : Rem src p (d.text ++ s)) (hs : d.EndsAt s) :
    Ok src (.varName .r_stringterminal) p (p + d.text.length) [d.tree p] := by
  cases d with
  | quoted t =>
    obtain ⟨h2, hq⟩ := hd
    match t, h2 with
    | c :: d :: t, _ =>
      have h : Rem src p (34 :: c :: d :: (t ++ 34 :: s)) := by simpa [DStr.text] using h
      have item : Reads src (.subexpression (.sequence (.notPredicate (.inlined .r_apostrophe)) (.varName .r_ascii)))
          (· ≠ 34) (fun p => [.node .r_ascii (some (p, p + 1)) []]) := by
        constructor
        · intro p c s h hc
          exact .sub (.seq (ts := []) (.not (reads_apos.2 _ _ h (.cons hc))) (reads_ascii.1 _ _ _ h trivial))
        · intro p s h hs
          match s, h, hs with
          | [], h, hs => exact .sub (.seq2 (ts := []) (.not (reads_apos.2 _ _ h .nil)) (reads_ascii.2 _ _ h .nil))
          | x :: s, h, hs =>
            have : x = 34 := Classical.not_not.mp (hs x rfl)
            exact .sub (.seq1 (.not (reads_apos.1 _ _ _ h this)))
      have l1 := item.1 _ _ _ h.tail.tail (hq d (by simp))
      have l2 := item.star (w := t) (fun c hc => hq c (by simp [hc])) h.tail.tail.tail (.cons (by simp))
      have hend : Rem src (p + 1 + 1 + 1 + t.length) (34 :: s) := h.tail.tail.tail.skip
      have := Ok.ref (x := .r_stringterminal) (by omega) (.left (.left (.sub (.seq (.seq (.seq (reads_apos.1 _ _ _ h rfl)
        (.not (reads_apos.2 _ _ h.tail (.cons (hq c (by simp))))))
        (.sub (.seq (reads_ascii.1 _ _ _ h.tail trivial) (.plus l1 l2)))) (reads_apos.1 _ _ _ hend rfl)))))
      refine this.cast (by simp [DStr.text]; omega) ?_
      rw [flatMap_leaves]
      simp [DStr.tree, leaves]
      omega
  | hex ds =>
    have h' : Rem src p (48 :: 120 :: (ds ++ s)) := h
    have b : Bad src _ p [] := reads_apos.2 _ _ h' (.cons (by decide))
    refine (Ok.ref (x := .r_stringterminal) (by omega) (.left (.right (.sub (.seq1 (.seq1 (.seq1 b)))) (ok_hex hd h hs)))).cast
      (by simp [DStr.text, hexText]) (by simp [DStr.tree])
  | int ds =>
    have hh := intHead (s := s) hd
    have h : Rem src p (ds ++ s) := h
    have b : Bad src _ p [] := reads_apos.2 _ _ h (hh.mono fun c hc => by rintro rfl; simp at hc)
    have hlen : 0 < ds.length := by cases ds with | nil => cases hd | cons => simp
    refine (Ok.ref (x := .r_stringterminal) (by omega) (.right (.choice (.sub (.seq1 (.seq1 (.seq1 b))))
      (bad_hex h (hh.mono fun c hc => by rintro rfl; simp at hc))) (ok_int hd h hs))).cast
      rfl (by simp [DStr.tree])

theorem ok_string {d : DStr} (hd : d.WF) (h : Rem src p (d.text ++ s)) (hs : Hd s fun c => ¬ IsHexDigit c) :
    Ok src (.varName .r_stringterminal) p (p + d.text.length) [d.tree p] := by
  refine ok_string' hd h ?_
  cases d with
  | quoted => trivial
  | hex => exact hs
  | int => exact hs.mono fun c h x => h (Or.inl x)

theorem bad_string (h : Rem src p s) (hs : Hd s fun c => c ≠ 34 ∧ ¬ IsDigit c) : Bad src (.varName .r_stringterminal) p [] := by
  have b := reads_apos.2 _ _ h (hs.mono fun c h => h.1)
  exact .ref (.choice (ts := []) (.choice (ts := []) (.sub (.seq1 (.seq1 (.seq1 b))))
    (bad_hex h (hs.mono fun c h => by rintro rfl; exact h.2 (by simp [IsDigit])))) (bad_int h (hs.mono fun c h x => h.2
      ⟨by omega, x.2⟩)))

end
end PP.Gen
