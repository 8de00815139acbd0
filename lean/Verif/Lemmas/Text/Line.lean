import Verif.Lemmas.Text.Lex
import Verif.Lemmas.Gen.Exec

/-! # The tokens of the generated lines -/
namespace PP.Gen.Text

/-- `Lx m bs ts m'`: from `m` the bytes `bs` give the tokens `ts` and leave the lexer in `m'`. -/
abbrev Lx (m : Mode) (bs : Bytes) (ts : List Tok) (m' : Mode) : Prop := run m bs = some (ts, m')

theorem Lx.app {m m1 m2 : Mode} {a b : Bytes} {ts us : List Tok} (h : Lx m a ts m1) (h' : Lx m1 b us m2) :
    Lx m (a ++ b) (ts ++ us) m2 := run_append h h'

theorem delim_append {a b : Bytes} (h : delimHead a = true) : delimHead (a ++ b) = true := by
  cases a with
  | nil => simp [delimHead] at h
  | cons c cs => exact h

/-- Name, then a delimiter. -/
theorem Lx.name {s b : Bytes} {ts : List Tok} {m : Mode} (hs : IsIdent s) (hd : delimHead b = true) (h : Lx .code b ts m) :
    Lx .code (s ++ b) (.id s :: ts) m := by
  have := run_append (run_ident hs) (run_flush (acc := s.reverse) hd h)
  simpa using this

/-- Number, then a delimiter. -/
theorem Lx.num {n : Nat} {b : Bytes} {ts : List Tok} {m : Mode} (hd : delimHead b = true) (h : Lx .code b ts m) :
    Lx .code (decimal n ++ b) (.num (decimal n) :: ts) m := by
  obtain ⟨h1, h2, _⟩ := decimal_spec n
  have := run_append (run_digits h1 h2) (run_flushNum (acc := (decimal n).reverse) hd h)
  simpa using this

theorem closure_ident (i : Nat) : IsIdent (clo i) := by
  have : clo i = 99 :: (utf8Of "losure_" ++ decimal i) := by
    unfold clo
    rw [show utf8Of "closure_" = 99 :: utf8Of "losure_" by decide +kernel]; rfl
  rw [this]
  refine ⟨by decide, fun d hd => ?_⟩
  rcases List.mem_append.mp hd with h | h
  · exact (show ∀ d ∈ utf8Of "losure_", isIdCont d = true by decide +kernel) d h
  · exact isDig_cont ((decimal_spec i).2.1 d h)

/-- The text before a closure's number, the number, and what follows it. -/
theorem Lx.clo {pre a : Bytes} {i : Nat} {b : Bytes} {us ts : List Tok} {m : Mode} (hp : pre = a ++ utf8Of "closure_")
    (ha : Lx .code a us .code) (hd : delimHead b = true) (h : Lx .code b ts m) :
    Lx .code (pre ++ (decimal i ++ b)) (us ++ .id (clo i) :: ts) m := by
  have := ha.app (Lx.name (closure_ident i) hd h)
  subst hp
  rw [show a ++ utf8Of "closure_" ++ (decimal i ++ b) = a ++ (Text.clo i ++ b) by simp [Text.clo]]
  exact this

/-- The start of every `let` line. -/
theorem Lx.let {i : Nat} {b : Bytes} {ts : List Tok} {m : Mode} (hd : delimHead b = true) (h : Lx .code b ts m) :
    Lx .code (utf8Of "let closure_" ++ (decimal i ++ b)) (toks "let" ++ .id (Text.clo i) :: ts) m :=
  Lx.clo (a := utf8Of "let ") (by decide +kernel) (by decide +kernel) hd h

/-! ## Literals -/

/-- The text of a byte literal. -/
theorem run_byte {s b : Bytes} {v : UInt8} {ts : List Tok} {m : Mode} (hs : byteLit s = some v) (hd : delimHead b = true)
    (h : Lx .code b ts m) : Lx .byte₀ (s ++ (39 :: b)) (.byte s :: ts) m := by
  have h1 : run .byte₀ s = some ([], .byteEnd s) := by
    unfold byteLit at hs
    split at hs
    · next c =>
      split at hs
      · next hc => simp [run, step, hc.2.2.1]
      · cases hs
    · simp [run, step]
    · cases hs
  have h2 : run (.byteEnd s) (39 :: b) = some (.byte s :: ts, m) := by
    rw [run_cons (ts := [.byte s]) (m1 := .lit) (by simp [step]), run_lit hd h]; rfl
  exact run_append h1 h2

theorem charText_ascii {c : Nat} (h : c < 128) : charText c = [UInt8.ofNat c] := by
  unfold charText
  have h1 : (Char.ofNat c).val.toNat = c := by
    have : c.isValidChar := by left; omega
    simp only [Char.ofNat, this, dite_true]
    simp [Char.ofNatAux]
  rw [String.utf8EncodeChar.eq_def]
  simp only [h1]
  rw [if_pos (by omega)]

theorem run_char {c : Nat} {acc s : Bytes} {y} (h1 : c < 128) (h2 : c ≠ 34) (h3 : c ≠ 92)
    (hy : run (.bytes (UInt8.ofNat c :: acc) false) s = some y) : run (.bytes acc false) (charText c ++ s) = some y := by
  rw [charText_ascii h1]
  refine run_silent (m1 := .bytes (UInt8.ofNat c :: acc) false) ?_ hy
  have n2 : UInt8.ofNat c ≠ 92 := by
    intro e; have := congrArg UInt8.toNat e; simp at this; omega
  have n3 : UInt8.ofNat c ≠ 34 := by
    intro e; have := congrArg UInt8.toNat e; simp at this; omega
  simp [step, n2, n3]

theorem run_bytes : ∀ {d : List Nat} {v : List UInt8}, byteStr d = some v → ∀ acc,
    run (.bytes acc false) (d.map charText).flatten = some ([], .bytes ((d.map UInt8.ofNat).reverse ++ acc) false)
  | [], _, _, _ => rfl
  | [c], v, h, acc => by
    unfold byteStr at h
    by_cases hc : c < 128 ∧ c ≠ 34 ∧ c ≠ 92 ∧ c ≠ 13
    · have := run_char (c := c) (acc := acc) (s := []) hc.1 hc.2.1 hc.2.2.1 rfl
      simpa using this
    · rw [if_neg hc] at h; cases h
  | c :: d :: s, v, h, acc => by
    unfold byteStr at h
    by_cases hc : c = 92
    · subst hc
      rw [if_pos rfl] at h
      by_cases hd : d < 128
      · rw [if_pos hd] at h
        cases he : escByte (UInt8.ofNat d) with
        | none => rw [he] at h; cases h
        | some e =>
          cases hs : byteStr s with
          | none => rw [he, hs] at h; cases h
          | some v' =>
            have := run_bytes hs (UInt8.ofNat d :: 92 :: acc)
            simp only [List.map_cons, List.flatten_cons]
            rw [charText_ascii (show 92 < 128 by omega), charText_ascii hd]
            refine run_silent (m1 := .bytes (92 :: acc) true) (by simp [step]) ?_
            refine run_silent (m1 := .bytes (UInt8.ofNat d :: 92 :: acc) false) (by simp [step]) ?_
            simpa using this
      · rw [if_neg hd] at h; cases h
    · rw [if_neg hc] at h
      by_cases hc2 : c < 128 ∧ c ≠ 34 ∧ c ≠ 13
      · rw [if_pos hc2] at h
        cases hs : byteStr (d :: s) with
        | none => rw [hs] at h; cases h
        | some v' =>
          have := run_char (c := c) (acc := acc) hc2.1 hc2.2.1 hc (run_bytes hs (UInt8.ofNat c :: acc))
          simpa using this
      · rw [if_neg hc2] at h; cases h

theorem byteStr_toNat {d : List Nat} {v : List UInt8} (h : byteStr d = some v) : (d.map UInt8.ofNat).map (·.toNat) = d := by
  have := byteStr_ascii h
  rw [List.map_map]
  conv => rhs; rw [← List.map_id d]
  refine List.map_congr_left fun c hc => ?_
  have := List.all_eq_true.mp this c hc
  simp only [decide_eq_true_eq] at this
  simp only [Function.comp, UInt8.toNat_ofNat', id]
  omega

/-- The text of a byte string literal. -/
theorem run_bstr {d : List Nat} {b : Bytes} {v : List UInt8} {ts : List Tok} {m : Mode} (hs : byteStr d = some v)
    (hd : delimHead b = true) (h : Lx .code b ts m) :
    Lx (.bytes [] false) ((d.map charText).flatten ++ (34 :: b)) (.bytes (d.map UInt8.ofNat) :: ts) m := by
  have h2 : run (.bytes ((d.map UInt8.ofNat).reverse ++ []) false) (34 :: b) = some (.bytes (d.map UInt8.ofNat) :: ts, m) := by
    rw [run_cons (ts := [.bytes (d.map UInt8.ofNat)]) (m1 := .lit) (by simp [step]), run_lit hd h]; rfl
  exact run_append (run_bytes hs []) h2

/-! ## Lines -/

/-- Names are identifiers, literals are Rust literals. -/
def LineOk : Line → Prop
  | .stringTerminal _ _ => False
  | .stringTerminalOptAscii _ d => ∃ v, byteStr d = some v
  | .hooked _ nm _ => IsIdent nm
  | .terminal _ s => ∃ v, byteLit s = some v
  | .varName _ v f | .varNameLR _ v f => IsIdent v ∧ IsIdent f
  | .involvedSet vs => ∀ v ∈ vs, IsIdent v
  | .inlined _ f => IsIdent f
  | _ => True

/-- `Rules::A, Rules::B` -/
def variantToks : List Bytes → List Tok
  | [] => []
  | [v] => toks "Rules::" ++ [.id v]
  | v :: vs => toks "Rules::" ++ .id v :: .p 44 :: variantToks vs

/-- The tokens of a line, without the semicolon. -/
def lineToks : Line → List Tok
  | .stringTerminal _ _ => []
  | .stringTerminalOptAscii i d =>
    toks "let" ++ .id (clo i) :: (toks "= _string_terminal_opt_ascii(" ++ .bytes (d.map UInt8.ofNat) :: toks ")")
  | .matchRange i a b =>
    toks "let" ++ .id (clo i) :: (toks "= _ordered_choice_match_range(" ++ .num (decimal a) :: .p 44 :: .num (decimal b) :: toks ")")
  | .unary op i j => toks "let" ++ .id (clo i) :: (toks "=" ++ .id op.text :: (toks "(&" ++ .id (clo j) :: toks ")"))
  | .binary op i j k =>
    toks "let" ++ .id (clo i) :: (toks "=" ++ .id op.text :: (toks "(&" ++ .id (clo j) :: (toks ", &" ++ .id (clo k) :: toks ")")))
  | .hooked i nm j =>
    toks "let" ++ .id (clo i) :: (toks "=" ++ .id nm ::
      (toks "(user_state, parent, context, source, position, &" ++ .id (clo j) :: toks ")"))
  | .terminal i s => toks "let" ++ .id (clo i) :: (toks "= _terminal(" ++ .byte s :: toks ")")
  | .varName i v f =>
    toks "let" ++ .id (clo i) :: (toks "= _var_name(user_state, Rules::" ++ .id v :: (toks ", context, " ++ .id f :: toks ")"))
  | .involvedSet vs => toks "let involved_set: Vec<Rules> = [" ++ (variantToks vs ++ toks "].to_vec()")
  | .varNameLR i v f =>
    toks "let" ++ .id (clo i) :: (toks "= _var_name_indirect_left_recursion(user_state, &involved_set, Rules::" ++ .id v ::
      (toks ", context, " ++ .id f :: toks ")"))
  | .inlined i f =>
    toks "let" ++ .id (clo i) :: (toks "= move |parent: Key, source: &Source, position: u32|" ++ .id f ::
      toks "(user_state, parent, context, source, position)")
  | .exec i => .id (clo i) :: toks "(parent, source, position)"

theorem unary_ident (op : Unary) : IsIdent op.text := by
  have : ∀ op : Unary, ∃ c cs, op.text = c :: cs ∧ isIdStart c = true ∧ ∀ d ∈ cs, isIdCont d = true := by
    intro op; cases op <;> exact ⟨_, _, rfl, by decide +kernel, by decide +kernel⟩
  obtain ⟨c, cs, h, h1, h2⟩ := this op
  rw [h]; exact ⟨h1, h2⟩
theorem binary_ident (op : Binary) : IsIdent op.text := by
  have : ∀ op : Binary, ∃ c cs, op.text = c :: cs ∧ isIdStart c = true ∧ ∀ d ∈ cs, isIdCont d = true := by
    intro op; cases op <;> exact ⟨_, _, rfl, by decide +kernel, by decide +kernel⟩
  obtain ⟨c, cs, h, h1, h2⟩ := this op
  rw [h]; exact ⟨h1, h2⟩

/-- The end of most lines. -/
theorem lx_end : Lx .code (utf8Of ");") (toks ")" ++ [.p 59]) .code := by decide +kernel
theorem lx_space {b : Bytes} {ts : List Tok} {m : Mode} (h : Lx .code b ts m) : Lx .code (32 :: b) ts m :=
  run_silent (m1 := .code) (by decide) h

theorem lx_variants {vs : List Bytes} (h : ∀ v ∈ vs, IsIdent v) {b : Bytes} {ts : List Tok} {m : Mode} (hd : delimHead b = true)
    (hb : Lx .code b ts m) :
    Lx .code (List.intercalate (utf8Of ", ") (vs.map fun v => utf8Of "Rules::" ++ v) ++ b) (variantToks vs ++ ts) m := by
  have h0 : Lx .code (utf8Of "Rules::") (toks "Rules::") .code := by decide +kernel
  induction vs with
  | nil => exact hb
  | cons v vs ih =>
    have hv := h v (by simp)
    cases vs with
    | nil =>
      simp only [List.map_cons, List.map_nil, List.intercalate, List.intersperse, List.flatten_cons, List.flatten_nil, List.append_nil,
        variantToks, List.append_assoc]
      exact h0.app (Lx.name hv hd hb)
    | cons w ws =>
      have ih := ih fun x hx => h x (by simp [hx])
      have e : List.intercalate (utf8Of ", ") ((v :: w :: ws).map fun v => utf8Of "Rules::" ++ v) ++ b =
          utf8Of "Rules::" ++ (v ++ (utf8Of ", " ++ (List.intercalate (utf8Of ", ") ((w :: ws).map fun v => utf8Of "Rules::" ++ v) ++ b))) := by
        simp [List.intercalate]
      rw [e]
      have e2 : variantToks (v :: w :: ws) ++ ts = toks "Rules::" ++ .id v :: (toks ", " ++ (variantToks (w :: ws) ++ ts)) := by
        rw [show toks ", " = [.p 44] by decide +kernel]
        simp [variantToks]
      rw [e2]
      have h1 : Lx .code (utf8Of ", ") (toks ", ") .code := by decide +kernel
      exact h0.app (Lx.name hv (delim_append (by decide +kernel)) (h1.app ih))

theorem line_lex {l : Line} (h : LineOk l) (hne : ∀ i, l ≠ .exec i) : Lx .code l.text (lineToks l ++ [.p 59]) .code := by
  cases l with
  | stringTerminal => exact h.elim
  | exec i => exact (hne i rfl).elim
  | stringTerminalOptAscii i d =>
    obtain ⟨v, hv⟩ := h
    simp only [Line.text, lineToks, List.append_assoc, List.cons_append]
    refine Lx.let (delim_append (by decide +kernel)) (Lx.app (m1 := .bytes [] false) (by decide +kernel) ?_)
    rw [show utf8Of "\");" = 34 :: utf8Of ");" by decide +kernel]
    exact run_bstr hv (by decide +kernel) lx_end
  | matchRange i a b =>
    simp only [Line.text, lineToks, List.append_assoc, List.cons_append]
    refine Lx.let (delim_append (by decide +kernel)) (Lx.app (m1 := .code) (by decide +kernel) ?_)
    refine Lx.num (delim_append (by decide +kernel)) ?_
    exact Lx.app (ts := [.p 44]) (m1 := .code) (by decide +kernel) (Lx.num (by decide +kernel) lx_end)
  | unary op i j =>
    simp only [Line.text, lineToks, List.append_assoc, List.cons_append]
    refine Lx.let (delim_append (by decide +kernel)) (Lx.app (m1 := .code) (by decide +kernel) ?_)
    refine Lx.name (unary_ident op) (delim_append (by decide +kernel)) ?_
    exact Lx.clo (a := utf8Of "(&") (by decide +kernel) (by decide +kernel) (by decide +kernel) lx_end
  | binary op i j k =>
    simp only [Line.text, lineToks, List.append_assoc, List.cons_append]
    refine Lx.let (delim_append (by decide +kernel)) (Lx.app (m1 := .code) (by decide +kernel) ?_)
    refine Lx.name (binary_ident op) (delim_append (by decide +kernel)) ?_
    refine Lx.clo (a := utf8Of "(&") (by decide +kernel) (by decide +kernel) (delim_append (by decide +kernel)) ?_
    exact Lx.clo (a := utf8Of ", &") (by decide +kernel) (by decide +kernel) (by decide +kernel) lx_end
  | hooked i nm j =>
    simp only [Line.text, lineToks, List.append_assoc, List.cons_append]
    refine Lx.let (delim_append (by decide +kernel)) (Lx.app (m1 := .code) (by decide +kernel) ?_)
    refine Lx.name h (delim_append (by decide +kernel)) ?_
    exact Lx.clo (a := utf8Of "(user_state, parent, context, source, position, &") (by decide +kernel) (by decide +kernel)
      (by decide +kernel) lx_end
  | terminal i s =>
    obtain ⟨v, hv⟩ := h
    simp only [Line.text, lineToks, List.append_assoc, List.cons_append]
    refine Lx.let (delim_append (by decide +kernel)) (Lx.app (m1 := .byte₀) (by decide +kernel) ?_)
    rw [show utf8Of "');" = 39 :: utf8Of ");" by decide +kernel]
    exact run_byte hv (by decide +kernel) lx_end
  | varName i v f =>
    simp only [Line.text, lineToks, List.append_assoc, List.cons_append]
    refine Lx.let (delim_append (by decide +kernel)) (Lx.app (m1 := .code) (by decide +kernel) ?_)
    refine Lx.name h.1 (delim_append (by decide +kernel)) ?_
    exact Lx.app (m1 := .code) (by decide +kernel) (Lx.name h.2 (by decide +kernel) lx_end)
  | varNameLR i v f =>
    simp only [Line.text, lineToks, List.append_assoc, List.cons_append]
    refine Lx.let (delim_append (by decide +kernel)) (Lx.app (m1 := .code) (by decide +kernel) ?_)
    refine Lx.name h.1 (delim_append (by decide +kernel)) ?_
    exact Lx.app (m1 := .code) (by decide +kernel) (Lx.name h.2 (by decide +kernel) lx_end)
  | inlined i f =>
    simp only [Line.text, lineToks, List.append_assoc, List.cons_append]
    refine Lx.let (delim_append (by decide +kernel)) (Lx.app (m1 := .code) (by decide +kernel) ?_)
    exact Lx.name h (by decide +kernel) (by decide +kernel)
  | involvedSet vs =>
    simp only [Line.text, lineToks, List.append_assoc]
    refine Lx.app (m1 := .code) (by decide +kernel) ?_
    exact lx_variants h (by decide +kernel) (by decide +kernel)

theorem exec_lex (i : Nat) : Lx .code (Line.exec i).text (lineToks (.exec i)) .code := by
  simp only [Line.text, lineToks, List.append_assoc]
  exact Lx.clo (a := []) (by decide +kernel) (us := []) (by decide +kernel) (by decide +kernel) (by decide +kernel)

end PP.Gen.Text
