import Verif.Lemmas.Text.File

/-! # Reading the tokens of the generated files -/
namespace PP.Gen.Text
open PP.Run

theorem strip_append (a b : List Tok) : strip a (a ++ b) = some b := by
  induction a with
  | nil => rfl
  | cons x xs ih => simp [strip, ih]

theorem mapM_some {α β γ : Type} {f : β → Option γ} {g : α → β} {h : α → γ} : ∀ {l : List α}, (∀ x ∈ l, f (g x) = some (h x)) →
    (l.map g).mapM f = some (l.map h)
  | [], _ => rfl
  | a :: l, hl => by
    rw [List.map_cons, List.mapM_cons, hl a (by simp), mapM_some fun x hx => hl x (by simp [hx])]; rfl

theorem upTo_append {s : Tok} {a b : List Tok} (h : s ∉ a) : upTo s (a ++ s :: b) = some (a, b) := by
  induction a with
  | nil => simp [upTo]
  | cons x xs ih =>
    simp only [List.mem_cons, not_or] at h
    simp [upTo, Ne.symm h.1, ih h.2]

theorem upToClose_append {a b : List Tok} (h1 : Tok.p 123 ∉ a) (h2 : Tok.p 125 ∉ a) : upToClose 0 (a ++ .p 125 :: b) = some (a, b) := by
  induction a with
  | nil => simp [upToClose]
  | cons x xs ih =>
    simp only [List.mem_cons, not_or] at h1 h2
    simp only [List.cons_append, upToClose]
    rw [if_neg (fun h => h2.1 h.1.symm), if_neg (Ne.symm h2.1), if_neg (Ne.symm h1.1), ih h1.2 h2.2]

theorem split_clean {s : Tok} {a : List Tok} (h : s ∉ a) : splitTok s a = [a] := by
  induction a with
  | nil => rfl
  | cons x xs ih =>
    simp only [List.mem_cons, not_or] at h
    simp [splitTok, Ne.symm h.1, ih h.2]

theorem split_append {s : Tok} {a b : List Tok} (h : s ∉ a) : splitTok s (a ++ s :: b) = a :: splitTok s b := by
  induction a with
  | nil => simp [splitTok]
  | cons x xs ih =>
    simp only [List.mem_cons, not_or] at h
    simp [splitTok, Ne.symm h.1, ih h.2]

theorem inside_append (c : Tok) (a : List Tok) : inside c (a ++ [c]) = some a := by simp [inside]

/-! ## Statements -/

theorem tk_let : toks "let" = [.id (utf8Of "let")] := by decide +kernel
theorem tk_eq : toks "=" = [.p 61] := by decide +kernel
theorem tk_open : toks "[" = [.p 91] := by decide +kernel
theorem tk_close : toks ")" = [.p 41] := by decide +kernel
theorem tk_amp : toks "(&" = [.p 40, .p 38] := by decide +kernel
theorem tk_amp2 : toks ", &" = [.p 44, .p 38] := by decide +kernel
theorem tk_str : toks "= _string_terminal_opt_ascii(" = [.p 61, .id (utf8Of "_string_terminal_opt_ascii"), .p 40] := by decide +kernel
theorem tk_range : toks "= _ordered_choice_match_range(" = [.p 61, .id (utf8Of "_ordered_choice_match_range"), .p 40] := by decide +kernel
theorem tk_term : toks "= _terminal(" = [.p 61, .id (utf8Of "_terminal"), .p 40] := by decide +kernel
theorem tk_hook : toks "(user_state, parent, context, source, position, &" = [.p 40, .id (utf8Of "user_state"), .p 44, .id (utf8Of "parent"), .p 44,
    .id (utf8Of "context"), .p 44, .id (utf8Of "source"), .p 44, .id (utf8Of "position"), .p 44, .p 38] := by decide +kernel
theorem tk_var : toks "= _var_name(user_state, Rules::" = [.p 61, .id (utf8Of "_var_name"), .p 40, .id (utf8Of "user_state"), .p 44,
    .id (utf8Of "Rules"), .p 58, .p 58] := by decide +kernel
theorem tk_ctx : toks ", context, " = [.p 44, .id (utf8Of "context"), .p 44] := by decide +kernel
theorem tk_lr : toks "= _var_name_indirect_left_recursion(user_state, &involved_set, Rules::" = [.p 61, .id (utf8Of "_var_name_indirect_left_recursion"),
    .p 40, .id (utf8Of "user_state"), .p 44, .p 38, .id (utf8Of "involved_set"), .p 44, .id (utf8Of "Rules"), .p 58, .p 58] := by decide +kernel
theorem tk_move : toks "= move |parent: Key, source: &Source, position: u32|" = .p 61 :: toks "move |parent: Key, source: &Source, position: u32|" := by
  decide +kernel
theorem tk_moved : toks "move |parent: Key, source: &Source, position: u32|" = [.id (utf8Of "move"), .p 124, .id (utf8Of "parent"), .p 58, .id (utf8Of "Key"),
    .p 44, .id (utf8Of "source"), .p 58, .p 38, .id (utf8Of "Source"), .p 44, .id (utf8Of "position"), .p 58, .id (utf8Of "u32"), .p 124] := by decide +kernel
theorem tk_inl : toks "(user_state, parent, context, source, position)" = [.p 40, .id (utf8Of "user_state"), .p 44, .id (utf8Of "parent"), .p 44,
    .id (utf8Of "context"), .p 44, .id (utf8Of "source"), .p 44, .id (utf8Of "position"), .p 41] := by decide +kernel
theorem tk_exec : toks "(parent, source, position)" = [.p 40, .id (utf8Of "parent"), .p 44, .id (utf8Of "source"), .p 44, .id (utf8Of "position"), .p 41] := by
  decide +kernel
theorem tk_rules : toks "Rules::" = [.id (utf8Of "Rules"), .p 58, .p 58] := by decide +kernel
theorem tk_inv : toks "let involved_set: Vec<Rules> = [" = .id (utf8Of "let") :: .id (utf8Of "involved_set") :: (toks ": Vec<Rules> =" ++ toks "[") := by
  decide +kernel
theorem tk_vec : toks "].to_vec()" = .p 93 :: toks ".to_vec()" := by decide +kernel
theorem tk_vec2 : toks ".to_vec()" = [.p 46, .id (utf8Of "to_vec"), .p 40, .p 41] := by decide +kernel
theorem tk_ty : toks ": Vec<Rules> =" = [.p 58, .id (utf8Of "Vec"), .p 60, .id (utf8Of "Rules"), .p 62, .p 61] := by decide +kernel

/-- The parameters every rule function is called with. -/
def allParams : List Arg := [.var (utf8Of "user_state"), .var (utf8Of "parent"), .var (utf8Of "context"), .var (utf8Of "source"), .var (utf8Of "position")]

/-- The statement a line is. -/
def lineLet : Line → Let
  | .stringTerminal i _ => ⟨clo i, .call [] []⟩
  | .stringTerminalOptAscii i d => ⟨clo i, .call (utf8Of "_string_terminal_opt_ascii") [.bytes (d.map UInt8.ofNat)]⟩
  | .matchRange i a b => ⟨clo i, .call (utf8Of "_ordered_choice_match_range") [.num a, .num b]⟩
  | .unary op i j => ⟨clo i, .call op.text [.ref (clo j)]⟩
  | .binary op i j k => ⟨clo i, .call op.text [.ref (clo j), .ref (clo k)]⟩
  | .hooked i nm j => ⟨clo i, .call nm (allParams ++ [.ref (clo j)])⟩
  | .terminal i s => ⟨clo i, .call (utf8Of "_terminal") [.byte s]⟩
  | .varName i v f => ⟨clo i, .call (utf8Of "_var_name") [.var (utf8Of "user_state"), .variant v, .var (utf8Of "context"), .var f]⟩
  | .involvedSet vs => ⟨utf8Of "involved_set", .variants vs⟩
  | .varNameLR i v f => ⟨clo i, .call (utf8Of "_var_name_indirect_left_recursion")
      [.var (utf8Of "user_state"), .ref (utf8Of "involved_set"), .variant v, .var (utf8Of "context"), .var f]⟩
  | .inlined i f => ⟨clo i, .closure f allParams⟩
  | .exec i => ⟨clo i, .call [] []⟩

theorem readCall_ok {f : Bytes} {l : List Tok} {args : List Arg} (h : (elems l).mapM readArg = some args) :
    readCall (.id f :: .p 40 :: (l ++ [.p 41])) = some (f, args) := by
  simp [readCall, inside_append, h]

theorem readLet_call {x f : Bytes} {l : List Tok} {args : List Arg} (h : (elems l).mapM readArg = some args) :
    readLet (.id (utf8Of "let") :: .id x :: .p 61 :: .id f :: .p 40 :: (l ++ [.p 41])) = some ⟨x, .call f args⟩ := by
  have h1 : strip (toks "move |parent: Key, source: &Source, position: u32|") (.id f :: .p 40 :: (l ++ [.p 41])) = none := by
    rw [tk_moved]
    simp only [strip]
    by_cases h : Tok.id (utf8Of "move") = .id f
    · rw [if_pos h, if_neg (by decide)]
    · rw [if_neg h]
  have h2 : strip (toks "[") (.id f :: .p 40 :: (l ++ [.p 41])) = none := by rw [tk_open]; simp [strip]
  simp only [readLet, if_true, tk_eq, strip]
  simp only [readRhs, h1, h2, readCall_ok h]
  rfl

theorem split_ne {s : Tok} {b : List Tok} : splitTok s b ≠ [] := by
  cases b with
  | nil => simp [splitTok]
  | cons t ts =>
    simp only [splitTok]
    split
    · simp
    · split <;> simp

theorem elems_one {a : List Tok} (h : Tok.p 44 ∉ a) (hne : a ≠ []) : elems a = [a] := by
  simp [elems, split_clean h, hne]
theorem elems_nil : elems [] = [] := by decide
theorem elems_cons {a b : List Tok} (h : Tok.p 44 ∉ a) : elems (a ++ .p 44 :: b) = a :: elems b := by
  simp only [elems, split_append h]
  have h1 : (a :: splitTok (.p 44) b).getLast? = (splitTok (.p 44) b).getLast? := by
    cases hb : splitTok (.p 44) b with
    | nil => exact (split_ne hb).elim
    | cons x xs => exact List.getLast?_cons_cons
  rw [h1]
  split
  · rw [List.dropLast_cons_of_ne_nil split_ne]
  · rfl

theorem variants_read {vs : List Bytes} : (elems (variantToks vs)).mapM readVariant = some vs ∧ Tok.p 93 ∉ variantToks vs := by
  induction vs with
  | nil => exact ⟨by decide, by simp [variantToks]⟩
  | cons v vs ih =>
    have e : readVariant [.id (utf8Of "Rules"), .p 58, .p 58, .id v] = some v := by simp [readVariant]
    cases vs with
    | nil =>
      simp only [variantToks, tk_rules, List.cons_append, List.nil_append]
      refine ⟨?_, by simp⟩
      rw [elems_one (by simp) (by simp)]
      simp [e]
    | cons w ws =>
      simp only [variantToks, tk_rules, List.cons_append, List.nil_append]
      refine ⟨?_, by simpa using ih.2⟩
      have := elems_cons (a := [.id (utf8Of "Rules"), .p 58, .p 58, .id v]) (b := variantToks (w :: ws)) (by simp)
      simp only [List.cons_append, List.nil_append] at this
      rw [this, List.mapM_cons, e, ih.1]; rfl

theorem line_read {l : Line} (h : LineOk l) (hne : ∀ i, l ≠ .exec i) : readLet (lineToks l) = some (lineLet l) := by
  cases l with
  | stringTerminal => exact h.elim
  | exec i => exact (hne i rfl).elim
  | stringTerminalOptAscii i d =>
    simp only [lineToks, lineLet, tk_let, tk_str, tk_close, List.cons_append, List.nil_append]
    exact readLet_call (l := [.bytes (d.map UInt8.ofNat)]) (by simp [elems, splitTok, readArg])
  | matchRange i a b =>
    simp only [lineToks, lineLet, tk_let, tk_range, tk_close, List.cons_append, List.nil_append]
    exact readLet_call (l := [.num (decimal a), .p 44, .num (decimal b)]) (by simp [elems, splitTok, readArg, decimal_spec])
  | unary op i j =>
    simp only [lineToks, lineLet, tk_let, tk_eq, tk_amp, tk_close, List.cons_append, List.nil_append]
    exact readLet_call (l := [.p 38, .id (clo j)]) (by simp [elems, splitTok, readArg])
  | binary op i j k =>
    simp only [lineToks, lineLet, tk_let, tk_eq, tk_amp, tk_amp2, tk_close, List.cons_append, List.nil_append]
    exact readLet_call (l := [.p 38, .id (clo j), .p 44, .p 38, .id (clo k)]) (by simp [elems, splitTok, readArg])
  | hooked i nm j =>
    simp only [lineToks, lineLet, tk_let, tk_eq, tk_hook, tk_close, List.cons_append, List.nil_append]
    exact readLet_call (l := [.id (utf8Of "user_state"), .p 44, .id (utf8Of "parent"), .p 44,
      .id (utf8Of "context"), .p 44, .id (utf8Of "source"), .p 44, .id (utf8Of "position"), .p 44, .p 38, .id (clo j)])
      (by simp [elems, splitTok, readArg, allParams])
  | terminal i s =>
    simp only [lineToks, lineLet, tk_let, tk_term, tk_close, List.cons_append, List.nil_append]
    exact readLet_call (l := [.byte s]) (by simp [elems, splitTok, readArg])
  | varName i v f =>
    simp only [lineToks, lineLet, tk_let, tk_var, tk_ctx, tk_close, List.cons_append, List.nil_append]
    exact readLet_call (l := [.id (utf8Of "user_state"), .p 44, .id (utf8Of "Rules"), .p 58, .p 58, .id v, .p 44, .id (utf8Of "context"), .p 44, .id f])
      (by simp [elems, splitTok, readArg])
  | varNameLR i v f =>
    simp only [lineToks, lineLet, tk_let, tk_lr, tk_ctx, tk_close, List.cons_append, List.nil_append]
    exact readLet_call (l := [.id (utf8Of "user_state"), .p 44, .p 38, .id (utf8Of "involved_set"), .p 44, .id (utf8Of "Rules"), .p 58, .p 58, .id v,
      .p 44, .id (utf8Of "context"), .p 44, .id f]) (by simp [elems, splitTok, readArg])
  | inlined i f =>
    simp only [lineToks, lineLet, tk_let, tk_move, List.cons_append, List.nil_append]
    have h0 : ∀ ts, strip (toks "[") (toks "move |parent: Key, source: &Source, position: u32|" ++ ts) = none := by
      intro ts; rw [tk_open, tk_moved]; simp [strip]
    have h1 : unblock (.id f :: toks "(user_state, parent, context, source, position)") = some (.id f :: toks "(user_state, parent, context, source, position)") := rfl
    have h2 : readCall (.id f :: toks "(user_state, parent, context, source, position)") = some (f, allParams) := by
      rw [tk_inl]
      exact readCall_ok (l := [.id (utf8Of "user_state"), .p 44, .id (utf8Of "parent"), .p 44,
        .id (utf8Of "context"), .p 44, .id (utf8Of "source"), .p 44, .id (utf8Of "position")]) (by simp [elems, splitTok, readArg, allParams])
    simp only [readLet, if_true, tk_eq, strip]
    simp only [readRhs, h0, strip_append, h1]
    simp [h2]
  | involvedSet vs =>
    obtain ⟨h1, h2⟩ := variants_read (vs := vs)
    simp only [lineToks, lineLet, tk_inv, tk_vec, List.cons_append, List.append_assoc]
    have h3 : strip (toks "=") (toks ": Vec<Rules> =" ++ (toks "[" ++ (variantToks vs ++ .p 93 :: toks ".to_vec()"))) = none := by
      rw [tk_eq, tk_ty]; simp [strip]
    have h4 : readRhs (toks "[" ++ (variantToks vs ++ .p 93 :: toks ".to_vec()")) = some (.variants vs) := by
      simp [readRhs, strip_append, upTo_append h2, h1]
    simp only [readLet, if_true, h3, strip_append]
    simp [h4]

/-! ## Functions -/

theorem line_clean (l : Line) : Tok.p 59 ∉ lineToks l ∧ Tok.p 123 ∉ lineToks l ∧ Tok.p 125 ∉ lineToks l := by
  have hv : ∀ vs, Tok.p 59 ∉ variantToks vs ∧ Tok.p 123 ∉ variantToks vs ∧ Tok.p 125 ∉ variantToks vs := by
    intro vs
    induction vs with
    | nil => simp [variantToks]
    | cons v vs ih => cases vs <;> simp [variantToks, tk_rules] <;> simpa using ih
  cases l <;> simp [lineToks, tk_let, tk_str, tk_close, tk_range, tk_eq, tk_amp, tk_amp2, tk_hook, tk_term, tk_var, tk_ctx, tk_lr, tk_move, tk_moved,
    tk_inl, tk_exec, tk_inv, tk_vec, tk_vec2, tk_ty, tk_open, hv]

theorem body_clean (ls : List Line) (i : Nat) : Tok.p 123 ∉ bodyToks ls i ∧ Tok.p 125 ∉ bodyToks ls i := by
  unfold bodyToks
  induction ls with
  | nil => exact (line_clean (.exec i)).2
  | cons l ls ih =>
    have := line_clean l
    simp_all

theorem body_split (ls : List Line) (i : Nat) : splitTok (.p 59) (bodyToks ls i) = ls.map lineToks ++ [lineToks (.exec i)] := by
  unfold bodyToks
  induction ls with
  | nil => exact split_clean (line_clean (.exec i)).1
  | cons l ls ih =>
    have := split_append (b := (ls.map fun l => lineToks l ++ [.p 59]).flatten ++ lineToks (.exec i)) (line_clean l).1
    simp only [List.map_cons, List.flatten_cons, List.append_assoc, List.cons_append, List.nil_append]
    rw [this, ih]

theorem body_read {ls : List Line} {i : Nat} (h : ∀ l ∈ ls, LineOk l) (h' : ∀ l ∈ ls, ∀ i, l ≠ .exec i) :
    readBody (bodyToks ls i) = some (ls.map lineLet, clo i) := by
  have h1 : readTail (lineToks (.exec i)) = some (clo i) := by simp [readTail, lineToks]
  simp only [readBody, body_split]
  rw [show (ls.map lineToks ++ [lineToks (.exec i)]).dropLast = ls.map lineToks by simp,
    mapM_some fun l hl => line_read (h l hl) (h' l hl),
    show (ls.map lineToks ++ [lineToks (.exec i)]).getLastD [] = lineToks (.exec i) by simp [List.getLastD_eq_getLast?]]
  simp [h1]

theorem fun_read {k : RuleCode} {ls : List Line} {i : Nat} (h : CodeOk k ls i) (rest : List Tok) :
    readFun (funToks k.name ls i ++ rest) = some (⟨k.name, ls.map lineLet, clo i⟩, rest) := by
  have e : toks "<T: Context>(user_state: &RefCell<UserState>, parent: Key, context: &RefCell<T>, source: &Source, position: u32) -> (bool, u32) {" =
    toks "<T: Context>(" ++ (toks "user_state: &RefCell<UserState>, parent: Key, context: &RefCell<T>, source: &Source, position: u32" ++
      .p 41 :: toks "-> (bool, u32) {") := by decide +kernel
  have h1 : Tok.p 41 ∉ toks "user_state: &RefCell<UserState>, parent: Key, context: &RefCell<T>, source: &Source, position: u32" := by decide +kernel
  obtain ⟨b1, b2⟩ := body_clean ls i
  simp only [funToks, e, List.append_assoc, List.cons_append, List.nil_append]
  simp only [readFun, strip_append, Option.bind_eq_bind, Option.bind_some, upTo_append h1, upToClose_append b1 b2, body_read h.ok h.body]
  simp [params]

/-! ## Files -/

/-- The items of a generated file. -/
def itemsOf (hooks : List Bytes) (ks : List RuleCode) (bs : List (List Line × Nat)) : List Item :=
  [.glob, .refCell] ++ ((if hooks.isEmpty then [] else [.hooks hooks]) ++
    (ks.zip bs).map fun y => .fn ⟨y.1.name, y.2.1.map lineLet, clo y.2.2⟩)

theorem names_read {vs : List Bytes} : (elems (nameToks vs)).mapM readIdent = some vs := by
  induction vs with
  | nil => decide
  | cons v vs ih =>
    have e : readIdent [.id v] = some v := rfl
    cases vs with
    | nil =>
      simp only [nameToks]
      rw [elems_one (by simp) (by simp)]; simp [e]
    | cons w ws =>
      have := elems_cons (a := [.id v]) (b := nameToks (w :: ws)) (by simp)
      simp only [List.cons_append, List.nil_append] at this
      simp only [nameToks]
      rw [this, List.mapM_cons, e, ih]; rfl

theorem names_clean {vs : List Bytes} {c : UInt8} (h : c ≠ 44) : Tok.p c ∉ nameToks vs := by
  induction vs with
  | nil => simp [nameToks]
  | cons v vs ih => cases vs <;> simp_all [nameToks]

theorem fun_not_use {name ls i rest} : readUse (funToks name ls i ++ rest) = none := by
  have e : toks "#[allow(dead_code)] pub fn" = .p 35 :: (toks "#[allow(dead_code)] pub fn").tail := by decide +kernel
  have e2 : toks "use" = [.id (utf8Of "use")] := by decide +kernel
  simp only [readUse, funToks]
  rw [e, e2]
  simp [strip]

theorem funs_read {ks bs} (h : CodesOk ks bs) : ∀ n, ks.length ≤ n → readItems n (allToks ks bs) =
    some ((ks.zip bs).map fun y => .fn ⟨y.1.name, y.2.1.map lineLet, clo y.2.2⟩) := by
  induction h with
  | nil => intro n _; cases n <;> rfl
  | @cons k ls i ks bs h1 _ ih =>
    intro n hn
    cases n with
    | zero => simp at hn
    | succ n =>
      have hne : allToks (k :: ks) ((ls, i) :: bs) = funToks k.name ls i ++ allToks ks bs := rfl
      obtain ⟨t, ts, ht⟩ : ∃ t ts, funToks k.name ls i ++ allToks ks bs = t :: ts := by
        cases hh : funToks k.name ls i ++ allToks ks bs with
        | nil => simp [funToks] at hh
        | cons t ts => exact ⟨t, ts, rfl⟩
      rw [hne, ht, readItems, ← ht, fun_not_use]
      · simp only [fun_read h1, Option.bind_eq_bind, Option.bind_some, ih n (by simpa using hn)]
        rfl
      · simp

theorem codes_toks_len {ks bs} (h : CodesOk ks bs) : ks.length ≤ (allToks ks bs).length := by
  induction h with
  | nil => simp
  | cons h _ ih => simp only [allToks, List.length_append, List.length_cons, funToks]; omega

theorem parser_read {c : GeneratedCode} {bs} (h : CodesOk c.rules bs) (hh : ∀ v ∈ c.hookImports, IsIdent v) :
    readParser (parserFile c) = some (itemsOf c.hookImports c.rules bs) := by
  have e : headToks = [.p 35, .p 33, .p 91, .id (utf8Of "allow"), .p 40, .id (utf8Of "non_camel_case_types"), .p 41, .p 93,
      .p 35, .p 33, .p 91, .id (utf8Of "allow"), .p 40, .id (utf8Of "unused_variables"), .p 41, .p 93,
      .p 35, .p 33, .p 91, .id (utf8Of "allow"), .p 40, .id (utf8Of "unused_imports"), .p 41, .p 93] ++
      (toks "use" ++ (toks "crate::*" ++ .p 59 :: (toks "use" ++ (toks "std::cell::RefCell" ++ [.p 59])))) := by decide +kernel
  have e2 : toks "use" = [.id (utf8Of "use")] := by decide +kernel
  have g1 : ∀ ts, readUse (toks "use" ++ (toks "crate::*" ++ .p 59 :: ts)) = some (.glob, ts) := by
    intro ts
    simp only [readUse, strip_append, Option.bind_eq_bind, Option.bind_some, upTo_append (show Tok.p 59 ∉ toks "crate::*" by decide +kernel), if_true]
  have g2 : ∀ ts, readUse (toks "use" ++ (toks "std::cell::RefCell" ++ .p 59 :: ts)) = some (.refCell, ts) := by
    intro ts
    simp only [readUse, strip_append, Option.bind_eq_bind, Option.bind_some,
      upTo_append (show Tok.p 59 ∉ toks "std::cell::RefCell" by decide +kernel), if_true]
    rw [if_neg (by decide +kernel)]
  have item : ∀ {ts us : List Tok} {i : Item} {n : Nat}, ts ≠ [] → readUse ts = some (i, us) → readItems (n + 1) ts = (readItems n us).map (i :: ·) := by
    intro ts us i n hne hr
    cases ts with
    | nil => exact (hne rfl).elim
    | cons t ts => simp only [readItems, hr]
  have hs : ∀ ts, skipAllows (headToks ++ ts) = toks "use" ++ (toks "crate::*" ++ .p 59 :: (toks "use" ++ (toks "std::cell::RefCell" ++ .p 59 :: ts))) := by
    intro ts
    rw [e]
    simp only [List.cons_append, List.nil_append, List.append_assoc, skipAllows, if_true]
    rw [e2]
    rfl
  have g3 : ∀ (hooks : List Bytes) ts, readUse (toks "use crate::hooked_calls::{" ++ (nameToks hooks ++ toks "};") ++ ts) = some (.hooks hooks, ts) := by
    intro hooks ts
    have e3 : toks "use crate::hooked_calls::{" = toks "use" ++ (toks "crate::hooked_calls::" ++ [.p 123]) := by decide +kernel
    have e4 : toks "};" = [.p 125, .p 59] := by decide +kernel
    have e5 : toks "crate::hooked_calls::" = [.id (utf8Of "crate"), .p 58, .p 58, .id (utf8Of "hooked_calls"), .p 58, .p 58] := by decide +kernel
    have e6 : toks "use" ++ (toks "crate::hooked_calls::" ++ [.p 123]) ++ (nameToks hooks ++ [.p 125, .p 59]) ++ ts =
        toks "use" ++ ((toks "crate::hooked_calls::" ++ .p 123 :: (nameToks hooks ++ [.p 125])) ++ .p 59 :: ts) := by simp
    rw [e3, e4, e6]
    have hc : Tok.p 59 ∉ toks "crate::hooked_calls::" ++ .p 123 :: (nameToks hooks ++ [.p 125]) := by
      rw [e5]; simp [names_clean (vs := hooks) (c := 59) (by decide)]
    have n1 : ¬ toks "crate::hooked_calls::" ++ .p 123 :: (nameToks hooks ++ [.p 125]) = toks "crate::*" := by
      rw [e5, show toks "crate::*" = [.id (utf8Of "crate"), .p 58, .p 58, .p 42] by decide +kernel]; simp
    have n2 : ¬ toks "crate::hooked_calls::" ++ .p 123 :: (nameToks hooks ++ [.p 125]) = toks "std::cell::RefCell" := by
      rw [e5, show toks "std::cell::RefCell" = .id (utf8Of "std") :: (toks "std::cell::RefCell").tail by decide +kernel]
      simp only [List.cons_append, List.cons.injEq, Tok.id.injEq]
      intro h
      exact absurd h.1 (by decide +kernel)
    simp only [readUse, strip_append, Option.bind_eq_bind, Option.bind_some, upTo_append hc, if_neg n1, if_neg n2, inside_append, names_read]
  have hl : ∀ (n : Nat) (ts : List Tok), readItems (n + 2) (toks "use" ++ (toks "crate::*" ++ .p 59 :: (toks "use" ++ (toks "std::cell::RefCell" ++ .p 59 :: ts)))) =
      (readItems n ts).map fun l => .glob :: .refCell :: l := by
    intro n ts
    rw [item (by rw [e2]; simp) (g1 _), item (by rw [e2]; simp) (g2 _)]
    cases readItems n ts <;> rfl
  simp only [readParser, parser_lex h hh, Option.bind_eq_bind, Option.bind_some, hs]
  have hlen := codes_toks_len h
  by_cases h0 : c.hookImports.isEmpty = true
  · obtain ⟨n, hn⟩ : ∃ n, (headToks ++ (hookToks c.hookImports ++ allToks c.rules bs)).length = n + 2 ∧ c.rules.length ≤ n := by
      have : 3 ≤ headToks.length := by decide +kernel
      refine ⟨(headToks ++ (hookToks c.hookImports ++ allToks c.rules bs)).length - 2, ?_, ?_⟩ <;> simp only [List.length_append] <;> omega
    rw [hn.1, hl]
    have : hookToks c.hookImports = [] := by simp [hookToks, h0]
    rw [this, List.nil_append, funs_read h _ hn.2]
    simp [itemsOf, h0]
  · obtain ⟨n, hn⟩ : ∃ n, (headToks ++ (hookToks c.hookImports ++ allToks c.rules bs)).length = (n + 1) + 2 ∧ c.rules.length ≤ n := by
      have : 3 ≤ headToks.length := by decide +kernel
      refine ⟨(headToks ++ (hookToks c.hookImports ++ allToks c.rules bs)).length - 3, ?_, ?_⟩ <;> simp only [List.length_append] <;> omega
    rw [hn.1, hl]
    have : hookToks c.hookImports = toks "use crate::hooked_calls::{" ++ (nameToks c.hookImports ++ toks "};") := by simp [hookToks, h0]
    rw [this, item (by rw [show toks "use crate::hooked_calls::{" = .id (utf8Of "use") :: (toks "use crate::hooked_calls::{").tail by decide +kernel]; simp)
      (g3 _ _), funs_read h _ hn.2]
    simp [itemsOf, h0]

theorem rules_read {c : GeneratedCode} (h : ∀ v ∈ c.variants, IsIdent v) (hn : c.numRules = c.variants.length) :
    readRules (rulesFile c) = if (c.variants.map lower).Nodup ∧ ∀ v ∈ c.variants, v ∉ keywords then some c.variants else none := by
  have h1 : Tok.p 125 ∉ variantLines c.variants := by
    generalize c.variants = vs
    induction vs with
    | nil => simp [variantLines]
    | cons v vs ih => simp [variantLines]
  have h2 : (elems (variantLines c.variants)).mapM readIdent = some c.variants := by
    generalize c.variants = vs
    induction vs with
    | nil => decide
    | cons v vs ih =>
      have := elems_cons (a := [.id v]) (b := variantLines vs) (by simp)
      simp only [List.cons_append, List.nil_append] at this
      rw [show variantLines (v :: vs) = .id v :: .p 44 :: variantLines vs from rfl, this, List.mapM_cons, ih]; rfl
  simp only [readRules, rules_lex h, Option.bind_eq_bind, Option.bind_some, strip_append, upTo_append h1, h2, hn, (decimal_spec c.variants.length).2.2, true_and]

end PP.Gen.Text
