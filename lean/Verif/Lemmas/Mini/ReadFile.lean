import Verif.Lemmas.Mini.Lines

/-! # Reading generated files with the reader of the executed fragment -/
namespace PP.Mini
open PP.Gen
open PP.Gen.Text (Tok toks lineToks lineLet clo LineOk bodyToks funToks allToks headToks hookToks variantLines CodeOk CodesOk)

theorem of_p {t : Tok} {c : UInt8} (h : T.of t = .p c.toNat) : t = .p c := by
  cases t <;> simp [T.of] at h
  · split at h <;> cases h
  · rw [UInt8.toNat_inj.mp h]

theorem map_clean {ts : List Tok} {c : UInt8} (h : Tok.p c ∉ ts) : T.p c.toNat ∉ ts.map T.of := by
  intro hm
  obtain ⟨t, ht, e⟩ := List.mem_map.mp hm
  exact h (of_p e ▸ ht)

theorem skip_clean {o c : Nat} {d : Nat} : ∀ {ts us : List T}, .p o ∉ ts → .p c ∉ ts → skipGroup o c d (ts ++ us) = skipGroup o c d us
  | [], us, _, _ => rfl
  | t :: ts, us, h1, h2 => by
    simp only [List.mem_cons, not_or] at h1 h2
    rw [List.cons_append, skipGroup, if_neg (Ne.symm h2.1), if_neg (Ne.symm h1.1)]
    exact skip_clean h1.2 h2.2

/-- The tokens of the parameters. -/
def hdrT : List T := [.p 60, .id n!"T", .p 58, .id n!"Context", .p 62, .p 40, .id n!"user_state", .p 58, .p 38, .id n!"RefCell", .p 60, .id n!"UserState", .p 62,
  .p 44, .id n!"parent", .p 58, .id n!"Key", .p 44, .id n!"context", .p 58, .p 38, .id n!"RefCell", .p 60, .id n!"T", .p 62, .p 44, .id n!"source", .p 58,
  .p 38, .id n!"Source", .p 44, .id n!"position", .p 58, .id n!"u32", .p 41, .p 45, .p 62, .p 40, .id n!"bool", .p 44, .id n!"u32", .p 41, .p 123]

theorem hdr_T : (toks "<T: Context>(user_state: &RefCell<UserState>, parent: Key, context: &RefCell<T>, source: &Source, position: u32) -> (bool, u32) {").map T.of
    = hdrT := by decide +kernel

theorem skip_arrow {stops : List Nat} {ts : List T} (h : 45 ∉ stops) : skipTo stops 0 (.p 45 :: .p 62 :: ts) = skipTo stops 0 ts := by
  rw [skipTo.eq_def]; simp [h]

/-- The lines of a function consist of ordinary words. -/
structure Wordy (ls : List Text.Let) : Prop where
  lets : ∀ l ∈ ls, Word l.x ∧ RhsOk l.rhs

theorem word_clo (i : Nat) : Word (clo i) := by
  refine ⟨?_, ?_⟩
  · intro c hc e
    subst e
    rcases List.mem_append.mp hc with h | h
    · exact absurd h (by decide +kernel)
    · exact absurd ((Text.decimal_spec i).2.1 _ h) (by decide)
  · intro h
    have : ∀ x ∈ specials, ∀ y, utf8Of "closure_" ++ y ≠ x := by
      have : ∀ x ∈ specials, (x.take 2 ≠ (utf8Of "closure_").take 2) := by decide +kernel
      intro x hx y e
      refine this x hx ?_
      rw [← e, List.take_append_of_le_length (by decide +kernel)]
    exact this _ h _ rfl

theorem fn_read {name : Bytes} {ls : List Line} {i : Nat} {ts : List T} (h : ∀ l ∈ ls, LineOk l) (h' : ∀ l ∈ ls, ∀ i, l ≠ .exec i)
    (hw : Wordy (ls.map lineLet)) :
    readFn ⟨none, []⟩ (.id (nameOf name) :: (hdrT ++ ((bodyToks ls i).map T.of ++ .p 125 :: ts))) =
      some (some (fnOf false ⟨name, ls.map lineLet, clo i⟩), ts) := by
  have hc := Text.body_clean ls i
  have c1 : T.p 123 ∉ (bodyToks ls i).map T.of := map_clean (c := 123) hc.1
  have c2 : T.p 125 ∉ (bodyToks ls i).map T.of := map_clean (c := 125) hc.2
  have hg : skipGroup 123 125 0 ((bodyToks ls i).map T.of ++ .p 125 :: ts) = some ts := by
    rw [skip_clean c1 c2]; simp [skipGroup]
  have hb := blk_read (s := ⟨none, []⟩) (word_clo i) (n := 16 * ((bodyToks ls i).map T.of ++ .p 125 :: ts).length + 16) (ts := ts) hw.lets (by
    rw [← body_T h h']; simp only [List.length_append, List.length_cons]; omega)
  rw [← body_T h h'] at hb
  generalize (bodyToks ls i).map T.of ++ .p 125 :: ts = us at hg hb ⊢
  have h1 : ∀ us, skipTo [40] 0 (hdrT ++ us) = some (hdrT.drop 5 ++ us) := by intro us; simp [hdrT, skip_p, skip_id]
  have h2 : ∀ us, readParams 200 [] (hdrT.drop 6 ++ us) = some ([n!"user_state", n!"parent", n!"context", n!"source", n!"position"], hdrT.drop 35 ++ us) := by
    intro us; simp [hdrT, readParams, skip_p, skip_id]
  have h3 : ∀ us, skipTo [123, 59] 0 (hdrT.drop 35 ++ us) = some (.p 123 :: us) := by intro us; simp [hdrT, skip_arrow, skip_p, skip_id]
  have h4 : ∀ us, readRecv (hdrT.drop 6 ++ us) = (.none, hdrT.drop 6 ++ us) := by intro us; simp [hdrT, readRecv]
  have h5 : ∀ us, expect (.p 40) (hdrT.drop 5 ++ us) = some (hdrT.drop 6 ++ us) := by intro us; simp [hdrT, expect]
  simp only [readFn, h1, h2, h3, h4, h5, hg, hb, Option.bind_eq_bind, Option.bind_some, if_true, fnOf]

theorem fun_T {name : Bytes} {ls : List Line} {i : Nat} : (funToks name ls i).map T.of = .p 35 :: .p 91 :: .id n!"allow" :: .p 40 :: .id n!"dead_code" :: .p 41 ::
    .p 93 :: .id n!"pub" :: .id n!"fn" :: .id (nameOf name) :: (hdrT ++ ((bodyToks ls i).map T.of ++ [.p 125])) := by
  have : (toks "#[allow(dead_code)] pub fn").map T.of = [.p 35, .p 91, .id n!"allow", .p 40, .id n!"dead_code", .p 41, .p 93, .id n!"pub", .id n!"fn"] := by
    decide +kernel
  simp only [funToks, List.map_append, List.map_cons, this, hdr_T, List.cons_append, List.nil_append, List.map_nil]
  rfl

theorem funs_items {ks : List RuleCode} {bs : List (List Line × Nat)} (h : CodesOk ks bs) (hw : ∀ b ∈ bs, Wordy (b.1.map lineLet)) :
    ∀ n, 3 * ks.length + 1 ≤ n → readItems ⟨none, []⟩ false n ((allToks ks bs).map T.of) =
      some (parserItems false ((ks.zip bs).map fun y => ⟨y.1.name, y.2.1.map lineLet, clo y.2.2⟩), []) := by
  induction h with
  | nil => intro n hn; obtain ⟨n, rfl⟩ : ∃ k, n = k + 1 := ⟨n - 1, by omega⟩; rfl
  | @cons k ls i ks bs h1 _ ih =>
    intro n hn
    simp only [List.length_cons] at hn
    obtain ⟨n, rfl⟩ : ∃ k, n = k + 3 := ⟨n - 3, by omega⟩
    have ih := ih (fun b hb => hw b (by simp [hb])) n (by omega)
    have hf := fn_read (name := k.name) (i := i) (ts := (allToks ks bs).map T.of) h1.ok h1.body (hw (ls, i) (by simp))
    simp only [allToks, List.map_append, fun_T, List.cons_append, List.append_assoc, List.nil_append]
    rw [readItems.eq_def]
    simp only [if_true, skipGroup, reduceCtorEq, if_false, T.p.injEq, Nat.reduceEqDiff, Option.bind_eq_bind, Option.bind_some]
    rw [readItems.eq_def]
    simp only [if_true, reduceCtorEq, if_false]
    rw [readItems.eq_def]
    simp only [if_true, reduceCtorEq, if_false, T.id.injEq, Nat.reduceEqDiff, hf, ih, Option.bind_eq_bind, Option.bind_some]
    rfl

def headT : List T := [.p 35, .p 33, .p 91, .id n!"allow", .p 40, .id n!"non_camel_case_types", .p 41, .p 93,
  .p 35, .p 33, .p 91, .id n!"allow", .p 40, .id n!"unused_variables", .p 41, .p 93,
  .p 35, .p 33, .p 91, .id n!"allow", .p 40, .id n!"unused_imports", .p 41, .p 93,
  .id n!"use", .id n!"crate", .p 58, .p 58, .p 42, .p 59,
  .id n!"use", .id n!"std", .p 58, .p 58, .id n!"cell", .p 58, .p 58, .id n!"RefCell", .p 59]

theorem head_T : headToks.map T.of = headT := by decide +kernel

theorem item_attr' {s : Self} {inner : Bool} {n : Nat} {ts us : List T} (h : skipGroup 91 93 0 ts = some us) :
    readItems s inner (n + 1) (.p 35 :: .p 33 :: .p 91 :: ts) = readItems s inner n us := by
  rw [readItems.eq_def]; simp only [if_true, h, Option.bind_eq_bind, Option.bind_some]
theorem item_attr {s : Self} {inner : Bool} {n : Nat} {ts us : List T} (h : skipGroup 91 93 0 ts = some us) :
    readItems s inner (n + 1) (.p 35 :: .p 91 :: ts) = readItems s inner n us := by
  rw [readItems.eq_def]; simp only [if_true, h, Option.bind_eq_bind, Option.bind_some]
theorem item_use {s : Self} {inner : Bool} {n : Nat} {ts us : List T} (h : skipGroup 0 59 0 ts = some us) :
    readItems s inner (n + 1) (.id n!"use" :: ts) = readItems s inner n us := by
  rw [readItems.eq_def]; simp only [if_true, h, Option.bind_eq_bind, Option.bind_some, reduceCtorEq, if_false, T.id.injEq, Nat.reduceEqDiff]
theorem item_pub {s : Self} {inner : Bool} {n : Nat} {ts : List T} : readItems s inner (n + 1) (.id n!"pub" :: ts) = readItems s inner n ts := by
  rw [readItems.eq_def]; simp only [if_true, reduceCtorEq, if_false]

theorem head_items (s : Self) (n : Nat) (ts : List T) : readItems s false (n + 5) (headT ++ ts) = readItems s false n ts := by
  simp only [headT, List.cons_append, List.nil_append]
  rw [item_attr' (us := headT.drop 8 ++ ts) rfl]
  simp only [headT, List.drop, List.cons_append, List.nil_append]
  rw [item_attr' (us := headT.drop 16 ++ ts) rfl]
  simp only [headT, List.drop, List.cons_append, List.nil_append]
  rw [item_attr' (us := headT.drop 24 ++ ts) rfl]
  simp only [headT, List.drop, List.cons_append, List.nil_append]
  rw [item_use (us := headT.drop 30 ++ ts) rfl]
  simp only [headT, List.drop, List.cons_append, List.nil_append]
  rw [item_use (us := ts) rfl]

theorem toks_len {ks : List RuleCode} {bs : List (List Line × Nat)} (h : CodesOk ks bs) : 3 * ks.length ≤ (allToks ks bs).length := by
  induction h with
  | nil => simp
  | @cons k ls i ks bs h _ ih =>
    have e : (funToks k.name ls i).length = ((funToks k.name ls i).map T.of).length := by simp
    rw [fun_T] at e
    simp only [List.length_cons] at e
    simp only [allToks, List.length_append, List.length_cons]
    omega

theorem names_T (vs : List Bytes) : ∀ t ∈ (Text.nameToks vs).map T.of, t ≠ T.p 59 ∧ t ≠ T.p 0 := by
  intro t ht
  obtain ⟨k, hk, rfl⟩ := List.mem_map.mp ht
  have : ∀ vs, ∀ k ∈ Text.nameToks vs, (∃ v, k = .id v) ∨ k = .p 44 := by
    intro vs
    induction vs with
    | nil => simp [Text.nameToks]
    | cons v vs ih =>
      cases vs with
      | nil => simp [Text.nameToks]
      | cons w ws =>
        intro k hk
        simp only [Text.nameToks, List.mem_cons] at hk
        rcases hk with rfl | rfl | hk
        · exact .inl ⟨_, rfl⟩
        · exact .inr rfl
        · exact ih k (by simpa [Text.nameToks] using hk)
  rcases this vs k hk with ⟨v, rfl⟩ | rfl
  · simp [T.of]
  · simp [T.of]

theorem skip_use : ∀ {ts us : List T}, (∀ t ∈ ts, t ≠ T.p 59 ∧ t ≠ T.p 0) → skipGroup 0 59 0 (ts ++ .p 59 :: us) = some us
  | [], us, _ => by simp [skipGroup]
  | t :: ts, us, h => by
    have h1 := h t (by simp)
    rw [List.cons_append, skipGroup, if_neg h1.1, if_neg h1.2]
    exact skip_use fun t ht => h t (by simp [ht])

/-- The import of hooked calls is skipped. -/
theorem hooks_items (s : Self) (hooks : List Bytes) :
    ∃ m, m ≤ 1 ∧ ∀ n ts, readItems s false (n + m) ((hookToks hooks).map T.of ++ ts) = readItems s false n ts := by
  by_cases h : hooks.isEmpty
  · exact ⟨0, by omega, by simp [hookToks, h]⟩
  · refine ⟨1, by omega, fun n ts => ?_⟩
    have e1 : (toks "use crate::hooked_calls::{").map T.of = [.id n!"use", .id n!"crate", .p 58, .p 58, .id n!"hooked_calls", .p 58, .p 58, .p 123] := by
      decide +kernel
    have e2 : (toks "};").map T.of = [.p 125, .p 59] := by decide +kernel
    simp only [hookToks, h, if_false, List.map_append, e1, e2, List.cons_append, List.nil_append, List.append_assoc, Bool.false_eq_true]
    refine item_use ?_
    have := skip_use (ts := .id n!"crate" :: .p 58 :: .p 58 :: .id n!"hooked_calls" :: .p 58 :: .p 58 :: .p 123 :: ((Text.nameToks hooks).map T.of ++ [.p 125]))
      (us := ts) (by
        intro t ht
        simp only [List.mem_cons, List.mem_append, List.not_mem_nil, or_false] at ht
        rcases ht with rfl | rfl | rfl | rfl | rfl | rfl | rfl | ht | rfl
        all_goals first | exact names_T _ _ ht | exact ⟨by simp, by simp⟩)
    simpa using this

theorem parser_items {c : GeneratedCode} {bs : List (List Line × Nat)} (h : CodesOk c.rules bs) (hh : ∀ v ∈ c.hookImports, Text.IsIdent v)
    (hw : ∀ b ∈ bs, Wordy (b.1.map lineLet)) :
    readFile (Run.parserFile c) = some (parserItems false ((c.rules.zip bs).map fun y => ⟨y.1.name, y.2.1.map lineLet, clo y.2.2⟩)) := by
  have hl := Text.parser_lex h hh
  have := toks_len h
  obtain ⟨m, hm, e⟩ := hooks_items ⟨none, []⟩ c.hookImports
  have e := e ((hookToks c.hookImports).length + (allToks c.rules bs).length + 35 - m) ((allToks c.rules bs).map T.of)
  have hi := funs_items h hw ((hookToks c.hookImports).length + (allToks c.rules bs).length + 35 - m) (by omega)
  have h1 : (headT ++ ((hookToks c.hookImports).map T.of ++ (allToks c.rules bs).map T.of)).length + 1 =
      (hookToks c.hookImports).length + (allToks c.rules bs).length + 35 - m + m + 5 := by
    simp only [List.length_append, List.length_map, show headT.length = 39 by decide]; omega
  simp only [readFile, hl, Option.bind_eq_bind, Option.bind_some, List.map_append, head_T, h1, head_items, e, hi]

/-! ## `rules.rs` -/

theorem variants_read {vs : List Bytes} : ∀ {n : Nat} {acc : List Name} {ts : List T}, 2 * vs.length + 1 ≤ n →
    readVariants n acc ((variantLines vs).map T.of ++ .p 125 :: ts) = some (acc.reverse ++ vs.map nameOf, ts) := by
  induction vs with
  | nil =>
    intro n acc ts hn
    obtain ⟨n, rfl⟩ : ∃ k, n = k + 1 := ⟨n - 1, by omega⟩
    simp [variantLines, readVariants]
  | cons v vs ih =>
    intro n acc ts hn
    simp only [List.length_cons] at hn
    obtain ⟨n, rfl⟩ : ∃ k, n = k + 2 := ⟨n - 2, by omega⟩
    have := ih (n := n) (acc := nameOf v :: acc) (ts := ts) (by omega)
    simp only [variantLines, List.map_cons, List.flatten_cons, List.map_append, List.cons_append, List.nil_append, T.of, List.append_assoc, readVariants] at this ⊢
    rw [show UInt8.toNat 44 = 44 from rfl, readVariants, this]
    simp

def rulesT : List T := [.p 35, .p 33, .p 91, .id n!"allow", .p 40, .id n!"non_camel_case_types", .p 41, .p 93,
  .id n!"use", .id n!"num_derive", .p 58, .p 58, .id n!"FromPrimitive", .p 59,
  .id n!"impl", .id n!"From", .p 60, .id n!"u32", .p 62, .id n!"for", .id n!"Rules", .p 123,
  .id n!"fn", .id n!"from", .p 40, .id n!"i", .p 58, .id n!"u32", .p 41, .p 45, .p 62, .id n!"Rules", .p 123]
def fromT : List T := [.id n!"let", .id n!"element", .p 61, .id n!"num", .p 58, .p 58, .id n!"FromPrimitive", .p 58, .p 58, .id n!"from_u32", .p 40, .id n!"i",
    .p 41, .p 59,
  .id n!"match", .id n!"element", .p 123, .id n!"Some", .p 40, .id n!"rule", .p 41, .p 61, .p 62, .id n!"rule", .p 44,
  .id n!"None", .p 61, .p 62, .id n!"panic", .p 33, .p 40, .str n!"Not a valid Rule", .p 41, .p 44, .p 125, .p 125]
def sizeT : List T := [.p 35, .p 91, .id n!"allow", .p 40, .id n!"dead_code", .p 41, .p 93, .id n!"pub", .id n!"static", .id n!"RULES_SIZE", .p 58, .id n!"u32", .p 61]
def enumT : List T := [.p 59, .p 35, .p 91, .id n!"allow", .p 40, .id n!"clippy", .p 58, .p 58, .id n!"upper_case_acronyms", .p 41, .p 93,
  .p 35, .p 91, .id n!"derive", .p 40, .id n!"PartialEq", .p 44, .id n!"Eq", .p 44, .id n!"Hash", .p 44, .id n!"FromPrimitive", .p 44, .id n!"Clone", .p 44,
  .id n!"Copy", .p 44, .id n!"Debug", .p 44, .id n!"Ord", .p 44, .id n!"PartialOrd", .p 41, .p 93, .id n!"pub", .id n!"enum", .id n!"Rules", .p 123]

theorem rules_T : Text.rulesHead.map T.of = rulesT ++ (fromT ++ .p 125 :: sizeT) := by decide +kernel
theorem enum_T : Text.rulesHead2.map T.of = enumT := by decide +kernel

theorem from_read (n : Nat) (ts : List T) : readBlk ⟨some n!"Rules", []⟩ (n + 40) (fromT ++ ts) = some ((match fromFn.body with | some (.block b) => b | _ => .nil), ts) := by
  rfl

theorem fromFn_read (ts : List T) : readFn ⟨some n!"Rules", []⟩ (rulesT.drop 23 ++ (fromT ++ ts)) = some (some fromFn, ts) := by
  have h1 : skipGroup 123 125 0 (fromT ++ ts) = some ts := by rfl
  obtain ⟨m, hm⟩ : ∃ m, 16 * (fromT ++ ts).length + 16 = m + 40 := ⟨16 * (fromT ++ ts).length - 24, by simp [fromT]; omega⟩
  have hb := from_read m ts
  rw [← hm] at hb
  generalize fromT ++ ts = us at h1 hb ⊢
  have h2 : skipTo [40] 0 (rulesT.drop 24 ++ us) = some (rulesT.drop 24 ++ us) := by rfl
  have h3 : readParams 200 [] (rulesT.drop 25 ++ us) = some ([n!"i"], rulesT.drop 29 ++ us) := by rfl
  have h4 : skipTo [123, 59] 0 (rulesT.drop 29 ++ us) = some (.p 123 :: us) := by simp [rulesT, skip_arrow, skip_p, skip_id]
  have h5 : readRecv (rulesT.drop 25 ++ us) = (.none, rulesT.drop 25 ++ us) := by rfl
  have h6 : expect (.p 40) (rulesT.drop 24 ++ us) = some (rulesT.drop 25 ++ us) := by rfl
  have h0 : rulesT.drop 23 ++ us = .id n!"from" :: (rulesT.drop 24 ++ us) := by rfl
  rw [h0]
  simp only [readFn, h2, h3, h4, h5, h6, h1, hb, Option.bind_eq_bind, Option.bind_some, if_true, fromFn]

theorem item_impl {s : Self} {inner : Bool} {n : Nat} {ty : Name} {ts us vs ws : List T} {is js : List Item} (h : implHead ts = some (ty, us))
    (h1 : readItems ⟨some ty, []⟩ true n us = some (is, vs)) (h2 : readItems s inner n vs = some (js, ws)) :
    readItems s inner (n + 1) (.id n!"impl" :: ts) = some (is ++ js, ws) := by
  rw [readItems.eq_def]
  simp only [if_true, h, h1, h2, Option.bind_eq_bind, Option.bind_some, reduceCtorEq, if_false, T.id.injEq, Nat.reduceEqDiff]

theorem item_fn {s : Self} {inner : Bool} {n : Nat} {f : Fn} {ts us vs : List T} {is : List Item} (h : readFn s ts = some (some f, us))
    (h1 : readItems s inner n us = some (is, vs)) : readItems s inner (n + 1) (.id n!"fn" :: ts) = some (.fn f :: is, vs) := by
  rw [readItems.eq_def]
  simp only [if_true, h, h1, Option.bind_eq_bind, Option.bind_some, reduceCtorEq, if_false, T.id.injEq, Nat.reduceEqDiff]

theorem item_static {s : Self} {inner : Bool} {n k : Nat} {x y : Name} {ts us : List T} {is : List Item}
    (h1 : readItems s inner n ts = some (is, us)) :
    readItems s inner (n + 1) (.id n!"static" :: .id x :: .p 58 :: .id y :: .p 61 :: .num k :: .p 59 :: ts) = some (.const x k :: is, us) := by
  rw [readItems.eq_def]
  simp only [if_true, h1, Option.bind_eq_bind, Option.bind_some, reduceCtorEq, if_false, T.id.injEq, Nat.reduceEqDiff]

theorem item_enum {s : Self} {inner : Bool} {n : Nat} {x : Name} {vs : List Name} {ts us ws : List T} {is : List Item}
    (h : readVariants (ts.length + 1) [] ts = some (vs, us)) (h1 : readItems s inner n us = some (is, ws)) :
    readItems s inner (n + 1) (.id n!"enum" :: .id x :: .p 123 :: ts) = some (.enum x vs :: is, ws) := by
  rw [readItems.eq_def]
  simp only [if_true, h, h1, Option.bind_eq_bind, Option.bind_some, reduceCtorEq, if_false, T.id.injEq, Nat.reduceEqDiff]

theorem rules_items {c : GeneratedCode} (h : ∀ v ∈ c.variants, Text.IsIdent v) (hn : c.numRules = c.variants.length) :
    readFile (Run.rulesFile c) = some (rulesItems c.variants) := by
  have hl := Text.rules_lex h
  have hv := variants_read (vs := c.variants) (n := ((variantLines c.variants).map T.of ++ [T.p 125]).length + 1) (acc := []) (ts := []) (by
    have : ∀ vs, (variantLines vs).length = 2 * vs.length := by
      intro vs
      induction vs with
      | nil => rfl
      | cons v vs ih => simp [variantLines] at ih ⊢; omega
    simp [this])
  have hm : (Text.rulesHead ++ Tok.num (Gen.decimal c.numRules) :: (Text.rulesHead2 ++ (variantLines c.variants ++ [.p 125]))).map T.of =
      rulesT ++ (fromT ++ .p 125 :: (sizeT ++ .num c.variants.length :: (enumT ++ ((variantLines c.variants).map T.of ++ [.p 125])))) := by
    simp only [List.map_append, List.map_cons, rules_T, enum_T, List.append_assoc, List.cons_append, T.of, (Text.decimal_spec _).2.2, hn, List.map_nil]
    rfl
  generalize (variantLines c.variants).map T.of ++ [T.p 125] = us at hv hm
  have hi : ∀ n, readItems ⟨none, []⟩ false (n + 20) (rulesT ++ (fromT ++ .p 125 :: (sizeT ++ .num c.variants.length :: (enumT ++ us)))) =
      some (rulesItems c.variants, []) := by
    intro n
    unfold rulesItems
    generalize c.variants.length = k at hv ⊢
    have e0 : ∀ {ts}, implHead (rulesT.drop 15 ++ ts) = some (n!"Rules", rulesT.drop 22 ++ ts) := by
      intro ts; simp [rulesT, implHead, skipGroup, skip_p, expect]
    have e1 : ∀ ts, rulesT ++ ts = .p 35 :: .p 33 :: .p 91 :: (rulesT.drop 3 ++ ts) := fun _ => rfl
    have e2 : ∀ ts, rulesT.drop 8 ++ ts = .id n!"use" :: (rulesT.drop 9 ++ ts) := fun _ => rfl
    have e3 : ∀ ts, rulesT.drop 14 ++ ts = .id n!"impl" :: (rulesT.drop 15 ++ ts) := fun _ => rfl
    have e4 : ∀ ts, rulesT.drop 22 ++ ts = .id n!"fn" :: (rulesT.drop 23 ++ ts) := fun _ => rfl
    rw [e1, item_attr' (us := rulesT.drop 8 ++ (fromT ++ .p 125 :: (sizeT ++ .num k :: (enumT ++ us)))) rfl,
      e2, item_use (us := rulesT.drop 14 ++ (fromT ++ .p 125 :: (sizeT ++ .num k :: (enumT ++ us)))) rfl, e3]
    refine item_impl (is := [.fn fromFn]) (us := rulesT.drop 22 ++ (fromT ++ .p 125 :: (sizeT ++ .num k :: (enumT ++ us)))) (ty := n!"Rules") e0
      (vs := sizeT ++ .num k :: (enumT ++ us)) ?_ ?_ (js := [.const n!"RULES_SIZE" k, .enum n!"Rules" (c.variants.map nameOf)])
    · rw [e4]
      exact item_fn (fromFn_read _) rfl
    · have e5 : ∀ ts, sizeT ++ ts = .p 35 :: .p 91 :: (sizeT.drop 2 ++ ts) := fun _ => rfl
      have e6 : ∀ ts, sizeT.drop 7 ++ ts = .id n!"pub" :: (sizeT.drop 8 ++ ts) := fun _ => rfl
      have e7 : ∀ ts, enumT.drop 1 ++ ts = .p 35 :: .p 91 :: (enumT.drop 3 ++ ts) := fun _ => rfl
      have e8 : ∀ ts, enumT.drop 11 ++ ts = .p 35 :: .p 91 :: (enumT.drop 13 ++ ts) := fun _ => rfl
      have e9 : ∀ ts, enumT.drop 34 ++ ts = .id n!"pub" :: .id n!"enum" :: .id n!"Rules" :: .p 123 :: ts := fun _ => rfl
      rw [e5, item_attr (us := sizeT.drop 7 ++ .num k :: (enumT ++ us)) rfl, e6, item_pub]
      refine item_static (is := [.enum n!"Rules" (c.variants.map nameOf)]) (ts := enumT.drop 1 ++ us) ?_
      rw [e7, item_attr (us := enumT.drop 11 ++ us) rfl, e8, item_attr (us := enumT.drop 34 ++ us) rfl, e9, item_pub]
      exact item_enum hv rfl
  obtain ⟨m, hm'⟩ : ∃ m, (rulesT ++ (fromT ++ .p 125 :: (sizeT ++ .num c.variants.length :: (enumT ++ us)))).length + 1 = m + 20 :=
    ⟨(fromT ++ .p 125 :: (sizeT ++ .num c.variants.length :: (enumT ++ us))).length + 14, by
      rw [List.length_append, show rulesT.length = 33 by decide]; omega⟩
  simp only [readFile, hl, Option.bind_eq_bind, Option.bind_some, hm, hm', hi]

end PP.Mini
