import Verif.Spec.TestMacro
import Verif.Props.Generator

/-! # C91: the tests made of the files of a directory -/
namespace PP.TestMacro
open PP.Gen

theorem dropWhile_split : ∀ (l : Bytes), (l.dropWhile (· != 46) = [] ∧ 46 ∉ l) ∨ ∃ a b, l = a ++ 46 :: b ∧ 46 ∉ a ∧ l.dropWhile (· != 46) = 46 :: b
  | [] => .inl ⟨rfl, by simp⟩
  | c :: l => by
    by_cases h : c = 46
    · subst h
      exact .inr ⟨[], l, rfl, by simp, rfl⟩
    · have e : (c :: l).dropWhile (· != 46) = l.dropWhile (· != 46) := by
        rw [List.dropWhile_cons_of_pos (by simpa using h)]
      rw [e]
      rcases dropWhile_split l with ⟨h1, h2⟩ | ⟨a, b, h1, h2, h3⟩
      · exact .inl ⟨h1, by simp [h2, Ne.symm h]⟩
      · exact .inr ⟨c :: a, b, by rw [h1]; rfl, by simp [h2, Ne.symm h], h3⟩

/-- C91: what is used of the file name is its stem. -/
theorem C91_stem (name s : Bytes) : IsStem name s ↔ stem name = s := by
  have key : IsStem name (stem name) := by
    unfold stem
    rcases dropWhile_split name.reverse with ⟨h1, h2⟩ | ⟨a, b, h1, h2, h3⟩
    · rw [h1]
      exact .noDot (by simpa using h2)
    · rw [h3]
      have e : name = b.reverse ++ 46 :: a.reverse := by
        rw [← name.reverse_reverse, h1]; simp
      cases b with
      | nil =>
        simp only at e ⊢
        rw [e]
        exact .hidden (by simpa using h2)
      | cons x b =>
        simp only
        rw [e]
        exact .ext (by simp) (by simpa using h2)
  have uniq : ∀ {s t}, IsStem name s → IsStem name t → s = t := by
    have split : ∀ {s e s' e' : Bytes}, s ++ 46 :: e = s' ++ 46 :: e' → 46 ∉ e → 46 ∉ e' → s = s' := by
      intro s
      induction s with
      | nil =>
        intro e s' e' h h1 h2
        cases s' with
        | nil => rfl
        | cons c s' =>
          simp only [List.nil_append, List.cons_append, List.cons.injEq] at h
          exact absurd (by rw [h.2]; simp) h1
      | cons c s ih =>
        intro e s' e' h h1 h2
        cases s' with
        | nil =>
          simp only [List.nil_append, List.cons_append, List.cons.injEq] at h
          exact absurd (by rw [← h.2]; simp) h2
        | cons c' s' =>
          simp only [List.cons_append, List.cons.injEq] at h
          rw [h.1, ih h.2 h1 h2]
    intro s t h h'
    cases h with
    | noDot hn =>
      cases h' with
      | noDot _ => rfl
      | hidden _ => rfl
      | ext _ _ => simp at hn
    | @hidden r hn =>
      generalize hg : (46 :: r : Bytes) = nm at h'
      cases h' with
      | noDot _ => rfl
      | hidden _ => rfl
      | @ext s' e' hs he =>
        exact absurd (split (s := []) (by simpa using hg) hn he).symm hs
    | @ext s e hs he =>
      generalize hg : s ++ 46 :: e = nm at h'
      cases h' with
      | noDot h => subst hg; simp at h
      | @hidden r hr => exact absurd (split (s' := []) (by simpa using hg) he hr) hs
      | ext hs' he' => exact split hg he he'
  exact ⟨fun h => uniq key h, fun h => h ▸ key⟩

theorem lowerByte_ident (c : UInt8) : (let d := lowerByte c; let d := if d = 45 then 95 else d
    ((97 ≤ d && d ≤ 122) || (65 ≤ d && d ≤ 90) || (48 ≤ d && d ≤ 57) || d == 95)) = true ↔ StemChar c := by
  unfold StemChar
  have : ∀ i : Fin 256, (let c : UInt8 := UInt8.ofNat i; let d := lowerByte c; let d := if d = 45 then 95 else d
    ((97 ≤ d && d ≤ 122) || (65 ≤ d && d ≤ 90) || (48 ≤ d && d ≤ 57) || d == 95)) = true ↔
      (let c : UInt8 := UInt8.ofNat i; (97 ≤ c ∧ c ≤ 122) ∨ (65 ≤ c ∧ c ≤ 90) ∨ (48 ≤ c ∧ c ≤ 57) ∨ c = 95 ∨ c = 45) := by decide +kernel
  have h := this ⟨c.toNat, c.toNat_lt⟩
  simpa using h

theorem ident_iff (name : Bytes) : isIdent (identOf name) = true ↔ ∀ c ∈ stem name, StemChar c := by
  unfold isIdent identOf lower
  rw [List.all_append, Bool.and_eq_true, List.all_eq_true, List.map_map, List.all_map, List.all_eq_true]
  constructor
  · intro h c hc
    exact (lowerByte_ident c).mp (h.2 c hc)
  · intro h
    exact ⟨by decide +kernel, fun c hc => (lowerByte_ident c).mpr (h c hc)⟩

/-- C91: the macro panics (the crate does not compile) exactly if the stem of some entry contains something other than letters, digits, `_`
and `-`. -/
theorem C91_expansion_fails_iff (names : List Bytes) : expand names = none ↔ ∃ name ∈ names, ∃ s, IsStem name s ∧ ∃ c ∈ s, ¬ StemChar c := by
  induction names with
  | nil => simp [expand]
  | cons name names ih =>
    unfold expand
    split
    · rename_i h
      rw [ident_iff] at h
      rw [Option.map_eq_none_iff, ih]
      constructor
      · rintro ⟨x, hx, k⟩
        exact ⟨x, List.mem_cons_of_mem _ hx, k⟩
      · rintro ⟨x, hx, s, hs, c, hc, hn⟩
        rcases List.mem_cons.mp hx with rfl | hx
        · rw [C91_stem] at hs
          subst hs
          exact absurd (h c hc) hn
        · exact ⟨x, hx, s, hs, c, hc, hn⟩
    · rename_i h
      rw [ident_iff] at h
      simp only [true_iff]
      refine ⟨name, List.mem_cons_self, _, (C91_stem _ _).mpr rfl, ?_⟩
      exact Classical.byContradiction fun hn => h fun c hc => Classical.byContradiction fun hs => hn ⟨c, hc, hs⟩

/-- C91: otherwise there is one test for each entry, in order, that reads it. -/
theorem C91_one_test_per_file (names : List Bytes) (ts : List Test) (h : expand names = some ts) : ts.map Test.file = names := by
  induction names generalizing ts with
  | nil => simp only [expand, Option.some.injEq] at h; subst h; rfl
  | cons name names ih =>
    unfold expand at h
    split at h
    · rw [Option.map_eq_some_iff] at h
      obtain ⟨ts, h1, rfl⟩ := h
      rw [List.map_cons, ih ts h1]
    · cases h

theorem expand_ident {names : List Bytes} {ts : List Test} (h : expand names = some ts) : ∀ t ∈ ts, t.ident = identOf t.file := by
  induction names generalizing ts with
  | nil => simp only [expand, Option.some.injEq] at h; subst h; simp
  | cons name names ih =>
    unfold expand at h
    split at h
    · rw [Option.map_eq_some_iff] at h
      obtain ⟨ts, h1, rfl⟩ := h
      intro t ht
      rcases List.mem_cons.mp ht with rfl | ht
      · rfl
      · exact ih h1 t ht
    · cases h

theorem lowNat (a : UInt8) : (if lowerByte a = 45 then (95 : UInt8) else lowerByte a).toNat = if 65 ≤ a.toNat ∧ a.toNat ≤ 90 then a.toNat + 32 else if a.toNat = 45 then 95 else a.toNat := by
  have : ∀ i : Fin 256, (let a : UInt8 := UInt8.ofNat i; (if lowerByte a = 45 then (95 : UInt8) else lowerByte a).toNat) = if 65 ≤ i.val ∧ i.val ≤ 90 then i.val + 32 else if i.val = 45 then 95 else i.val := by decide +kernel
  have h := this ⟨a.toNat, a.toNat_lt⟩
  simpa using h
theorem alike_iff (a b : UInt8) : ((if lowerByte a = 45 then (95 : UInt8) else lowerByte a) = if lowerByte b = 45 then 95 else lowerByte b) ↔ Alike a b := by
  unfold Alike
  rw [← UInt8.toNat_inj, lowNat, lowNat]
  simp only [UInt8.le_iff_toNat_le, ← UInt8.toNat_inj, UInt8.toNat_add, UInt8.reduceToNat]
  have := a.toNat_lt
  have := b.toNat_lt
  split <;> split <;> (try split) <;> (try split) <;> omega

theorem alikeAll_iff : ∀ s t : Bytes, ((lower s).map fun c => if c = 45 then (95 : UInt8) else c) = ((lower t).map fun c => if c = 45 then 95 else c) ↔ AlikeAll s t
  | [], [] => by simp [AlikeAll]
  | [], _ :: _ => by simp [AlikeAll, lower]
  | _ :: _, [] => by simp [AlikeAll, lower]
  | a :: s, b :: t => by
    have := alikeAll_iff s t
    unfold lower at this ⊢
    rw [List.map_cons, List.map_cons, List.map_cons, List.map_cons, List.cons.injEq, this, AlikeAll]
    exact and_congr (alike_iff a b) Iff.rfl

/-- C91: two of the tests have the same name (so that the crate does not compile) exactly if the stems of the files differ at most in upper and
lower case and in `-` for `_`. -/
theorem C91_clash_iff (names : List Bytes) (ts : List Test) (h : expand names = some ts) (t t' : Test) (ht : t ∈ ts) (ht' : t' ∈ ts) (s s' : Bytes)
    (hs : IsStem t.file s) (hs' : IsStem t'.file s') : t.ident = t'.ident ↔ AlikeAll s s' := by
  rw [expand_ident h t ht, expand_ident h t' ht']
  rw [C91_stem] at hs hs'
  unfold identOf
  rw [hs, hs', List.append_cancel_left_eq]
  exact alikeAll_iff s s'

theorem parse_grammar {src : Bytes} (hsm : src.length < 82000000) {n : Nat} {t : Publisher Dsl} (h : parse dslParser ⟨src⟩ n = .ok (true, src.length, t)) :
    ∃ g : DGrammar, g.WF ∧ g ≠ [] ∧ g.text = src := by
  unfold parse at h
  obtain ⟨⟨b', q', st'⟩, h1, h2⟩ := Out.bind_eq_ok.mp h
  obtain ⟨t', -, h3⟩ := Out.bind_eq_ok.mp h2
  cases h3
  have hp := C04_memoised_agrees_with_peg Dsl.body .r_grammar ⟨src⟩ dsl_plain .init (e := .varName .r_grammar) trivial h1
  cases hp with
  | ref hp =>
    obtain ⟨g, hg, hne, t, e, h3, _⟩ := grammar_inv (src := ⟨src⟩) (by simp; omega) hp
    refine ⟨g, hg, hne, ?_⟩
    simp only [List.drop_zero, Nat.zero_add] at e h3
    have : t = [] := by
      have := congrArg List.length e
      simp at this
      exact List.eq_nil_of_length_eq_zero (by omega)
    subst this
    simpa using e.symm

/-- C91: the test of a file (below 82 million bytes) passes exactly if the file can be read and is a written grammar of at least one rule. -/
theorem C91_test_passes_iff (content : Option Bytes) (hsm : ∀ src, content = some src → src.length < 82000000) :
    (∃ N, ∀ n, N ≤ n → passes n content = true) ↔ ∃ g : DGrammar, g.WF ∧ g ≠ [] ∧ content = some g.text := by
  constructor
  · rintro ⟨N, h⟩
    have h := h N (Nat.le_refl _)
    cases content with
    | none => cases h
    | some src =>
      unfold passes at h
      simp only at h
      have hs := hsm src rfl
      split at h
      · rename_i b q t hp
        simp only [beq_true, Bool.and_eq_true, beq_iff_eq, Nat.mod_eq_of_lt (show src.length < 4294967296 by omega)] at h
        obtain ⟨rfl, rfl⟩ := h
        obtain ⟨g, hg, hne, rfl⟩ := parse_grammar hs hp
        exact ⟨g, hg, hne, rfl⟩
      · cases h
  · rintro ⟨g, hw, hne, rfl⟩
    have hs := hsm _ rfl
    obtain ⟨N, hN⟩ := C38_parse_reads_back hw hne hs
    refine ⟨N, fun n hn => ?_⟩
    obtain ⟨t, ht, -⟩ := hN n hn
    simp only [passes, ht, Nat.mod_eq_of_lt (show g.text.length < 4294967296 by omega), beq_self_eq_true, Bool.and_self]

/-- C91: a test that does not pass never passes, whatever the recursion depth. -/
theorem C91_test_stays_red (content : Option Bytes) (hsm : ∀ src, content = some src → src.length < 82000000)
    (hn : ¬ ∃ g : DGrammar, g.WF ∧ g ≠ [] ∧ content = some g.text) (n : Nat) : passes n content = false := by
  cases h : passes n content with
  | false => rfl
  | true =>
    exfalso
    cases content with
    | none => cases h
    | some src =>
      unfold passes at h
      simp only at h
      have hs := hsm src rfl
      split at h
      · rename_i b q t hp
        simp only [beq_true, Bool.and_eq_true, beq_iff_eq, Nat.mod_eq_of_lt (show src.length < 4294967296 by omega)] at h
        obtain ⟨rfl, rfl⟩ := h
        obtain ⟨g, hg, hne, rfl⟩ := parse_grammar hs hp
        exact hn ⟨g, hg, hne, rfl⟩
      · cases h

/-- C91: if all the tests of a directory pass, the generator rejects none of its files. -/
theorem C91_green_files_are_not_rejected (content : Option Bytes) (hsm : ∀ src, content = some src → src.length < 82000000) {n : Nat}
    (h : passes n content = true) : ∃ src, content = some src ∧ ∀ ord k line, generateParser ord k src ≠ .ok (.syntaxError line) := by
  obtain ⟨g, hw, hne, rfl⟩ := Classical.byContradiction fun hn => by
    have := C91_test_stays_red content hsm hn n
    rw [h] at this; cases this
  refine ⟨_, rfl, fun ord k line e => ?_⟩
  have := (gen_conv hw (hsm _ rfl) ord).eq (n := k) (by rw [e]; simp)
  rw [e] at this
  unfold DGrammar.output at this
  split at this
  · cases this
  · cases hx : gramCode g.ctx ([], []) g <;> rw [hx] at this <;> cases this

/-- C91, but not conversely: the empty file is accepted by the generator, and its test fails. -/
theorem C91_empty_file : (∀ ord, ∃ c N, ∀ n, N ≤ n → generateParser ord n [] = .ok (.code c)) ∧ ∀ n, passes n (some []) = false := by
  refine ⟨fun ord => ?_, C91_test_stays_red _ (by rintro _ ⟨⟩; decide) ?_⟩
  · obtain ⟨c, N, h, -⟩ := round_trip (g := []) (by intro x hx; cases hx) (by decide) (by rintro ⟨x, y, ⟨r, hr, -⟩, -⟩; cases hr) (by intro r hr; cases hr)
      (by intro r hr; cases hr) ord
    exact ⟨c, N, h⟩
  rintro ⟨g, -, hne, h⟩
  cases g with
  | nil => exact hne rfl
  | cons r g => simp [DGrammar.text, DRule.text] at h

/-! Instances. -/
example : expand [utf8Of "JSON.dsl", utf8Of "my-grammar.dsl"] =
    some [⟨utf8Of "test_grammar_file_json", utf8Of "JSON.dsl"⟩, ⟨utf8Of "test_grammar_file_my_grammar", utf8Of "my-grammar.dsl"⟩] := by decide +kernel
/-- Two versions of a file, and hidden files, are not possible. -/
example : expand [utf8Of "a.dsl", utf8Of "a.old.dsl"] = none ∧ expand [utf8Of ".gitignore"] = none := by decide +kernel
/-- These two compile to the same function. -/
example : (expand [utf8Of "my-grammar.dsl", utf8Of "My_Grammar"]).map (·.map Test.ident) =
    some [utf8Of "test_grammar_file_my_grammar", utf8Of "test_grammar_file_my_grammar"] := by decide +kernel
example : ∃ N, ∀ n, N ≤ n → passes n (some sample.text) = true :=
  (C91_test_passes_iff _ (by rintro _ ⟨⟩; exact sample_small)).mpr ⟨_, sample_wf, by simp [sample], rfl⟩

end PP.TestMacro
