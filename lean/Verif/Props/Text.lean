import Verif.Lemmas.Text.Program
import Verif.Props.EndToEnd
import Verif.Lemmas.Gen.Check

/-! # C74: the text of the generated files

`program rules parser` (Spec/RustText.lean) reads the text of `rules.rs` and `parser.rs` as Rust: tokens, items, statements, and
the closure each function builds; it is `none` if the text is not in the fragment of Rust the generator uses, or uses a name that is
not declared, declared twice, hidden by another, or a keyword.  `Usable` (Spec/Usable.lean) is a condition on the grammar. -/
namespace PP.Gen
open PP.Run Text

section
variable {g : DGrammar} {ord : HashOrd} {n : Nat} {c : GeneratedCode}

theorem Defs.get {refs : Refs} {rs : List DRule} {P} (h : Defs refs rs P) : P.length = rs.length ∧
    ∀ (i : Nat) r, rs[i]? = some r → ∃ e, P[i]? = some (lowered r.name, e) ∧ r.rhs.meaning written refs = some e := by
  induction h with
  | nil => simp
  | @cons r e rs P h _ ih =>
    refine ⟨by simp [ih.1], fun i r' hr => ?_⟩
    cases i with
    | zero => simp at hr; subst hr; exact ⟨e, by simp [lower_spec], h⟩
    | succ i => simpa using ih.2 i r' (by simpa using hr)

/-- C74: the files written for a grammar (whose names are usable, and all of whose leaves are translated faithfully) are Rust: one
function for each rule, in order, named by the lower-cased rule name; and each function builds the closure that the right-hand
side of its rule denotes. -/
theorem C74_generated_text_is_the_grammar (hw : g.WF) (hsm : g.text.length < 82000000) (h : generateParser ord n g.text = .ok (.code c))
    (hf : ∀ r ∈ g, r.rhs.Faithful) (hu : g.Usable) (hn : g.NoSetName) :
    ∃ refs, RefsFor g refs ∧ ∃ P, program (rulesFile c) (parserFile c) = some P ∧ P.length = g.length ∧
      ∀ (i : Nat) r, g[i]? = some r → ∃ e, P[i]? = some (lowered r.name, e) ∧ r.rhs.meaning written refs = some e := by
  obtain ⟨bs, F⟩ := facts hw hsm h hf
  obtain ⟨P, h1, h2⟩ := Usable.program F hu hn
  exact ⟨g.ctx.refs, refs_of F.nd, P, h1, (Defs.get h2).1, (Defs.get h2).2⟩

/-- C74: and `Usable` is exactly the condition: the generator returns code for other grammars as well (C38), but the files
do not compile. -/
theorem C74_generated_text_compiles_iff (hw : g.WF) (hsm : g.text.length < 82000000) (h : generateParser ord n g.text = .ok (.code c))
    (hf : ∀ r ∈ g, r.rhs.Faithful) (hn : g.NoSetName) : (∃ P, program (rulesFile c) (parserFile c) = some P) ↔ g.Usable := by
  obtain ⟨bs, F⟩ := facts hw hsm h hf
  constructor
  · rintro ⟨P, hP⟩; exact F.usable hP
  · intro hu
    obtain ⟨P, h1, _⟩ := Usable.program F hu hn
    exact ⟨P, h1⟩

/-- C74: (also if rules or hooks are called `involved_set`) files that compile are those of a usable grammar. -/
theorem C74_unusable_text_does_not_compile (hw : g.WF) (hsm : g.text.length < 82000000) (h : generateParser ord n g.text = .ok (.code c))
    (hf : ∀ r ∈ g, r.rhs.Faithful) (hu : ¬ g.Usable) : program (rulesFile c) (parserFile c) = none := by
  obtain ⟨bs, F⟩ := facts hw hsm h hf
  cases hp : program (rulesFile c) (parserFile c) with
  | none => rfl
  | some P => exact (hu (F.usable hp)).elim

/-- C74: a reference to a left-recursive rule called `involved_set` does not compile. -/
theorem C74_set_name_does_not_compile (hw : g.WF) (hsm : g.text.length < 82000000) (h : generateParser ord n g.text = .ok (.code c))
    (hf : ∀ r ∈ g, r.rhs.Faithful) {r : DRule} (hr : r ∈ g) {z : Bytes} (hz : z ∈ r.rhs.refs) (hl : g.LeftRecursive z)
    (he : lowered z = utf8Of "involved_set") : program (rulesFile c) (parserFile c) = none := by
  obtain ⟨bs, F⟩ := facts hw hsm h hf
  cases hp : program (rulesFile c) (parserFile c) with
  | none => rfl
  | some P =>
    exfalso
    obtain ⟨ls, i, e, hg, hb⟩ := (F.inv hp).2 r hr
    obtain ⟨j, a, b, hj⟩ := hg.ref z hz
    obtain ⟨s, hs, _, _⟩ := g.ctx_flagged ((flagged_iff F.nd).mpr hl)
    rw [← lower_spec] at he
    simp only [refLines, hs, he] at hj
    rw [← hj, List.append_assoc, List.map_append] at hb
    obtain ⟨L, _, hb⟩ := body_part .init hb
    simp only [List.cons_append, List.nil_append, List.map_cons] at hb
    rw [set_hides F.noCore] at hb
    cases hb

/-- The rules `R` with bodies `body` are those the files define: one rule per function, its body the closure the function
builds. -/
structure Built {R : Type} (P : List (Bytes × Expr Bytes)) (body : R → Expr R) (name : R → Bytes) : Prop where
  inj : ∀ r s, name r = name s → r = s
  all : ∀ d ∈ P, ∃ r, name r = d.1
  fn : ∀ r, ∃ e, (name r, e) ∈ P ∧ Agrees name (body r) e

theorem built_links {R : Type} {body : R → Expr R} {name : R → Bytes} (hw : g.WF) (hsm : g.text.length < 82000000)
    (h : generateParser ord n g.text = .ok (.code c)) (hf : ∀ r ∈ g, r.rhs.Faithful) (hn : g.NoSetName) {P}
    (hP : program (rulesFile c) (parserFile c) = some P) (hb : Built P body name) : Links c body name := by
  have hu := (C74_generated_text_compiles_iff hw hsm h hf hn).mp ⟨P, hP⟩
  obtain ⟨bs, F⟩ := facts hw hsm h hf
  obtain ⟨P', h1, h2⟩ := Usable.program F hu hn
  rw [hP] at h1
  injection h1 with h1
  subst h1
  obtain ⟨k1, k2⟩ := F.texts.exec h2
  refine ⟨?_, hb.inj, fun k hk => ?_, fun r => ?_⟩
  · rw [F.texts.names]
    exact nodup_names.mpr hu.rules
  · obtain ⟨d, hd, e⟩ := k2 k hk
    obtain ⟨r, hr⟩ := hb.all d hd
    exact ⟨r, hr.trans e⟩
  · obtain ⟨e, he, ha⟩ := hb.fn r
    obtain ⟨k, hk, hkn, hke⟩ := k1 _ he
    exact ⟨k, hk, hkn, e, hke, ha⟩

/-- C74: from the text of a grammar file to the text of its parser and to what that parser does: if the grammar has no hooked
calls and the generator sees no left recursion, the parser whose rules are those of the generated files returns exactly what
PEG semantics gives for the grammar as written. -/
theorem C74_compiled_text_computes_peg {R : Type} [DecidableEq R] {body : R → Expr R} {name : R → Bytes} {W : Bytes → Expr Bytes}
    (hw : g.WF) (hsm : g.text.length < 82000000) (h : generateParser ord n g.text = .ok (.code c))
    (hf : ∀ r ∈ g, r.rhs.Faithful) (hn : g.NoSetName) (hs : g.Simple) {P} (hP : program (rulesFile c) (parserFile c) = some P)
    (hb : Built P body name) (hW : g.Means W) (start : R) (rules : List R) (hrules : ∀ r, r ∈ rules) (src : Source)
    (hsmall : rules.length * (src.len + 1) < 2 ^ 32) (r : R) {p : Nat} (hp : p ≤ src.len) (b : Bool) (q : Nat) :
    (∃ n st', eval (.plain body start) src n (.varName r) 0 p (St.new start ()) = .ok (b, q, st')) ↔
      Peg W src (.varName (name r)) p b q :=
  C54_generated_parser_computes_peg hw hsm h hf hs (built_links hw hsm h hf hn hP hb) hW start rules hrules src hsmall r hp b q

/-- C74: files that do not compile are returned for every grammar that is readable but not usable. -/
theorem C74_generator_accepts_unusable (hw : g.WF) (hsm : g.text.length < 82000000) (hd : ¬ g.Dangling) (hf : ∀ r ∈ g, r.rhs.Faithful)
    (hc : ∀ r ∈ g, ∀ k ∈ r.comments, ¬ k.Panics) (hu : ¬ g.Usable) (ord : HashOrd) :
    ∃ c N, (∀ n, N ≤ n → generateParser ord n g.text = .ok (.code c)) ∧ program (rulesFile c) (parserFile c) = none := by
  obtain ⟨c, N, hN, _⟩ := round_trip hw hsm hd hf hc ord
  exact ⟨c, N, hN, C74_unusable_text_does_not_compile hw hsm (hN N (Nat.le_refl _)) hf hu⟩
end

/-! ## Examples -/

/-- What `Usable` needs, by computation. -/
def usableCheck (g : DGrammar) (n : Nat) : Bool :=
  decide ((g.map fun r => lowered r.name).Nodup) && g.all (fun r => decide (lowered r.name ∉ keywords)) &&
    decide ((g.map fun r => r.rhs.hooks).flatten.Nodup) &&
    g.all (fun r => r.rhs.hooks.all fun h => g.all fun r' => decide (h ≠ lowered r'.name)) &&
    g.all (fun r => r.rhs.hooks.all fun h => decide (h ∉ keywords) && decide (h ∉ parameters)) &&
    g.all (fun r => r.rhs.refs.all fun z => decide (lowered z ∉ parameters)) &&
    g.all (fun r => r.rhs.refs.all fun z => g.any fun r' => decide (r'.name = z)) &&
    g.all (fun r => !r.sep.isInline || !g.isLR n r.name)

theorem usable_of {g : DGrammar} {n : Nat} (hr : g.reachOk n = true) (h : usableCheck g n = true) : g.Usable := by
  simp only [usableCheck, Bool.and_eq_true, decide_eq_true_eq, List.all_eq_true, List.any_eq_true, Bool.or_eq_true, Bool.not_eq_true'] at h
  obtain ⟨⟨⟨⟨⟨⟨⟨h1, h2⟩, h3⟩, h4⟩, h5⟩, h6⟩, h7⟩, h8⟩ := h
  refine ⟨List.pairwise_map.mp h1, h2, h3, h4, fun r hr x hx => (h5 r hr x hx).1, fun r hr x hx => (h5 r hr x hx).2, h6, fun r hr z hz => ?_,
    fun r _ z hz y hy _ hi => ?_⟩
  · obtain ⟨r', hr', rfl⟩ := h7 r hr z hz
    by_cases hi : g.Inlined r'.name
    · exact .inl hi
    · exact .inr ⟨r', hr', hi, rfl⟩
  · obtain ⟨r2, hr2, rfl, hi⟩ := hi
    rcases h8 r2 hr2 with h | h
    · rw [hi] at h; cases h
    · rw [(isLR_iff hr).mpr hy] at h; cases h

/-- The sample grammar (with a left-recursive and an inlined rule) is usable. -/
theorem sample_usable : sample.Usable := usable_of (n := 3) (by decide +kernel) (by decide +kernel)
theorem sample_noSet : sample.NoSetName := by unfold DGrammar.NoSetName; decide +kernel

example {n : Nat} {c : GeneratedCode} {ord : HashOrd} (h : generateParser ord n sample.text = .ok (.code c)) :
    ∃ P, program (rulesFile c) (parserFile c) = some P ∧ P.length = 3 := by
  obtain ⟨_, _, P, h1, h2, _⟩ := C74_generated_text_is_the_grammar sample_wf sample_small h (by decide +kernel) sample_usable sample_noSet
  exact ⟨P, h1, h2⟩

/-! ### Grammars for which the files do not compile -/

/-- `<If>='a';` -/
def keywordRule : DGrammar := [⟨nm "If", .plain [], .atom [] (chrA 97), [], []⟩]
/-- `<A>=<Source>;<Source>='a';` -/
def paramRule : DGrammar := [⟨nm "A", .plain [], .atom [] (refA "Source"), [], []⟩, ⟨nm "Source", .plain [], .atom [] (chrA 97), [], []⟩]
/-- `<A> Inline=(<A>,'a')/'b';` -/
def inlineRec : DGrammar := [⟨nm "A", .inline [32] [], .chain .choice [] (.plain (.mk (.sub (.chain .seq [] (refA "A") (.one [] (chrA 97)))) []))
  (.one [] (chrA 98)), [], []⟩]
/-- `<Involved_set>=(<Involved_set>,'a')/'b';` -/
def setRule : DGrammar := [⟨nm "Involved_set", .plain [], .chain .choice [] (.plain (.mk (.sub (.chain .seq [] (refA "Involved_set")
  (.one [] (chrA 97)))) [])) (.one [] (chrA 98)), [], []⟩]
/-- `<A>=h('a'),h('b');` -/
def hookTwice : DGrammar := [⟨nm "A", .plain [], .chain .seq [] (.plain (.mk (.hook (nm "h") (.atom [] (chrA 97))) []))
  (.one [] (.plain (.mk (.hook (nm "h") (.atom [] (chrA 98))) []))), [], []⟩]

example : keywordRule.text = bytesOf "<If>='a';" ∧ paramRule.text = bytesOf "<A>=<Source>;<Source>='a';" ∧
    inlineRec.text = bytesOf "<A> Inline=(<A>,'a')/'b';" ∧ setRule.text = bytesOf "<Involved_set>=(<Involved_set>,'a')/'b';" ∧
    hookTwice.text = bytesOf "<A>=h('a'),h('b');" := by
  decide +kernel

theorem keywordRule_unusable : ¬ keywordRule.Usable := fun h => h.ruleWords _ (List.mem_singleton.mpr rfl) (by decide +kernel)
theorem paramRule_unusable : ¬ paramRule.Usable := fun h =>
  h.refParams _ (List.mem_cons_self) (nm "Source") (by decide +kernel) (by decide +kernel)
theorem hookTwice_unusable : ¬ hookTwice.Usable := fun h => absurd h.hooks (by decide +kernel)
theorem inlineRec_left : inlineRec.Left (nm "A") (nm "A") := ⟨_, rfl, by decide +kernel⟩
theorem inlineRec_unusable : ¬ inlineRec.Usable := fun h =>
  h.involved _ (List.mem_singleton.mpr rfl) (nm "A") (by decide +kernel) (nm "A") ⟨_, _, .refl _, inlineRec_left, .refl _⟩ (.refl _)
    ⟨_, List.mem_singleton.mpr rfl, rfl, rfl⟩

example (ord : HashOrd) : ∃ c N, (∀ n, N ≤ n → generateParser ord n keywordRule.text = .ok (.code c)) ∧
    program (rulesFile c) (parserFile c) = none :=
  C74_generator_accepts_unusable (by decide +kernel) (by decide +kernel) (not_dangling_of (by decide +kernel)) (by decide +kernel)
    (by simp [keywordRule]) keywordRule_unusable ord
example (ord : HashOrd) : ∃ c N, (∀ n, N ≤ n → generateParser ord n paramRule.text = .ok (.code c)) ∧
    program (rulesFile c) (parserFile c) = none :=
  C74_generator_accepts_unusable (by decide +kernel) (by decide +kernel) (not_dangling_of (by decide +kernel)) (by decide +kernel)
    (by simp [paramRule]) paramRule_unusable ord
example (ord : HashOrd) : ∃ c N, (∀ n, N ≤ n → generateParser ord n inlineRec.text = .ok (.code c)) ∧
    program (rulesFile c) (parserFile c) = none :=
  C74_generator_accepts_unusable (by decide +kernel) (by decide +kernel) (not_dangling_of (by decide +kernel)) (by decide +kernel)
    (by simp [inlineRec]) inlineRec_unusable ord
example (ord : HashOrd) : ∃ c N, (∀ n, N ≤ n → generateParser ord n hookTwice.text = .ok (.code c)) ∧
    program (rulesFile c) (parserFile c) = none :=
  C74_generator_accepts_unusable (by decide +kernel) (by decide +kernel) (not_dangling_of (by decide +kernel)) (by decide +kernel)
    (by simp [hookTwice]) hookTwice_unusable ord
theorem setRule_left : setRule.Left (nm "Involved_set") (nm "Involved_set") := ⟨_, rfl, by decide +kernel⟩
example (ord : HashOrd) {n : Nat} {c : GeneratedCode} (h : generateParser ord n setRule.text = .ok (.code c)) :
    program (rulesFile c) (parserFile c) = none :=
  C74_set_name_does_not_compile (by decide +kernel) (by decide +kernel) h (by decide +kernel) (List.mem_singleton.mpr rfl)
    (z := nm "Involved_set") (by decide +kernel) ⟨_, _, .refl _, setRule_left, .refl _⟩ (by decide +kernel)

/-! ### Text that escapes from its string

The text between the quotes of a string terminal is copied into the byte string of the generated code.  If it ends in a backslash,
the byte string does not end there: what follows is read as part of it, up to the quote that is to start the next string, and the
text of that next string is read as Rust. -/

def escapesRhs : DRhs := .chain .choice [] (.plain (.mk (.str (.quoted (utf8Of "a\\"))) []))
  (.one [] (.plain (.mk (.str (.quoted (utf8Of "); let closure_2 = _terminal(b'z'); //"))) [])))
/-- `<A>="a\"/"); let closure_2 = _terminal(b'z'); //";` -/
def escapes : DGrammar := [⟨nm "A", .plain [], escapesRhs, [], []⟩]

example : escapes.text = bytesOf "<A>=\"a\\\"/\"); let closure_2 = _terminal(b'z'); //\";" := by decide +kernel

def escapesLines : List Line := [.stringTerminalOptAscii 1 ((utf8Of "a\\").map (·.toNat)),
  .stringTerminalOptAscii 2 ((utf8Of "); let closure_2 = _terminal(b'z'); //").map (·.toNat)), .binary .choice 3 1 2]
def escapesCode : GeneratedCode where
  rules := [⟨utf8Of "a", none, escapesLines ++ [.exec 3]⟩]
  variants := [utf8Of "A"]
  numRules := 1
  hookImports := []

theorem escapes_comp {c : Ctx} : escapesRhs.strip.comp c 1 =
    .ok ⟨[⟨.stringTerminalAsciiOpt ((utf8Of "a\\").map (·.toNat)), none, none⟩,
      ⟨.stringTerminalAsciiOpt ((utf8Of "); let closure_2 = _terminal(b'z'); //").map (·.toNat)), none, none⟩, ⟨.orderedChoice, some 1, some 2⟩],
      escapesLines, []⟩ := by
  rfl

deriving instance DecidableEq for Expr

/-- C74: the rule `<A>="a\"/"); let closure_2 = _terminal(b'z'); //";` makes the generator emit text in which the second string is
code: the function accepts `z`, and not the text of either string. -/
theorem C74_string_text_becomes_code (ord : HashOrd) : ∃ c N, (∀ n, N ≤ n → generateParser ord n escapes.text = .ok (.code c)) ∧
    program (rulesFile c) (parserFile c) = some [(utf8Of "a", .orderedChoice
      (.stringTerminal (utf8Of "a\");\n\tlet closure_2 = _string_terminal_opt_ascii(b")) (.terminal 122))] := by
  have hw : escapes.WF := by decide +kernel
  obtain ⟨c, hout⟩ := (output_panics hw).mpr ⟨not_dangling_of (by decide +kernel), fun r hr => by
    rw [escapes, List.mem_singleton] at hr
    subst hr
    exact ⟨by simp [escapesRhs, DRhs.Panics, DAtoms.Panics, DAtom.Panics, DNuc.Panics, DCore.Panics, DStr.Panics], by simp⟩⟩
  obtain ⟨_, _, N, hN⟩ := gen_conv hw (by decide +kernel) ord
  refine ⟨c, N, fun n hn => (hN n hn).trans hout, ?_⟩
  obtain ⟨_, hc, hv, hn⟩ := output_ok hout
  have e1 : c.rules = escapesCode.rules ∧ c.hookImports = [] := by
    generalize c.rules = ks at hc ⊢
    generalize c.hookImports = hs at hc ⊢
    cases hc with
    | @cons r k _ _ _ _ h1 h2 =>
      cases h2
      obtain ⟨P, h3, h4, h5⟩ := h1.lines
      rw [escapes_comp] at h3
      injection h3 with h3
      subst h3
      have h6 := h1.comment
      injection h6 with h6
      cases k
      simp only at h4 h6 
      subst h4 h5 h6
      refine ⟨?_, rfl⟩
      have := h1.name
      simp only at this
      subst this
      rfl
  have e2 : c.variants = [utf8Of "A"] := hv.trans (by decide +kernel)
  have e3 : c = escapesCode := by
    obtain ⟨a1, a2, a3, a4⟩ := c
    simp only at e1 e2 hn
    rw [e1.1, e1.2, hn, e2]
    rfl
  rw [e3]
  decide +kernel

end PP.Gen
