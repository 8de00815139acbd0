import Verif.Lemmas.Gen.Output

/-! # The generator: C25, C26, C28–C35, C37, C38, C53

Grammar files are described by `DGrammar` (Spec/Cst.lean): `g.text` is the file, `g.WF` says that names, white space and
literals are well formed.  The limit of 82 million bytes keeps the node arena below its 2^32 keys. -/
namespace PP.Gen

section
variable {g : DGrammar} {ord : HashOrd}

theorem gen_conv (hw : g.WF) (hsm : g.text.length < 82000000) (ord : HashOrd) :
    Conv (fun n => generateParser ord n g.text) g.output := generator_accepts ord hw rfl hsm

/-! ### The model's string helpers agree with the specification's -/

theorem bytesLe_lt : ∀ (a b : Bytes), bytesLe a b = true → a ≠ b → a < b
  | [], [], _, h => absurd rfl h
  | [], b :: bs, _, _ => List.Lex.nil
  | _ :: _, [], h, _ => by simp [bytesLe] at h
  | a :: as, b :: bs, h, hn => by
    simp only [bytesLe] at h
    split at h
    · next e => subst e; exact List.Lex.cons (bytesLe_lt as bs h (fun e => hn (by rw [e])))
    · exact List.Lex.rel (by simpa using h)

theorem StrictSorted.spec {l : List Bytes} (h : StrictSorted l) : StrictlySorted l := h.imp fun h => bytesLe_lt _ _ h.1 h.2

theorem ne_of_listLt {a b : Bytes} (h : a < b) : a ≠ b := fun e => List.lt_irrefl b (by rw [e] at h; exact h)

theorem upperByte_spec : ∀ c : UInt8, upperByte c = if 'a'.toNat ≤ c.toNat ∧ c.toNat ≤ 'z'.toNat then UInt8.ofNat (c.toNat - 'a'.toNat + 'A'.toNat) else c := by
  intro c
  have : ∀ n : Fin 256, upperByte (UInt8.ofNat n) = if 'a'.toNat ≤ (UInt8.ofNat n).toNat ∧ (UInt8.ofNat n).toNat ≤ 'z'.toNat then UInt8.ofNat ((UInt8.ofNat n).toNat - 'a'.toNat + 'A'.toNat) else UInt8.ofNat n := by
    decide +kernel
  simpa using this ⟨c.toNat, c.toNat_lt⟩

theorem lowerByte_spec : ∀ c : UInt8, lowerByte c = if 'A'.toNat ≤ c.toNat ∧ c.toNat ≤ 'Z'.toNat then UInt8.ofNat (c.toNat - 'A'.toNat + 'a'.toNat) else c := by
  intro c
  have : ∀ n : Fin 256, lowerByte (UInt8.ofNat n) = if 'A'.toNat ≤ (UInt8.ofNat n).toNat ∧ (UInt8.ofNat n).toNat ≤ 'Z'.toNat then UInt8.ofNat ((UInt8.ofNat n).toNat - 'A'.toNat + 'a'.toNat) else UInt8.ofNat n := by
    decide +kernel
  simpa using this ⟨c.toNat, c.toNat_lt⟩

theorem cap_spec (x : Bytes) : cap x = capitalised x := by
  cases x with
  | nil => rfl
  | cons c cs => simp only [cap, capitalised, upperByte_spec]

theorem lower_spec (x : Bytes) : lower x = lowered x := by
  simp only [lower, lowered]
  exact List.map_congr_left fun c _ => lowerByte_spec c

theorem gen_code {n : Nat} {c : GeneratedCode} (hw : g.WF) (hsm : g.text.length < 82000000)
    (h : generateParser ord n g.text = .ok (.code c)) : g.output = .ok (.code c) := by
  have h2 := (gen_conv hw hsm ord).eq (n := n) (by rw [h]; simp)
  rw [← h2]; exact h

/-! ### A sample grammar: `<Grammar>=<Expr>;<Expr>=(<Expr>,'-',<Num>)/<Num>; #digits# <Num> Inline=['0'..'9'];` -/

def nm (s : String) : Bytes := bytesOf s
def refA (s : String) : DAtom := .plain (.mk (.ref (nm s)) [])
def chrA (c : UInt8) : DAtom := .plain (.mk (.term (.chr c)) [])
def sample : DGrammar := [
  ⟨nm "Grammar", .plain [], .atom [] (refA "Expr"), [10], []⟩,
  ⟨nm "Expr", .plain [32], .chain .choice [32] (.plain (.mk (.sub (.chain .seq [] (refA "Expr") (.cons [] (chrA 45)
    (.one [] (refA "Num"))))) [])) (.one [] (refA "Num")), [], [⟨bytesOf " digits ", [10]⟩]⟩,
  ⟨nm "Num", .inline [32] [], .atom [] (.plain (.mk (.range [] [] (.term (.chr 48)) (.term (.chr 57)) []) [])), [], []⟩]

theorem isWs_of (w : Bytes) (h : w.all (fun c => c = 32 ∨ c = 10 ∨ c = 13 ∨ c = 9) = true) : IsWs w := by
  intro c hc
  have := List.all_eq_true.mp h c hc
  simpa using this

theorem isName_of {c : UInt8} {cs : Bytes} (h : decide ((97 ≤ c.toNat ∧ c.toNat ≤ 122) ∨ (65 ≤ c.toNat ∧ c.toNat ≤ 90)) = true)
    (h2 : cs.all (fun d => decide (((97 ≤ d.toNat ∧ d.toNat ≤ 122) ∨ (65 ≤ d.toNat ∧ d.toNat ≤ 90)) ∨ d = 95)) = true) : IsName (c :: cs) :=
  ⟨by simpa [IsLetter] using h, fun d hd => by simpa [IsLetter] using List.all_eq_true.mp h2 d hd⟩

theorem isName_grammar : IsName (nm "Grammar") := isName_of (c := 71) (cs := bytesOf "rammar") (by decide) (by decide)
theorem isName_expr : IsName (nm "Expr") := isName_of (c := 69) (cs := bytesOf "xpr") (by decide) (by decide)
theorem isName_num : IsName (nm "Num") := isName_of (c := 78) (cs := bytesOf "um") (by decide) (by decide)

theorem sample_wf : sample.WF := by
  intro r hr
  simp only [sample, List.mem_cons, List.not_mem_nil, or_false] at hr
  rcases hr with rfl | rfl | rfl
  · exact ⟨isName_grammar, isWs_of _ (by decide), ⟨isWs_of _ (by decide), ⟨isName_expr, isWs_of _ (by decide)⟩, rfl⟩,
      isWs_of _ (by decide), by simp⟩
  · refine ⟨isName_expr, isWs_of _ (by decide), ⟨isWs_of _ (by decide), ⟨⟨⟨isWs_of _ (by decide), ⟨⟨isName_expr, isWs_of _ (by decide)⟩, rfl⟩,
      isWs_of _ (by decide), ⟨⟨trivial, isWs_of _ (by decide)⟩, rfl⟩, isWs_of _ (by decide), ⟨isName_num, isWs_of _ (by decide)⟩, rfl⟩,
      isWs_of _ (by decide)⟩, rfl⟩, isWs_of _ (by decide), ⟨isName_num, isWs_of _ (by decide)⟩, rfl⟩, isWs_of _ (by decide), ?_⟩
    intro c hc
    simp at hc; subst hc
    exact ⟨by decide, isWs_of _ (by decide)⟩
  · exact ⟨isName_num, ⟨isWs_of _ (by decide), isWs_of _ (by decide)⟩, ⟨isWs_of _ (by decide),
      ⟨⟨isWs_of _ (by decide), isWs_of _ (by decide), trivial, trivial, isWs_of _ (by decide)⟩, isWs_of _ (by decide)⟩, rfl⟩, isWs_of _ (by decide), by simp⟩

example : sample.text = bytesOf "<Grammar>=<Expr>;\n<Expr> = (<Expr>,'-',<Num>)/<Num>;# digits #\n<Num> Inline=['0'..'9'];" := by decide +kernel

theorem not_dangling_of (h : g.all (fun r => r.rhs.lefts.all fun y => (g.lookup y).isSome) = true) : ¬ g.Dangling := by
  rintro ⟨x, y, ⟨r, hr, hy⟩, hn⟩
  have hmem : r ∈ g := by
    unfold DGrammar.lookup at hr
    simpa using List.mem_of_find?_eq_some hr
  have := List.all_eq_true.mp (List.all_eq_true.mp h r hmem) y hy
  rw [hn] at this; cases this

theorem sample_not_dangling : ¬ sample.Dangling := not_dangling_of (by decide +kernel)
theorem sample_small : sample.text.length < 82000000 := by decide +kernel

/-! ## C38 (first half): a written grammar is read back as itself -/

/-- C38: on every written grammar (of at least one rule) the DSL parser succeeds at the end of the file, and the tree it
returns is the tree of the grammar (below the node of the start rule). -/
theorem C38_parse_reads_back (hw : g.WF) (hne : g ≠ []) (hsm : g.text.length < 82000000) : ∃ N, ∀ n, N ≤ n →
    ∃ t, parse dslParser ⟨g.text⟩ n = .ok (true, g.text.length, t) ∧
      t.Unfolds 0 (.node .r_grammar (some (0, 0)) [.node .r_grammar (some (0, g.text.length)) (g.trees 0)]) := by
  have hlen : (⟨g.text⟩ : Source).len = g.text.length := by unfold Source.len; exact Nat.mod_eq_of_lt (by simp; omega)
  have hcard : Dsl.all.length * ((⟨g.text⟩ : Source).len + 1) < 2 ^ 32 := by
    rw [show Dsl.all.length = 52 from rfl, hlen]; omega
  have hpos : g.text.length ≠ 0 := by
    cases g with
    | nil => exact absurd rfl hne
    | cons r rs => simp [DGrammar.text, DRule.text]
  obtain ⟨us, h1, h2⟩ := Ok.ref (x := .r_grammar) (Ne.symm hpos) (ok_grammar (src := ⟨g.text⟩) hw hne (by omega) rfl)
  obtain ⟨N, hN⟩ := C05_peg_result_is_computed_small Dsl.body .r_grammar ⟨g.text⟩ dsl_plain Dsl.all Dsl.mem_all hcard
    (e := .varName .r_grammar) trivial (Nat.zero_le _) h1.peg
  obtain ⟨st, hst⟩ := hN N (Nat.le_refl _)
  obtain ⟨ks, ts, hr, h0, hu⟩ := eval_new_root (lr := False) dslParser ⟨g.text⟩ (plain_hooksOK _ _ _)
      (fun r => Or.inr (dsl_plain r).lrFree) (e := .varName .r_grammar) (Or.inr trivial) hst
  obtain ⟨_, _, rfl⟩ := (hr.pegT dsl_plain trivial).det h1
  have hsize := trees_size hw 0
  obtain ⟨t, ht, _, _, M, hM⟩ := clearFalse_conv .r_grammar st.pub h0 rfl hu (by
    rw [h2]; simp only [sizeL_cons', sizeL_nil', size_node]; omega)
  refine ⟨max N M, fun n hn => ⟨t, ?_, ?_⟩⟩
  · unfold parse
    have : eval dslParser ⟨g.text⟩ n (.varName .r_grammar) 0 0 (St.new .r_grammar ()) = .ok (true, g.text.length, st) := by
      rw [eval_mono (n := N) (by omega) (by intro h; have hst := hst; simp only [dslParser] at h hst; rw [h] at hst; cases hst)]; exact hst
    have this : eval dslParser ⟨g.text⟩ n (.varName dslParser.grammar) 0 0 (St.new dslParser.grammar dslParser.userInit) = .ok (true, g.text.length, st) := this
    rw [this]
    simp only [Out.bind_ok]
    have : st.pub.clearFalse dslParser.grammar n = .ok t := hM n (by omega)
    rw [this]; rfl
  · obtain ⟨ks', h0', hu'⟩ := ht.root
    rw [h2] at hu'
    exact Publisher.Unfolds.mk (p := t) h0' hu'.unfolds.1.symm hu'.unfolds.2

/-- C38: the generator works on the tree of the grammar (`generate_parser` calls the start rule directly, so that the rules
are right below the root). -/
theorem C38_generator_tree (hw : g.WF) (hsm : g.text.length < 82000000) : ∃ N, ∀ n, N ≤ n →
    ∃ b st t, eval dslParser ⟨g.text⟩ n (Dsl.body .r_grammar) 0 0 (St.new .r_grammar ()) = .ok (b, g.text.length, st) ∧
      st.pub.clearFalse .r_grammar n = .ok t ∧ TreeOf g t := by
  obtain ⟨b, q, ts, st, h1, hle, _, h2, ks, h0, hu⟩ := start_run hsm
  have key : q = g.text.length ∧ Tree.prune.pruneL ts = g.trees 0 := by
    by_cases hne : g = []
    · subst hne
      obtain ⟨us, h3, h4⟩ := empty_bad
      obtain ⟨_, rfl, rfl⟩ := h1.det h3
      exact ⟨rfl, h4⟩
    · obtain ⟨us, h3, h4⟩ := ok_grammar (src := ⟨g.text⟩) hw hne (by omega) rfl
      obtain ⟨_, rfl, rfl⟩ := h1.det h3
      exact ⟨rfl, h4⟩
  obtain ⟨rfl, hts⟩ := key
  have hsize := trees_size hw 0
  obtain ⟨t, ht, _, _, M, hM⟩ := clearFalse_conv .r_grammar st.pub h0 rfl hu (by rw [hts]; omega)
  rw [hts] at ht
  obtain ⟨_, _, N, hN⟩ := h2
  obtain ⟨ks', h0', hu'⟩ := ht.root
  exact ⟨max N M, fun n hn => ⟨b, st, t, hN n (by omega), hM n (by omega),
    Publisher.Unfolds.mk (p := t) h0' hu'.unfolds.1.symm hu'.unfolds.2⟩⟩

/-! ## C25, C26, C28: the cycle detector -/

/-- C25: if the detector returns, it flags exactly the rules that lead to a cycle of leftmost references, and the involved
set of a flagged rule holds, once each, exactly the flagged rules it leads to (itself included). -/
theorem C25_detector_flags_left_recursion (hw : g.WF) {t : Publisher Dsl} (ht : TreeOf g t) {n : Nat} {m : Map (List Bytes)}
    (h : leftRecursionRules t g.text ord n = .ok m) :
    (∀ x, (∃ s, m.get x = some s) ↔ g.LeftRecursive x) ∧
    ∀ x s, m.get x = some s → s.Nodup ∧ x ∈ s ∧ ∀ y, y ∈ s ↔ g.LeftRecursive y ∧ g.Leads x y := by
  obtain ⟨nd, h1, h2, h3⟩ := ht.inv
  rcases build_conv ord hw h1 h3 rfl with ⟨_, hc⟩ | ⟨hd, m', hm, hc⟩
  · have := hc.eq (n := n) (by rw [h]; simp); rw [h] at this; cases this
  · have := hc.eq (n := n) (by rw [h]; simp)
    rw [h] at this
    injection this with this
    subst this
    have key : ∀ x, (∃ s, m.get x = some s) ↔ g.LeftRecursive x := fun x => (hm.flagged x).trans (flagged_iff hd)
    refine ⟨key, fun x s hs => ⟨hm.nodup x s hs, ?_, fun y => ?_⟩⟩
    · exact (hm.mem x s hs x).mpr ⟨(hm.flagged x).mp ⟨s, hs⟩, .refl _⟩
    · rw [hm.mem x s hs, flagged_iff hd]

/-- C25: every rule on a cycle of leftmost references is flagged, and its involved set contains the whole cycle. -/
theorem C25_cycle_is_involved (hw : g.WF) {t : Publisher Dsl} (ht : TreeOf g t) {n : Nat} {m : Map (List Bytes)}
    (h : leftRecursionRules t g.text ord n = .ok m) {x y z : Bytes} (h1 : g.Left x y) (h2 : g.Leads y z) (h3 : g.Leads z x) :
    ∃ s, m.get x = some s ∧ x ∈ s ∧ z ∈ s := by
  have trans : ∀ {a b c}, g.Leads a b → g.Leads b c → g.Leads a c := by
    intro a b c h h'
    induction h with
    | refl => exact h'
    | step h1 _ ih => exact .step h1 (ih h')
  obtain ⟨k1, k2⟩ := C25_detector_flags_left_recursion hw ht h
  obtain ⟨s, hs⟩ := (k1 x).mpr ⟨x, y, .refl _, h1, trans h2 h3⟩
  obtain ⟨_, hx, hm⟩ := k2 x s hs
  exact ⟨s, hs, hx, (hm z).mpr ⟨⟨x, y, h3, h1, trans h2 h3⟩, .step h1 h2⟩⟩

/-- C28: the detector panics exactly if some declared rule refers leftmost to an undeclared name; otherwise it returns. -/
theorem C28_detector_panics_iff_dangling (hw : g.WF) {t : Publisher Dsl} (ht : TreeOf g t) (ord : HashOrd) :
    ((∃ n e, leftRecursionRules t g.text ord n = .panic e) ↔ g.Dangling) ∧
    ((∃ N, ∀ n, N ≤ n → ∃ m, leftRecursionRules t g.text ord n = .ok m) ↔ ¬ g.Dangling) := by
  obtain ⟨nd, h1, h2, h3⟩ := ht.inv
  rcases build_conv ord hw h1 h3 rfl with ⟨hd, hc⟩ | ⟨hd, m', hm, hc⟩
  · obtain ⟨_, hc1, N, hc2⟩ := id hc
    simp only at hc1 hc2
    refine ⟨⟨fun _ => hd, fun _ => ⟨N, _, hc2 N (Nat.le_refl _)⟩⟩, ⟨fun ⟨M, hM⟩ => ?_, fun h => absurd hd h⟩⟩
    obtain ⟨m, h⟩ := hM (max N M) (by omega)
    rw [hc2 _ (by omega)] at h; cases h
  · obtain ⟨_, hc1, N, hc2⟩ := id hc
    simp only at hc1 hc2
    refine ⟨⟨fun ⟨n, e, h⟩ => ?_, fun h => absurd h hd⟩, ⟨fun _ => hd, fun _ => ⟨N, fun n hn => ⟨m', hc2 n hn⟩⟩⟩⟩
    rcases hc1 n with h' | h' <;> (rw [h] at h'; cases h')

/-- C26: the flagged rules and (as sets) their involved sets do not depend on the iteration order of the hash containers. -/
theorem C26_detector_order_independent (hw : g.WF) {t : Publisher Dsl} (ht : TreeOf g t) {ord' : HashOrd} {n n' : Nat}
    {m m' : Map (List Bytes)} (h : leftRecursionRules t g.text ord n = .ok m) (h' : leftRecursionRules t g.text ord' n' = .ok m') :
    ∀ x, (∀ s, m.get x = some s → ∃ s', m'.get x = some s' ∧ s.Perm s') ∧ (m.get x = none ↔ m'.get x = none) := by
  obtain ⟨k1, k2⟩ := C25_detector_flags_left_recursion hw ht h
  obtain ⟨l1, l2⟩ := C25_detector_flags_left_recursion hw ht h'
  intro x
  refine ⟨fun s hs => ?_, ?_⟩
  · obtain ⟨s', hs'⟩ := (l1 x).mpr ((k1 x).mp ⟨s, hs⟩)
    exact ⟨s', hs', perm_of_nodup (k2 x s hs).1 (l2 x s' hs').1 fun y => by rw [(k2 x s hs).2.2, (l2 x s' hs').2.2]⟩
  · have e := (k1 x).trans (l1 x).symm
    cases h1 : m.get x <;> cases h2 : m'.get x <;> simp [h1, h2] at e ⊢

/-- C26: the whole generator gives the same result whatever the iteration orders, on every file. -/
theorem C26_generator_order_independent {src : Bytes} (hsm : src.length < 82000000) (ord ord' : HashOrd) {n n' : Nat}
    (h : generateParser ord n src ≠ .oof) (h' : generateParser ord' n' src ≠ .oof) :
    generateParser ord n src = generateParser ord' n' src := by
  rcases generator_cases hsm with ⟨b, q, hp, _, hq⟩ | ⟨g, hw, rfl⟩
  · rw [(generator_rejects ord hsm hp hq).eq h, (generator_rejects ord' hsm hp hq).eq h']
  · rw [(gen_conv hw hsm ord).eq h, (gen_conv hw hsm ord').eq h']

/-- The tree hypotheses are met: the sample grammar has one left-recursive rule besides the start rule that leads to it. -/
example : sample.LeftRecursive (nm "Expr") ∧ sample.LeftRecursive (nm "Grammar") ∧ ∃ t, TreeOf sample t := by
  have l1 : sample.Left (nm "Expr") (nm "Expr") := ⟨sample[1], rfl, by decide +kernel⟩
  have l2 : sample.Left (nm "Grammar") (nm "Expr") := ⟨sample[0], rfl, by decide +kernel⟩
  refine ⟨⟨_, _, .refl _, l1, .refl _⟩, ⟨_, _, .step l2 (.refl _), l1, .refl _⟩, ?_⟩
  obtain ⟨N, hN⟩ := C38_generator_tree sample_wf sample_small
  obtain ⟨_, _, t, _, _, ht⟩ := hN N (Nat.le_refl _)
  exact ⟨t, ht⟩

/-! ## C29: the symbol table -/

/-- C29: the symbol table of a grammar lists exactly the declared names, in strictly increasing byte order (so once each), and
marks as inlined exactly those with an `Inline` declaration; building it never fails. -/
theorem C29_symbol_table (hw : g.WF) {t : Publisher Dsl} (ht : TreeOf g t) :
    (∃ N, ∀ n, N ≤ n → ∃ s, SymbolTable.new t g.text n = .ok s) ∧
    ∀ n s, SymbolTable.new t g.text n = .ok s → StrictlySorted s.names ∧ (∀ x, x ∈ s.names ↔ ∃ r ∈ g, r.name = x) ∧
      ∀ x, s.isInline x = true ↔ g.Inlined x := by
  obtain ⟨nd, h1, h2, h3⟩ := ht.inv
  have hc := symbols_conv hw h1 h2 h3 rfl
  obtain ⟨_, hc1, N, hc2⟩ := id hc
  refine ⟨⟨N, fun n hn => ⟨_, hc2 n hn⟩⟩, fun n s h => ?_⟩
  have := hc.eq (n := n) (by rw [h]; simp)
  rw [h] at this
  injection this with this
  subst this
  exact ⟨(symbols_names_sorted g).spec, fun x => symbols_mem g, fun x => symbols_inline g⟩

/-! ## C30: the rules enum -/

/-- C30: the generated enum has one variant per declared name without an `Inline` declaration, namely the name with its first
letter upper-cased, in byte order of the names; and `RULES_SIZE` is the number of variants. -/
theorem C30_rules_enum (hw : g.WF) (hsm : g.text.length < 82000000) {n : Nat} {c : GeneratedCode}
    (h : generateParser ord n g.text = .ok (.code c)) :
    c.numRules = c.variants.length ∧ ∃ names, StrictlySorted names ∧ (∀ x, x ∈ names ↔ (∃ r ∈ g, r.name = x) ∧ ¬ g.Inlined x) ∧
      c.variants = names.map capitalised := by
  obtain ⟨_, _, h3, h4⟩ := output_ok (gen_code hw hsm h)
  refine ⟨h4, g.symbols.names.filter (fun s => !g.symbols.isInline s), (StrictSorted.spec ((symbols_names_sorted g).filter _)), fun x => ?_,
    h3.trans (List.map_congr_left fun x _ => cap_spec x)⟩
  rw [List.mem_filter, symbols_mem]
  have : (!g.symbols.isInline x) = true ↔ ¬ g.Inlined x := by
    rw [show g.Inlined x ↔ g.symbols.isInline x = true from (symbols_inline g).symm]; simp
  rw [this]

/-- C30: the variants are pairwise different if no two non-inlined names agree up to the case of their first letter ... -/
theorem C30_variants_distinct (hw : g.WF) (hsm : g.text.length < 82000000) {n : Nat} {c : GeneratedCode}
    (h : generateParser ord n g.text = .ok (.code c))
    (hcase : ∀ r ∈ g, ∀ r' ∈ g, capitalised r.name = capitalised r'.name → r.name = r'.name) : c.variants.Nodup := by
  obtain ⟨_, names, h1, h2, h3⟩ := C30_rules_enum hw hsm h
  rw [h3]
  refine (List.pairwise_map).mpr (h1.imp_of_mem ?_)
  intro a b ha hb hab e
  obtain ⟨⟨r, hr, rfl⟩, _⟩ := (h2 a).mp ha
  obtain ⟨⟨r', hr', rfl⟩, _⟩ := (h2 b).mp hb
  exact (ne_of_listLt hab) (hcase r hr r' hr' e)

/-- ... and in every grammar that declares both `Ab` and `ab` (say), neither of them inlined, two variants coincide: the
generated enum does not compile. -/
theorem C30_variants_collide (hw : g.WF) (hsm : g.text.length < 82000000) {n : Nat} {c : GeneratedCode}
    (h : generateParser ord n g.text = .ok (.code c)) {r r' : DRule} (hr : r ∈ g) (hr' : r' ∈ g)
    (hi : ¬ g.Inlined r.name) (hi' : ¬ g.Inlined r'.name) (hne : r.name ≠ r'.name) (hcap : capitalised r.name = capitalised r'.name) :
    ¬ c.variants.Nodup := by
  obtain ⟨_, names, h1, h2, h3⟩ := C30_rules_enum hw hsm h
  rw [h3]
  intro hn
  have m1 := (h2 r.name).mpr ⟨⟨r, hr, rfl⟩, hi⟩
  have m2 := (h2 r'.name).mpr ⟨⟨r', hr', rfl⟩, hi'⟩
  have hinj : ∀ (l : List Bytes), (l.map capitalised).Nodup → ∀ a ∈ l, ∀ b ∈ l, capitalised a = capitalised b → a = b := by
    intro l
    induction l with
    | nil => intro _ a ha; cases ha
    | cons x l ih =>
      intro hn a ha b hb e
      rw [List.map_cons, List.nodup_cons] at hn
      rcases List.mem_cons.mp ha with rfl | ha <;> rcases List.mem_cons.mp hb with rfl | hb
      · rfl
      · exact absurd (e ▸ List.mem_map_of_mem hb) hn.1
      · exact absurd (e ▸ List.mem_map_of_mem (f := capitalised) ‹a ∈ l›) hn.1
      · exact ih hn.2 a ha b hb e
  exact hne (hinj names hn _ m1 _ m2 hcap)

/-! ## C31: scoping of the generated functions -/

/-- C31: every generated function body is a list of `let` statements followed by the call of `closure_m`, where the
statements define `closure_1 .. closure_m` in this order, once each, every statement uses only closures defined on earlier
lines, and each left-recursive reference is directly preceded by the definition of its own involved set. -/
theorem C31_generated_code_is_scoped {src : Bytes} (hsm : src.length < 82000000) {n : Nat} {c : GeneratedCode}
    (h : generateParser ord n src = .ok (.code c)) {k : RuleCode} (hk : k ∈ c.rules) :
    ∃ body m, k.lines = body ++ [.exec m] ∧ 1 ≤ m ∧ body.filterMap Line.defines = List.range' 1 m ∧
      (∀ l ∈ body, ∀ j ∈ l.uses, 1 ≤ j ∧ ∃ i, l.defines = some i ∧ j < i) ∧
      (∀ pre i v f post, body = pre ++ .varNameLR i v f :: post → ∃ pre' vs, pre = pre' ++ [.involvedSet vs]) := by
  rcases generator_cases hsm with ⟨b, q, hp, _, hq⟩ | ⟨g, hw, rfl⟩
  · have := (generator_rejects ord hsm hp hq).eq (n := n) (by rw [h]; simp)
    rw [h] at this; cases this
  · obtain ⟨_, h2, _, _⟩ := output_ok (gen_code hw hsm h)
    obtain ⟨hlen, hget⟩ := h2.get
    obtain ⟨i, hi, rfl⟩ := List.mem_iff_getElem.mp hk
    have hr : g[i]? = some g[i] := List.getElem?_eq_getElem (by omega)
    obtain ⟨k', hs', hk', hcode⟩ := hget i _ hr
    have hkk : c.rules[i]? = some c.rules[i] := List.getElem?_eq_getElem hi
    rw [hkk] at hk'
    injection hk' with hk'
    rw [← hk'] at hcode
    obtain ⟨P, hP, hl, _⟩ := hcode.lines
    have hgood := rhs_good (g.ctx_named hw) (strip_wf (hw _ (List.getElem_mem (by omega : i < g.length))).2.2.1) hP
    have hpos := hgood.pos
    refine ⟨P.lines, P.key 1, hl, by simp [Piece.key]; omega, ?_, hgood.uses, fun pre i v f post e => hgood.paired.pre e⟩
    rw [hgood.defs]; simp [Piece.key]

/-! ## C32, C38: meaning of the generated functions -/

theorem denotes_grammar (hw : g.WF) (hsm : g.text.length < 82000000) {n : Nat} {c : GeneratedCode}
    (h : generateParser ord n g.text = .ok (.code c)) :
    ∃ refs, RefsFor g refs ∧ c.rules.length = g.length ∧ ∀ (i : Nat) r, g[i]? = some r → ∃ k, c.rules[i]? = some k ∧
      k.name = lower r.name ∧ execLines .empty k.lines = r.rhs.meaning emitted refs := by
  obtain ⟨hd, h2, _, _⟩ := output_ok (gen_code hw hsm h)
  obtain ⟨hlen, hget⟩ := h2.get
  refine ⟨g.ctx.refs, refs_of hd, hlen.symm, fun i r hr => ?_⟩
  obtain ⟨k, hs, hk, hcode⟩ := hget i r hr
  refine ⟨k, hk, hcode.name, ?_⟩
  obtain ⟨P, hP, hl, _⟩ := hcode.lines
  rw [hl, exec_comp (g.ctx_named hw) (strip_wf (hw r (List.mem_of_getElem? hr)).2.2.1) hP, strip_meaning]

/-- C32: whenever the generator returns code for a grammar, it returns one function per rule, in order, named by the
lower-cased rule name; and executing its statements yields the closure the rule's right-hand side denotes: chains associate
to the left, operators apply to the nucleus next to them, references to left-recursive rules carry exactly the left-recursive
rules they lead to, references to inlined rules are direct calls.  Only the leaves are read as `emitted` says. -/
theorem C32_generated_code_denotes_grammar (hw : g.WF) (hsm : g.text.length < 82000000) {n : Nat} {c : GeneratedCode}
    (h : generateParser ord n g.text = .ok (.code c)) :
    ∃ refs, RefsFor g refs ∧ c.rules.length = g.length ∧ ∀ (i : Nat) r, g[i]? = some r → ∃ k, c.rules[i]? = some k ∧
      k.name = lowered r.name ∧ execLines .empty k.lines = r.rhs.meaning emitted refs := by
  obtain ⟨refs, h1, h2, h3⟩ := denotes_grammar hw hsm h
  refine ⟨refs, h1, h2, fun i r hr => ?_⟩
  obtain ⟨k, k1, k2, k3⟩ := h3 i r hr
  exact ⟨k, k1, k2.trans (lower_spec _), k3⟩

theorem round_trip (hw : g.WF) (hsm : g.text.length < 82000000) (hd : ¬ g.Dangling) (hf : ∀ r ∈ g, r.rhs.Faithful)
    (hc : ∀ r ∈ g, ∀ k ∈ r.comments, ¬ k.Panics) (ord : HashOrd) :
    ∃ c N, (∀ n, N ≤ n → generateParser ord n g.text = .ok (.code c)) ∧
      ∃ refs, RefsFor g refs ∧ c.rules.length = g.length ∧ ∀ (i : Nat) r, g[i]? = some r → ∃ k e, c.rules[i]? = some k ∧
        k.name = lower r.name ∧ r.rhs.meaning written refs = some e ∧ execLines .empty k.lines = some e := by
  obtain ⟨c, hout⟩ := (output_panics hw).mpr ⟨hd, fun r hr => ⟨(rhs_faithful (c := g.ctx.refs) (hw r hr).2.2.1 (hf r hr)).2.2, hc r hr⟩⟩
  obtain ⟨_, _, N, hN⟩ := gen_conv hw hsm ord
  simp only at hN
  refine ⟨c, N, fun n hn => by rw [hN n hn, hout], ?_⟩
  obtain ⟨refs, h1, h2, h3⟩ := denotes_grammar (ord := ord) hw hsm (by rw [hN N (Nat.le_refl _), hout])
  refine ⟨refs, h1, h2, fun i r hr => ?_⟩
  obtain ⟨k, k1, k2, k3⟩ := h3 i r hr
  have hmem := List.mem_of_getElem? hr
  obtain ⟨f1, ⟨x, f2⟩, _⟩ := rhs_faithful (c := refs) (hw r hmem).2.2.1 (hf r hmem)
  exact ⟨k, x, k1, k2, f2, by rw [k3, f1, f2]⟩

/-- C38: round trip.  If no leftmost reference is undeclared, the leaves are ones the generator translates faithfully, and no
comment is empty, then writing the grammar to a file and generating code from it succeeds, and every generated function
denotes exactly its rule as written. -/
theorem C38_round_trip (hw : g.WF) (hsm : g.text.length < 82000000) (hd : ¬ g.Dangling) (hf : ∀ r ∈ g, r.rhs.Faithful)
    (hc : ∀ r ∈ g, ∀ k ∈ r.comments, ¬ k.Panics) (ord : HashOrd) :
    ∃ c N, (∀ n, N ≤ n → generateParser ord n g.text = .ok (.code c)) ∧
      ∃ refs, RefsFor g refs ∧ c.rules.length = g.length ∧ ∀ (i : Nat) r, g[i]? = some r → ∃ k e, c.rules[i]? = some k ∧
        k.name = lowered r.name ∧ r.rhs.meaning written refs = some e ∧ execLines .empty k.lines = some e := by
  obtain ⟨c, N, h0, refs, h1, h2, h3⟩ := round_trip hw hsm hd hf hc ord
  refine ⟨c, N, h0, refs, h1, h2, fun i r hr => ?_⟩
  obtain ⟨k, e, k1, k2, k3⟩ := h3 i r hr
  exact ⟨k, e, k1, k2.trans (lower_spec _), k3⟩

/-- The sample grammar meets the hypotheses of the round trip. -/
example : ∃ c N, ∀ n, N ≤ n → generateParser .id n sample.text = .ok (.code c) := by
  obtain ⟨c, N, h, _⟩ := C38_round_trip sample_wf sample_small sample_not_dangling (by
    intro r hr
    simp only [sample, List.mem_cons, List.not_mem_nil, or_false] at hr
    rcases hr with rfl | rfl | rfl
    · trivial
    · exact ⟨⟨trivial, ⟨by decide, by decide, by decide, by decide⟩, trivial⟩, trivial⟩
    · exact ⟨show (48 : UInt8) < 128 by decide, show (57 : UInt8) < 128 by decide⟩) (by
    intro r hr k hk
    simp only [sample, List.mem_cons, List.not_mem_nil, or_false] at hr
    rcases hr with rfl | rfl | rfl
    · simp at hk
    · simp at hk; subst hk
      rintro (h | ⟨b, s, h, h'⟩)
      · exact absurd h (by decide)
      · have : b = 32 := by
          have : bytesOf " digits " = 32 :: bytesOf "digits " := by decide
          simp only [this] at h
          injection h with h _; exact h.symm
        subst this
        exact absurd h' (by simp [IsCont])
    · simp at hk) .id
  exact ⟨c, N, h⟩

/-! ## C53: when the generator panics -/

/-- C53: on a written grammar the generator panics exactly if a leftmost reference is undeclared, some leaf is one it cannot
handle (an empty or decimal range bound, a hexadecimal literal out of range, a decimal string terminal), or some comment is
empty; otherwise it returns code. -/
theorem C53_generator_panics_iff (hw : g.WF) (hsm : g.text.length < 82000000) (ord : HashOrd) :
    ((∃ N, ∀ n, N ≤ n → ∃ c, generateParser ord n g.text = .ok (.code c)) ↔
      ¬ (g.Dangling ∨ (∃ r ∈ g, r.rhs.Panics) ∨ ∃ r ∈ g, ∃ k ∈ r.comments, k.Panics)) ∧
    ((∃ N, ∀ n, N ≤ n → ∃ e, generateParser ord n g.text = .panic e) ↔
      (g.Dangling ∨ (∃ r ∈ g, r.rhs.Panics) ∨ ∃ r ∈ g, ∃ k ∈ r.comments, k.Panics)) := by
  obtain ⟨h0, _, N, hN⟩ := gen_conv hw hsm ord
  simp only at hN
  have key := output_panics hw
  have e : (¬ g.Dangling ∧ ∀ r ∈ g, ¬ r.rhs.Panics ∧ ∀ k ∈ r.comments, ¬ k.Panics) ↔
      ¬ (g.Dangling ∨ (∃ r ∈ g, r.rhs.Panics) ∨ ∃ r ∈ g, ∃ k ∈ r.comments, k.Panics) := by
    constructor
    · rintro ⟨h1, h2⟩ (h | ⟨r, hr, h⟩ | ⟨r, hr, k, hk, h⟩)
      · exact h1 h
      · exact (h2 r hr).1 h
      · exact (h2 r hr).2 k hk h
    · intro h
      exact ⟨fun h1 => h (Or.inl h1), fun r hr => ⟨fun h1 => h (Or.inr (Or.inl ⟨r, hr, h1⟩)),
        fun k hk h1 => h (Or.inr (Or.inr ⟨r, hr, k, hk, h1⟩))⟩⟩
  rw [e] at key
  have h1 : (∃ N, ∀ n, N ≤ n → ∃ c, generateParser ord n g.text = .ok (.code c)) ↔ ∃ c, g.output = .ok (.code c) := by
    constructor
    · rintro ⟨M, hM⟩
      obtain ⟨c, hc⟩ := hM (max N M) (by omega)
      rw [hN _ (by omega)] at hc
      exact ⟨c, hc⟩
    · rintro ⟨c, hc⟩
      exact ⟨N, fun n hn => ⟨c, by rw [hN n hn, hc]⟩⟩
  have h2 : (∃ N, ∀ n, N ≤ n → ∃ e, generateParser ord n g.text = .panic e) ↔ ∃ e, g.output = .panic e := by
    constructor
    · rintro ⟨M, hM⟩
      obtain ⟨c, hc⟩ := hM (max N M) (by omega)
      rw [hN _ (by omega)] at hc
      exact ⟨c, hc⟩
    · rintro ⟨c, hc⟩
      exact ⟨N, fun n hn => ⟨c, by rw [hN n hn, hc]⟩⟩
  have h3 : (∃ e, g.output = .panic e) ↔ ¬ ∃ c, g.output = .ok (.code c) := by
    cases ho : g.output with
    | oof => exact absurd ho h0
    | panic e => simp
    | ok r =>
      cases r with
      | code c => simp
      | syntaxError l => exact absurd ho output_not_error
  refine ⟨h1.trans key, h2.trans (h3.trans ?_)⟩
  rw [key]; exact Classical.not_not

end
end PP.Gen
