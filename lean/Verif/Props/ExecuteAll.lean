import Verif.Props.ExecuteWhole
import Verif.Props.Execute
import Verif.Lemmas.Mini.Front
import Verif.Lemmas.Rs.Lines
import Verif.Spec.GenerateParser

/-! # C89: `generate_parser`, executed on any file -/
namespace PP
open PP.Gen

/-- The files of the parser crate. -/
def parserFiles : List Bytes := Mini.coreFilesOfParser ++ Mini.userFiles ++ [fileOf Texts.dslRules, fileOf Texts.dslParser]

/-- The texts of the two crates, read. -/
def IsGenerator (T : GeneratorText) : Prop := Mini.readCrate parserFiles = some T.parser ∧ Rs.readFiles Rs.generatorFiles = some T.generator

/-- What is used of the parser crate: `grammar` and `clear_false`, executed, do what the model of the parser of grammar files does. -/
def FrontOK (Q : Mini.Prog) : Prop := ∀ (input : Bytes), input.length < 4294967296 →
  ∀ (m n : Nat), 8 * (m + 1) ≤ n → ∀ b q st, eval dslParser ⟨input⟩ m (Dsl.body .r_grammar) 0 0 (St.new .r_grammar ()) = .ok (b, q, st) →
    ∃ ctx h', Mini.runGrammar Q n input = .ok (.tuple [.tuple [.bool b, .int q], ctx]) h' ∧
      ∀ t, st.pub.clearFalse .r_grammar m = .ok t → ∃ h'', Mini.runClear Q n input = .ok (Mini.encPub dslVariant t) h''

theorem front_dsl : ∃ Q, Mini.readCrate parserFiles = some Q ∧ FrontOK Q :=
  Mini.crateCheck_front (P := dslParser) Mini.read_coreFilesOfParser Mini.read_userFiles (Mini.plainUserSim _) (by intro r; cases r <;> decide) Mini.dslCrate

theorem IsGenerator.front {T : GeneratorText} (hT : IsGenerator T) : FrontOK T.parser := by
  obtain ⟨Q, hQ, F⟩ := front_dsl
  obtain rfl := Option.some.inj (hQ.symm.trans hT.1)
  exact F

theorem isGenerator : ∃ Q P, ∀ ord, IsGenerator ⟨Q, P, ord⟩ := by
  obtain ⟨Q, hQ, -⟩ := front_dsl
  exact ⟨Q, _, fun _ => ⟨hQ, Rs.read_generatorFiles⟩⟩

theorem executed_of_grammar (T : GeneratorText) (F : FrontOK T.parser) (hP : Rs.readFiles Rs.generatorFiles = some T.generator) (hord : ∀ l, (T.ord l).Perm l)
    {g : DGrammar} (hw : g.WF) (hsm : g.text.length < 82000000) (hs : Rs.ascii g.text = true) (hl : g.Low) : ∃ N, ∀ n, N ≤ n →
      (∀ o k line, generateParser o k g.text = .ok (.syntaxError line) → T.Rejects n g.text line) ∧
      (∀ o k c, generateParser o k g.text = .ok (.code c) → T.Generates n g.text (Run.rulesFile c) (Run.parserFile c)) ∧
      (∀ o k p, generateParser o k g.text = .panic p → T.Panics n g.text) := by
  obtain ⟨Q, P, ord⟩ := T
  obtain ⟨P', hP', H⟩ := Rs.C88_generator_executed
  obtain rfl : P' = P := Option.some.inj (hP'.symm.trans hP)
  obtain ⟨tree, ⟨N, hN⟩, H⟩ := H g hw hsm hs hl
  obtain ⟨M, hM⟩ := H ord hord
  have hf : ∀ n, 8 * (N + 1) ≤ n → GeneratorText.ParsesTo ⟨Q, P', ord⟩ n g.text g.text.length ∧ GeneratorText.ClearsTo ⟨Q, P', ord⟩ n g.text tree := by
    intro n hn
    obtain ⟨b, st, e1, e2⟩ := hN N (Nat.le_refl _)
    obtain ⟨ctx, h', hg, hc⟩ := F g.text (by omega) N n hn _ _ _ e1
    exact ⟨⟨_, _, _, hg⟩, hc _ e2⟩
  refine ⟨max (8 * (N + 1)) M, fun n hn => ⟨fun o k line h => ?_, fun o k c h => ?_, fun o k p h => ?_⟩⟩
  · exfalso
    have := (gen_conv hw hsm o).eq (n := k) (by rw [h]; simp)
    rw [h] at this
    unfold DGrammar.output at this
    split at this
    · cases this
    · obtain ⟨y, -, e⟩ := Rs.bind_oks this.symm
      cases e
  · exact ⟨(hf n (by omega)).1, tree, (hf n (by omega)).2, (hM n (by omega)).1 o k c h⟩
  · exact ⟨(hf n (by omega)).1, tree, (hf n (by omega)).2, (hM n (by omega)).2 o k p h⟩

theorem executed_of_front (T : GeneratorText) (F : FrontOK T.parser) (hP : Rs.readFiles Rs.generatorFiles = some T.generator) (hord : ∀ l, (T.ord l).Perm l) (src : Bytes) (hsm : src.length < 82000000)
    (hs : Rs.ascii src = true) (hl : ∀ g : DGrammar, g.WF → g.text = src → g.Low) : ∃ N, ∀ n, N ≤ n →
      (∀ o k line, generateParser o k src = .ok (.syntaxError line) → T.Rejects n src line) ∧
      (∀ o k c, generateParser o k src = .ok (.code c) → T.Generates n src (Run.rulesFile c) (Run.parserFile c)) ∧
      (∀ o k p, generateParser o k src = .panic p → T.Panics n src) := by
  obtain ⟨Q, P, ord⟩ := T
  have hPg : P = Rs.Ast.generator := Option.some.inj (hP.symm.trans Rs.read_generatorFiles)
  rcases generator_cases hsm with ⟨b, q, hp, hle, hne⟩ | ⟨g, hw, rfl⟩
  · obtain ⟨b', q', ts, st, h1, -, -, ⟨-, -, N, hN⟩, -⟩ := start_run hsm
    obtain ⟨rfl, rfl⟩ := h1.peg.det hp
    have hr := fun o => generator_rejects o hsm hp hne
    refine ⟨8 * (N + 1), fun n hn => ⟨fun o k line h => ?_, fun o k c h => ?_, fun o k p h => ?_⟩⟩
    · have := (hr o).eq (n := k) (by rw [h]; simp)
      rw [h] at this
      cases this
      obtain ⟨ctx, h', hg, -⟩ := F src (by omega) N n hn _ _ _ (hN N (Nat.le_refl _))
      refine ⟨_, ⟨_, _, _, hg⟩, hne, ?_⟩
      subst hPg
      rw [GeneratorText.world, Rs.world_call (Rs.fn_count_lines ord)]
      exact ⟨_, Rs.call_count_lines ord hle (by omega) (by omega)⟩
    · have := (hr o).eq (n := k) (by rw [h]; simp)
      rw [h] at this
      cases this
    · have := (hr o).eq (n := k) (by rw [h]; simp)
      rw [h] at this
      cases this
  · exact executed_of_grammar _ F hP hord hw hsm hs (hl g hw rfl)

/-- C89: `generate_parser`, executed from the contents of the file to the two files that are written: for every ASCII text below 82 million
bytes (that is not a grammar with a self-standing hexadecimal literal of 0x80 and above), every order of iteration of the hash containers and
every sufficient recursion depth, it is rejected, with the line number of the model, if the model rejects it; it makes the two files of the
model, byte by byte, if the model makes files; it panics if the model does. -/
theorem C89_generate_parser_executed (T : GeneratorText) (hT : IsGenerator T) (hord : ∀ l, (T.ord l).Perm l) (src : Bytes) (hsm : src.length < 82000000)
    (hs : Rs.ascii src = true) (hl : ∀ g : DGrammar, g.WF → g.text = src → g.Low) : ∃ N, ∀ n, N ≤ n →
      (∀ o k line, generateParser o k src = .ok (.syntaxError line) → T.Rejects n src line) ∧
      (∀ o k c, generateParser o k src = .ok (.code c) → T.Generates n src (Run.rulesFile c) (Run.parserFile c)) ∧
      (∀ o k p, generateParser o k src = .panic p → T.Panics n src) :=
  executed_of_front T hT.front hT.2 hord src hsm hs hl

/-! ## The three outcomes exclude each other -/

theorem dslVariant_inj (r s : Dsl) (h : dslVariant r = dslVariant s) : r = s :=
  Mini.nodup_inj (f := dslVariant) (l := Dsl.all) (by decide +kernel) (Dsl.mem_all r) (Dsl.mem_all s) h

theorem map_inj {α β : Type} {f : α → β} (hf : ∀ a b, f a = f b → a = b) : ∀ {l l' : List α}, l.map f = l'.map f → l = l'
  | [], [], _ => rfl
  | [], _ :: _, h => by cases h
  | _ :: _, [], h => by cases h
  | a :: l, b :: l', h => by
    rw [List.map_cons, List.map_cons, List.cons.injEq] at h
    rw [hf a b h.1, map_inj hf h.2]

theorem encNode_inj (a b : Node Dsl) (h : Mini.encNode dslVariant a = Mini.encNode dslVariant b) : a = b := by
  obtain ⟨i, r, s, e, t, c⟩ := a
  obtain ⟨i', r', s', e', t', c'⟩ := b
  simp only [Mini.encNode, Mini.encKey, Mini.encRule, Mini.Val.struct.injEq, List.cons.injEq, Prod.mk.injEq, Mini.Val.int.injEq, Mini.Val.variant.injEq,
    Mini.Val.bool.injEq, Mini.Val.vec.injEq, true_and, and_true] at h
  obtain ⟨rfl, hr, rfl, rfl, rfl, hc⟩ := h
  rw [dslVariant_inj _ _ hr, map_inj (fun a b h => by simpa [Mini.encKey] using h) hc]

theorem encPub_inj (a b : Publisher Dsl) (h : Mini.encPub dslVariant a = Mini.encPub dslVariant b) : a = b := by
  obtain ⟨l⟩ := a
  obtain ⟨l'⟩ := b
  simp only [Mini.encPub, Mini.Val.struct.injEq, List.cons.injEq, Prod.mk.injEq, Mini.Val.vec.injEq, true_and, and_true] at h
  rw [map_inj encNode_inj h]

theorem returns_det {r : Rs.CRes} {v w : Rs.Val} (h : r.Returns v) (h' : r.Returns w) : v = w := by
  obtain ⟨_, rfl⟩ := h
  obtain ⟨_, h'⟩ := h'
  cases h'
  rfl

theorem returns_not {r : Rs.CRes} {v : Rs.Val} (h : r.Returns v) : r ≠ .panic := by
  obtain ⟨_, rfl⟩ := h
  nofun

theorem writes_stops {W : Rs.World} {m : Nat} {tree : Publisher Dsl} {src a b : Bytes} (h : Rs.Writes W m tree src a b) : ¬ Rs.Stops W m tree src := by
  obtain ⟨S, L, G, h1, h2, h3, -, -⟩ := h
  rintro (h | ⟨S', g1, h | ⟨L', g2, h⟩⟩)
  · exact returns_not h1 h
  · exact returns_not h2 h
  · obtain rfl := returns_det h1 g1
    obtain rfl := returns_det h2 g2
    exact returns_not h3 h

section
variable {T : GeneratorText} {n : Nat} {src : Bytes}

theorem parsesTo_det {q q' : Nat} (h : T.ParsesTo n src q) (h' : T.ParsesTo n src q') : q = q' := by
  obtain ⟨_, _, _, h⟩ := h
  obtain ⟨_, _, _, h'⟩ := h'
  rw [h] at h'
  cases h'
  rfl

theorem clearsTo_det {t t' : Publisher Dsl} (h : T.ClearsTo n src t) (h' : T.ClearsTo n src t') : t = t' := by
  obtain ⟨_, h⟩ := h
  obtain ⟨_, h'⟩ := h'
  rw [h] at h'
  exact encPub_inj _ _ (by injection h')

theorem rejects_not {line : Nat} (h : T.Rejects n src line) : ¬ T.ParsesTo n src src.length := by
  obtain ⟨q, h1, h2, -⟩ := h
  exact fun h => h2 (parsesTo_det h1 h)

theorem generates_not {a b : Bytes} (h : T.Generates n src a b) : ¬ T.Panics n src := by
  obtain ⟨-, t, h1, h2⟩ := h
  rintro ⟨-, t', h3, h4⟩
  obtain rfl := clearsTo_det h1 h3
  exact writes_stops h2 h4

theorem rejects_det {line line' : Nat} (h : T.Rejects n src line) (h' : T.Rejects n src line') : line = line' := by
  obtain ⟨q, h1, -, h2⟩ := h
  obtain ⟨q', h3, -, h4⟩ := h'
  obtain rfl := parsesTo_det h1 h3
  have := returns_det h2 h4
  cases this
  rfl

theorem generates_det {a b a' b' : Bytes} (h : T.Generates n src a b) (h' : T.Generates n src a' b') : a = a' ∧ b = b' := by
  obtain ⟨-, t, h1, S, L, G, g1, g2, g3, g4, g5⟩ := h
  obtain ⟨-, t', h3, S', L', G', k1, k2, k3, k4, k5⟩ := h'
  obtain rfl := clearsTo_det h1 h3
  obtain rfl := returns_det g1 k1
  obtain rfl := returns_det g2 k2
  obtain rfl := returns_det g3 k3
  have e1 := returns_det g4 k4
  have e2 := returns_det g5 k5
  cases e1
  cases e2
  exact ⟨rfl, rfl⟩
end

theorem outcomes_of_front (T : GeneratorText) (F : FrontOK T.parser) (hP : Rs.readFiles Rs.generatorFiles = some T.generator) (hord : ∀ l, (T.ord l).Perm l) (src : Bytes) (hsm : src.length < 82000000)
    (hs : Rs.ascii src = true) (hl : ∀ g : DGrammar, g.WF → g.text = src → g.Low) : ∃ N, ∀ n, N ≤ n →
      ((∃ line, T.Rejects n src line) ↔ ¬ ∃ g : DGrammar, g.WF ∧ g.text = src) ∧
      (T.Panics n src ↔ ∃ g : DGrammar, g.WF ∧ g.text = src ∧ (g.Dangling ∨ (∃ r ∈ g, r.rhs.Panics) ∨ ∃ r ∈ g, ∃ k ∈ r.comments, k.Panics)) ∧
      ((∃ a b, T.Generates n src a b) ↔ ∃ g : DGrammar, g.WF ∧ g.text = src ∧ ¬ (g.Dangling ∨ (∃ r ∈ g, r.rhs.Panics) ∨ ∃ r ∈ g, ∃ k ∈ r.comments, k.Panics)) := by
  obtain ⟨N, H⟩ := executed_of_front T F hP hord src hsm hs hl
  refine ⟨N, fun n hn => ?_⟩
  obtain ⟨H1, H2, H3⟩ := H n hn
  have P1 : ∀ g : DGrammar, g.WF → g.text = src → (g.Dangling ∨ (∃ r ∈ g, r.rhs.Panics) ∨ ∃ r ∈ g, ∃ k ∈ r.comments, k.Panics) → T.Panics n src := by
    rintro g hw rfl hp
    obtain ⟨M, hM⟩ := (C53_generator_panics_iff hw hsm .id).2.mpr hp
    obtain ⟨e, he⟩ := hM M (Nat.le_refl _)
    exact H3 _ _ _ he
  have P2 : ∀ g : DGrammar, g.WF → g.text = src → ¬ (g.Dangling ∨ (∃ r ∈ g, r.rhs.Panics) ∨ ∃ r ∈ g, ∃ k ∈ r.comments, k.Panics) → ∃ a b, T.Generates n src a b := by
    rintro g hw rfl hp
    obtain ⟨M, hM⟩ := (C53_generator_panics_iff hw hsm .id).1.mpr hp
    obtain ⟨e, he⟩ := hM M (Nat.le_refl _)
    exact ⟨_, _, H2 _ _ _ he⟩
  have P3 : (¬ ∃ g : DGrammar, g.WF ∧ g.text = src) → ∃ line, T.Rejects n src line := by
    intro hno
    rcases generator_cases hsm with ⟨b, q, hp, hle, hne⟩ | h
    · obtain ⟨-, -, M, hM⟩ := generator_rejects .id hsm hp hne
      exact ⟨_, H1 _ _ _ (hM M (Nat.le_refl _))⟩
    · exact absurd h hno
  have P4 : ∀ g : DGrammar, g.WF → g.text = src → T.ParsesTo n src src.length := by
    intro g hw hg
    by_cases hp : g.Dangling ∨ (∃ r ∈ g, r.rhs.Panics) ∨ ∃ r ∈ g, ∃ k ∈ r.comments, k.Panics
    · exact (P1 g hw hg hp).1
    · obtain ⟨_, _, h⟩ := P2 g hw hg hp
      exact h.1
  refine ⟨⟨?_, P3⟩, ⟨fun h => ?_, ?_⟩, ⟨?_, ?_⟩⟩
  · rintro ⟨line, h⟩ ⟨g, hw, hg⟩
    exact rejects_not h (P4 g hw hg)
  · by_cases hg : ∃ g : DGrammar, g.WF ∧ g.text = src
    · obtain ⟨g, hw, hg⟩ := hg
      refine ⟨g, hw, hg, Classical.byContradiction fun hp => ?_⟩
      obtain ⟨_, _, h'⟩ := P2 g hw hg hp
      exact generates_not h' h
    · obtain ⟨line, h'⟩ := P3 hg
      exact absurd h.1 (rejects_not h')
  · rintro ⟨g, hw, hg, hp⟩
    exact P1 g hw hg hp
  · rintro ⟨a, b, h⟩
    by_cases hg : ∃ g : DGrammar, g.WF ∧ g.text = src
    · obtain ⟨g, hw, hg⟩ := hg
      exact ⟨g, hw, hg, fun hp => generates_not h (P1 g hw hg hp)⟩
    · obtain ⟨line, h'⟩ := P3 hg
      exact absurd h.1 (rejects_not h')
  · rintro ⟨g, hw, hg, hp⟩
    exact P2 g hw hg hp

/-- C89, which outcome: the executed `generate_parser` rejects a text exactly if it is no written grammar; it panics exactly if it is one with an
undeclared leftmost reference, an unusable leaf or an empty comment; it makes files exactly if it is any other.  The line that is printed, and
the files, are the same in every run. -/
theorem C89_outcomes (T : GeneratorText) (hT : IsGenerator T) (hord : ∀ l, (T.ord l).Perm l) (src : Bytes) (hsm : src.length < 82000000)
    (hs : Rs.ascii src = true) (hl : ∀ g : DGrammar, g.WF → g.text = src → g.Low) : ∃ N, ∀ n, N ≤ n →
      ((∃ line, T.Rejects n src line) ↔ ¬ ∃ g : DGrammar, g.WF ∧ g.text = src) ∧
      (T.Panics n src ↔ ∃ g : DGrammar, g.WF ∧ g.text = src ∧ (g.Dangling ∨ (∃ r ∈ g, r.rhs.Panics) ∨ ∃ r ∈ g, ∃ k ∈ r.comments, k.Panics)) ∧
      ((∃ a b, T.Generates n src a b) ↔ ∃ g : DGrammar, g.WF ∧ g.text = src ∧ ¬ (g.Dangling ∨ (∃ r ∈ g, r.rhs.Panics) ∨ ∃ r ∈ g, ∃ k ∈ r.comments, k.Panics)) :=
  outcomes_of_front T hT.front hT.2 hord src hsm hs hl

/-- C89, for texts in which `0x` does not occur, without further conditions. -/
theorem C89_outcomes_without_hex (T : GeneratorText) (hT : IsGenerator T) (hord : ∀ l, (T.ord l).Perm l) (src : Bytes) (hsm : src.length < 82000000)
    (hs : Rs.ascii src = true) (hx : NoHex src) : ∃ N, ∀ n, N ≤ n →
      ((∃ line, T.Rejects n src line) ↔ ¬ ∃ g : DGrammar, g.WF ∧ g.text = src) ∧
      (T.Panics n src ↔ ∃ g : DGrammar, g.WF ∧ g.text = src ∧ (g.Dangling ∨ (∃ r ∈ g, r.rhs.Panics) ∨ ∃ r ∈ g, ∃ k ∈ r.comments, k.Panics)) ∧
      ((∃ a b, T.Generates n src a b) ↔ ∃ g : DGrammar, g.WF ∧ g.text = src ∧ ¬ (g.Dangling ∨ (∃ r ∈ g, r.rhs.Panics) ∨ ∃ r ∈ g, ∃ k ∈ r.comments, k.Panics)) :=
  C89_outcomes T hT hord src hsm hs fun _ _ h => DGrammar.low_noHex (h ▸ hx)

/-! Instances.  There is such a program, and each of the three outcomes occurs (see also `C88_…_made`). -/
theorem noHex_of : ∀ {s : Bytes}, (∀ c ∈ s, c ≠ 120) → NoHex s := by
  rintro s h a b rfl
  exact h 120 (by simp) rfl

example : ∃ T, IsGenerator T ∧ (∀ l, (T.ord l).Perm l) ∧
    (∃ N, ∀ n, N ≤ n → T.Rejects n (utf8Of "\n<a>") 1) ∧ (∃ N, ∀ n, N ≤ n → T.Panics n (utf8Of "<a>=<b>;")) ∧ (∃ N, ∀ n, N ≤ n → ∃ a b, T.Generates n (utf8Of "<a>='b';") a b) := by
  obtain ⟨Q, P, h⟩ := isGenerator
  have ho : ∀ l : List Rs.Val, (id l).Perm l := fun _ => .refl _
  refine ⟨⟨Q, P, id⟩, h id, ho, ?_, ?_, ?_⟩
  · obtain ⟨N, H⟩ := C89_generate_parser_executed ⟨Q, P, id⟩ (h id) ho (utf8Of "\n<a>") (by decide +kernel) (by decide +kernel)
      fun _ _ h => DGrammar.low_noHex (h ▸ noHex_of (by decide +kernel))
    exact ⟨N, fun n hn => (H n hn).1 .id 100 _ (by rfl)⟩
  · obtain ⟨N, H⟩ := C89_outcomes_without_hex ⟨Q, P, id⟩ (h id) ho (utf8Of "<a>=<b>;") (by decide +kernel) (by decide +kernel) (noHex_of (by decide +kernel))
    refine ⟨N, fun n hn => (H n hn).2.1.mpr ⟨Rs.danglingExample, by decide +kernel, by decide +kernel, .inl ?_⟩⟩
    exact ⟨[97], [98], ⟨_, rfl, by decide +kernel⟩, by decide +kernel⟩
  · obtain ⟨N, H⟩ := C89_outcomes_without_hex ⟨Q, P, id⟩ (h id) ho (utf8Of "<a>='b';") (by decide +kernel) (by decide +kernel) (noHex_of (by decide +kernel))
    refine ⟨N, fun n hn => (H n hn).2.2.mpr ⟨[⟨[97], .plain [], .atom [] (.plain (.mk (.term (.chr 98)) [])), [], []⟩], by decide +kernel, by decide +kernel, ?_⟩⟩
    rintro (hd | ⟨r, hr, hp⟩ | ⟨r, hr, k, hk, -⟩)
    · exact not_dangling_of (by decide +kernel) hd
    · rw [List.mem_singleton] at hr
      subst hr
      simp [DRhs.Panics, DAtom.Panics, DNuc.Panics, DCore.Panics, IsCont] at hp
    · rw [List.mem_singleton] at hr
      subst hr
      cases hk

end PP
