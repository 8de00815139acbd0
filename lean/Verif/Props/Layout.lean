import Verif.Lemmas.Layout
import Verif.Model.Sample
import Verif.Spec.Lines
import Verif.Props.Json

/-! # C71, C72: the returned store and the generated command line program -/
set_option linter.unusedSectionVars false
namespace PP
variable {R U : Type} [DecidableEq R]

theorem parse_layout (lr : Prop) (P : Parser R U) (src : Source) (hh : P.HooksOK src) (hbody : ∀ r, lr ∨ (P.body r).LRFree) {n : Nat}
    {b : Bool} {q : Nat} {t : Publisher R} (h : parse P src n = .ok (b, q, t)) :
    ∃ ts, Run lr P.body src (.varName P.grammar) 0 b q ts ∧ t.Unfolds 0 (.node P.grammar (some (0, 0)) (Tree.prune.pruneL ts)) ∧
      Tree.okL (Tree.prune.pruneL ts) ∧
      t.nodes = ⟨0, P.grammar, 0, 0, true, Tree.roots 2 (Tree.prune.pruneL ts)⟩ :: ⟨1, P.grammar, 0, 0, true, []⟩ ::
        Tree.layout 2 (Tree.prune.pruneL ts) := by
  unfold parse at h
  obtain ⟨⟨b', q', st⟩, hc, h⟩ := Out.bind_eq_ok.mp h
  obtain ⟨t', hcl, h⟩ := Out.bind_eq_ok.mp h
  injection h with h
  obtain ⟨rfl, rfl, rfl⟩ : b' = b ∧ q' = q ∧ t' = t := by simpa using h
  obtain ⟨ks, ts, hr, h0, hu⟩ := eval_new_root (lr := lr) P src hh hbody (e := .varName P.grammar) (Or.inr trivial) hc
  have hcl' : st.pub.clearFalse P.grammar n = .ok t' := hcl
  obtain ⟨N, hN⟩ := clearFalse_spec P.grammar st.pub h0 rfl hu
  have hun := (hN n).2
  rw [hcl'] at hun
  exact ⟨ts, hr, Cleaned.unfolds hun, hu.prune_okL, clearFalse_layout P.grammar st.pub h0 rfl hu hcl'⟩

/-! ## C71 -/

/-- C71: whatever the grammar, the store `parse` returns is its tree written out in pre-order: key 0 is the root, key 1 an unused copy of
it, and the invocations below the root have the keys 2, 3, … in the order in which they begin. -/
theorem C71_store_layout (P : Parser R U) (src : Source) (hh : P.HooksOK src) {n : Nat} {b : Bool} {q : Nat} {t : Publisher R}
    (h : parse P src n = .ok (b, q, t)) : ∃ cs, t.Unfolds 0 (.node P.grammar (some (0, 0)) cs) ∧
      t.nodes = ⟨0, P.grammar, 0, 0, true, Tree.roots 2 cs⟩ :: ⟨1, P.grammar, 0, 0, true, []⟩ :: Tree.layout 2 cs := by
  obtain ⟨ts, _, h1, _, h2⟩ := parse_layout True P src hh (fun _ => .inl trivial) h
  exact ⟨_, h1, h2⟩

/-- C71: without left recursion and hooked calls the store is a function of the memo-free evaluation alone. -/
theorem C71_store_is_the_peg_layout (body : R → Expr R) (g : R) (src : Source) (hb : ∀ r, (body r).Plain) {n : Nat} {b : Bool} {q : Nat}
    {t : Publisher R} (h : parse (.plain body g) src n = .ok (b, q, t)) {b' : Bool} {q' : Nat} {ts : List (Tree R)}
    (hp : PegT body src (.varName g) 0 b' q' ts) :
    t.nodes = ⟨0, g, 0, 0, true, Tree.roots 2 (Tree.prune.pruneL ts)⟩ :: ⟨1, g, 0, 0, true, []⟩ :: Tree.layout 2 (Tree.prune.pruneL ts) := by
  obtain ⟨ts', hr, _, _, h2⟩ := parse_layout False (.plain body g) src (plain_hooksOK _ _ _) (fun r => Or.inr (hb r).lrFree) h
  obtain ⟨rfl, rfl, rfl⟩ := (hr.pegT hb (e := .varName g) trivial).det hp
  exact h2

/-- C71: two parses (of any parsers on any texts) with the same tree return the same store, key by key. -/
theorem C71_same_tree_same_store {U' : Type} (P : Parser R U) (P' : Parser R U') (src src' : Source) (hh : P.HooksOK src) (hh' : P'.HooksOK src')
    {n n' : Nat} {b b' : Bool} {q q' : Nat} {t t' : Publisher R} (h : parse P src n = .ok (b, q, t)) (h' : parse P' src' n' = .ok (b', q', t'))
    {T : Tree R} (hT : t.Unfolds 0 T) (hT' : t'.Unfolds 0 T) : t = t' := by
  obtain ⟨cs, h1, h2⟩ := C71_store_layout P src hh h
  obtain ⟨cs', h1', h2'⟩ := C71_store_layout P' src' hh' h'
  have e1 := hT.det h1
  have e2 := hT'.det h1'
  rw [e1] at e2
  injection e2 with e3 _ e4
  subst e4
  cases t; cases t'
  simp only at h2 h2'
  rw [h2, h2', e3]

/-- C71: `print(Key(0), Some(true))` of a returned tree shows the root and then the invocations in pre-order, numbered from 2. -/
theorem C71_printout (P : Parser R U) (src : Source) (hh : P.HooksOK src) {n : Nat} {b : Bool} {q : Nat} {t : Publisher R}
    (h : parse P src n = .ok (b, q, t)) : ∃ cs, t.Unfolds 0 (.node P.grammar (some (0, 0)) cs) ∧ ∀ m, Tree.htL cs < m →
      t.print m 0 (some true) = .ok (.node 0 false 0 P.grammar 0 0 true cs.length :: Tree.printout 1 2 cs) := by
  obtain ⟨ts, _, h1, hok, h2⟩ := parse_layout True P src hh (fun _ => .inl trivial) h
  refine ⟨_, h1, fun m hm => ?_⟩
  obtain ⟨m, rfl⟩ : ∃ k, m = k + 1 := ⟨m - 1, by omega⟩
  have e0 : t.nodes[0]? = some ⟨0, P.grammar, 0, 0, true, Tree.roots 2 (Tree.prune.pruneL ts)⟩ := by rw [h2]; rfl
  have e1 := print_layout t 2 (Tree.prune.pruneL ts) m 1 (by omega) hok (by omega) (fun i nd hi => by
    rw [h2, show 2 + i = i + 1 + 1 by omega]; simpa using hi)
  simp only [Publisher.print, if_true, Publisher.printTrue, Publisher.getNode, e0, Out.ofOption, Out.bind_ok, Bool.not_true, Bool.false_eq_true,
    if_false, e1, Publisher.nodeLine, Tree.roots_length]

/-! ## C72 -/

theorem validate_iff (d : List UInt8) : d.toByteArray.validateUTF8 = true ↔ Source.IsText ⟨d⟩ := by
  rw [ByteArray.validateUTF8_eq_true_iff]
  constructor
  · rintro ⟨cs, h⟩
    refine ⟨cs, ?_⟩
    have := congrArg (fun x => x.data.toList) h
    simpa [List.utf8Encode] using this
  · rintro ⟨cs, h⟩
    refine ⟨cs, ?_⟩
    simp only at h
    rw [h, List.utf8Encode]

/-- C72: the exit status tells whether the file could be read as text, and nothing about the parse. -/
theorem C72_exit_status (P : Parser R U) (file : GivenFile) {n : Nat} {ls : List (SampleLine R)} {c : Nat}
    (h : sampleMain P file n = .ok (ls, c)) :
    (c = 0 ↔ ∃ d, file = .bytes d ∧ Source.IsText ⟨d⟩) ∧ (c = 1 ↔ file = .unreadable) ∧ (c = 2 ↔ ∃ d, file = .bytes d ∧ ¬ Source.IsText ⟨d⟩) := by
  unfold sampleMain at h
  cases file with
  | missing => cases h
  | unreadable =>
    injection h with h
    obtain ⟨_, rfl⟩ : _ ∧ 1 = c := by simpa using h
    simp
  | bytes d =>
    simp only at h
    split at h
    · rename_i hv
      obtain ⟨⟨b, q, t⟩, _, h⟩ := Out.bind_eq_ok.mp h
      obtain ⟨l, _, h⟩ := Out.bind_eq_ok.mp h
      injection h with h
      obtain ⟨_, rfl⟩ : _ ∧ 0 = c := by simpa using h
      have := (validate_iff d).mp hv
      simp [this]
    · rename_i hv
      injection h with h
      obtain ⟨_, rfl⟩ : _ ∧ 2 = c := by simpa using h
      have := mt (validate_iff d).mpr hv
      simp [this]

/-- C72: for a text file the program prints the tree, the answer of `parse`, and the message unless the parse stopped at the end; and it
does return whenever `parse` does. -/
theorem C72_output (P : Parser R U) (d : List UInt8) (hd : Source.IsText ⟨d⟩) (hh : P.HooksOK ⟨d⟩) {n : Nat} {b : Bool} {q : Nat}
    {t : Publisher R} (h : parse P ⟨d⟩ n = .ok (b, q, t)) : ∃ cs, t.Unfolds 0 (.node P.grammar (some (0, 0)) cs) ∧ ∃ N, ∀ m, N ≤ m →
      sampleMain P (.bytes d) m = .ok (.readOk :: ((.node 0 false 0 P.grammar 0 0 true cs.length :: Tree.printout 1 2 cs).map .tree ++
        (.result b q :: if d.length % 4294967296 = q then [] else [.notToEnd q d.length])), 0) := by
  obtain ⟨cs, h1, h2⟩ := C71_printout P ⟨d⟩ hh h
  refine ⟨cs, h1, max n (Tree.htL cs + 1), fun m hm => ?_⟩
  have e1 : parse P ⟨d⟩ m = .ok (b, q, t) := by rw [parse_mono (n := n) (m := m) (by omega) (by rw [h]; simp), h]
  unfold sampleMain
  simp only [(validate_iff d).mpr hd, if_true, e1, Out.bind_ok, h2 m (by omega), ne_eq, ite_not]

/-- C72: for a grammar without left recursion and hooked calls and a text below 4 GiB, the message is missing exactly if the text was
accepted to its end, or it is empty. -/
theorem C72_message (body : R → Expr R) (g : R) (d : List UInt8) (hb : ∀ r, (body r).Plain) (hlen : d.length < 4294967296) {n : Nat}
    {ls : List (SampleLine R)} (h : sampleMain (.plain body g) (.bytes d) n = .ok (ls, 0)) :
    ((∀ q len, SampleLine.notToEnd q len ∉ ls) ↔ Peg body ⟨d⟩ (.varName g) 0 true d.length ∨ d = []) ∧
    (∀ b q, SampleLine.result b q ∈ ls ↔ Peg body ⟨d⟩ (.varName g) 0 b q) := by
  unfold sampleMain at h
  simp only at h
  split at h
  case isFalse => simp at h
  obtain ⟨⟨b, q, t⟩, hc, h⟩ := Out.bind_eq_ok.mp h
  obtain ⟨l, _, h⟩ := Out.bind_eq_ok.mp h
  injection h with h
  simp only [Prod.mk.injEq, and_true] at h
  subst h
  obtain ⟨ts, hr, _, _, _⟩ := parse_layout False (.plain body g) ⟨d⟩ (plain_hooksOK _ _ _) (fun r => Or.inr (hb r).lrFree) hc
  have hp : Peg body ⟨d⟩ (.varName g) 0 b q := (hr.pegT hb (e := .varName g) trivial).peg
  have hmod : d.length % 4294967296 = d.length := by omega
  constructor
  · rw [hmod]
    have hnt : (∀ q' len, SampleLine.notToEnd q' len ∉ (SampleLine.readOk :: (l.map SampleLine.tree ++ (SampleLine.result b q ::
        if d.length ≠ q then [SampleLine.notToEnd q d.length] else [])) : List (SampleLine R))) ↔ d.length = q := by
      constructor
      · intro hno
        refine Decidable.byContradiction fun hne => hno q d.length ?_
        simp [hne]
      · intro he q' len
        simp [he]
    rw [hnt]
    constructor
    · intro he
      cases b with
      | true => left; rw [he]; exact hp
      | false =>
        right
        have : q = 0 := hp.bounds.1 rfl
        exact List.eq_nil_of_length_eq_zero (by omega)
    · rintro (h1 | h1)
      · exact (h1.det hp).2
      · subst h1
        have := hp.bounds.2
        simp [Source.len] at this
        simp; omega
  · intro b' q'
    have : SampleLine.result b' q' ∈ (SampleLine.readOk :: (l.map SampleLine.tree ++ (SampleLine.result b q ::
        if d.length % 4294967296 ≠ q then [SampleLine.notToEnd q d.length] else [])) : List (SampleLine R)) ↔ b' = b ∧ q' = q := by
      simp only [List.mem_cons, List.mem_append, List.mem_map]
      split <;> simp
    rw [this]
    constructor
    · rintro ⟨rfl, rfl⟩; exact hp
    · intro h1; exact h1.det hp

/-- C72: a file whose length is a multiple of 4 GiB is parsed as if it were empty, and the message never appears. -/
theorem C72_four_gib (P : Parser R U) (d : List UInt8) (hh : P.HooksOK ⟨d⟩) (hlen : d.length % 4294967296 = 0) {n : Nat}
    {ls : List (SampleLine R)} (h : sampleMain P (.bytes d) n = .ok (ls, 0)) :
    (∀ q len, SampleLine.notToEnd q len ∉ ls) ∧ ∃ b, SampleLine.result b 0 ∈ ls := by
  unfold sampleMain at h
  simp only at h
  split at h
  case isFalse => simp at h
  obtain ⟨⟨b, q, t⟩, hc, h⟩ := Out.bind_eq_ok.mp h
  obtain ⟨l, _, h⟩ := Out.bind_eq_ok.mp h
  injection h with h
  simp only [Prod.mk.injEq, and_true] at h
  subst h
  obtain ⟨ts, hr, _, _, _⟩ := parse_layout True P ⟨d⟩ hh (fun _ => .inl trivial) hc
  have hq : q = 0 := by have := hr.pos.2; simp only [Source.len] at this; omega
  subst hq
  rw [hlen]
  exact ⟨fun q len => by simp, b, by simp⟩

/-- C72, the JSON program: on every text file below 138 million bytes it ends with status 0, and it prints "Result: (true, len)" and no
message exactly if the file is JSON (see C69). -/
theorem C72_json_program (d : List UInt8) (hd : Source.IsText ⟨d⟩) (hs : d.length < 138000000) : ∃ ls,
    (∃ N, ∀ m, N ≤ m → sampleMain jsonParser (.bytes d) m = .ok (ls, 0)) ∧
    ((SampleLine.result true d.length ∈ ls ∧ ∀ q len, SampleLine.notToEnd q len ∉ ls) ↔ JsonText.IsJson d) := by
  obtain ⟨b, q, t, ⟨N, hN⟩, _⟩ := C69_json_language ⟨d⟩ hs
  obtain ⟨cs, _, N', hN'⟩ := C72_output jsonParser d hd (plain_hooksOK _ _ _) (hN N (Nat.le_refl _))
  refine ⟨_, ⟨N', hN'⟩, ?_⟩
  obtain ⟨h1, h2⟩ := C72_message Json.body .r_grammar d json_plain (by omega) (hN' N' (Nat.le_refl _))
  rw [h1, h2, ← json_peg ⟨d⟩ (by simp only; omega)]
  exact ⟨fun h => h.1, fun h => ⟨h, .inl h⟩⟩

/-- Non-vacuity: `[]x` is answered with status 0, a tree and the message; an empty file is rejected without a message. -/
example : sampleMain jsonParser (.bytes [91, 93, 120]) 60 = .ok ([.readOk, .tree (.node 0 false 0 .r_grammar 0 0 true 1),
    .tree (.node 1 false 2 .r_grammar 0 2 true 1), .tree (.node 2 false 3 .r_json 0 2 true 1), .tree (.node 3 false 4 .r_array 0 2 true 0),
    .result true 2, .notToEnd 2 3], 0) := by decide +kernel

example : sampleMain jsonParser (.bytes []) 60 = .ok ([.readOk, .tree (.node 0 false 0 .r_grammar 0 0 true 0), .result false 0], 0) ∧
    sampleMain jsonParser (.bytes [255]) 60 = .ok ([.readOk, .someError, .notUtf8], 2) := by decide +kernel

/-- The layout of C71 on the same text. -/
example : (match parse jsonParser ⟨[91, 93]⟩ 60 with | .ok (_, _, t) => t.nodes | _ => []) =
    [⟨0, .r_grammar, 0, 0, true, [2]⟩, ⟨1, .r_grammar, 0, 0, true, []⟩, ⟨2, .r_grammar, 0, 2, true, [3]⟩, ⟨3, .r_json, 0, 2, true, [4]⟩,
      ⟨4, .r_array, 0, 2, true, []⟩] := by decide +kernel

example : Source.IsText ⟨[91, 93, 120]⟩ := ⟨['[', ']', 'x'], by decide +kernel⟩

end PP
