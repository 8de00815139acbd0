import Verif.Lemmas.Lines
import Verif.Props.Peg

/-! # C41: the hooked-call example

`IsLine`, `DistinctLines`, `Source.IsText` and `lineTrees` are in Spec/Lines.lean. -/
namespace PP

/-- C41: on every text (below 4 GiB minus 4 bytes) example 11's parser terminates; it consumes pairwise different lines of
[a-z ]+, stops where no further line or only a repeated one follows, fails iff there is not even one line, and its tree is
the start rule with one leaf per line. -/
theorem C41_unique_lines (src : Source) (hs : src.bytes.length + 4 ≤ 2 ^ 32) (ht : src.IsText) :
    ∃ (ls : List (List UInt8)) (rest : List UInt8) (t : Publisher Ex11) (N : Nat),
      (∀ n, N ≤ n → parse ex11Parser src n = .ok (!ls.isEmpty, ls.flatten.length, t)) ∧
      src.bytes = ls.flatten ++ rest ∧ DistinctLines ls ∧
      (∀ l rest', IsLine l → rest = l ++ rest' → l ∈ ls) ∧
      t.Unfolds 0 (.node .r_grammar (some (0, 0))
        (if ls = [] then [] else [.node .r_grammar (some (0, ls.flatten.length)) (lineTrees 0 ls)])) := by
  obtain ⟨ls, rest, st1, e1, e2, e3, e4, e5⟩ := grammar_run hs ht
  have hle := lines_le e2.1
  have hle2 : ls.flatten.length ≤ src.bytes.length := by rw [e1]; simp
  -- the final store
  have hstore : ∃ st2 : St11, st2.pub.nodes = store11 [1] ls.flatten.length (!ls.isEmpty) ls [failNode ls] ∧
      ∀ n, src.bytes.length ≤ n → eval ex11Parser src (n + 12) (.varName .r_grammar) 0 0 (St.new .r_grammar []) =
        .ok (!ls.isEmpty, ls.flatten.length, st2) := by
    refine ⟨⟨st1.cache.insert .r_grammar (!ls.isEmpty) 0 ls.flatten.length 1,
      ⟨store11 [1] ls.flatten.length (!ls.isEmpty) ls [failNode ls]⟩, st1.user⟩, rfl, fun n hn => ?_⟩
    rw [eval, varNameKernel]
    have hck : (St.new (R := Ex11) (U := List (List UInt8)) .r_grammar []).cache.check .r_grammar 0 = none := rfl
    rw [hck]
    simp only [defaultBehaviour]
    have hres : (St.new (R := Ex11) (U := List (List UInt8)) .r_grammar []).reserve .r_grammar =
        .ok (1, ⟨.new, ⟨store11 [] 0 false [] []⟩, []⟩) := rfl
    rw [hres]
    simp only [Out.bind_ok]
    have hb : ex11Parser.body = Ex11.body := rfl
    rw [hb, e5 n hn]
    simp only [Out.bind_ok, St.createCacheEntry]
    rw [updateEntry_eq (nd := (⟨1, .r_grammar, 0, 0, false, List.range' 2 (ls.length + 1)⟩ : Node Ex11)) (by
      simp only [e4]; rfl)]
    simp only [Out.bind_ok, St.updated]
    rw [connect_eq (nd := (⟨0, .r_grammar, 0, 0, true, []⟩ : Node Ex11)) (by simp only [e4]; rfl) (by omega)]
    simp only [Out.bind_ok, St.connected, e4]
    rfl
  obtain ⟨st2, hn2, hrun⟩ := hstore
  -- clear_false
  have hu := unf_store ls ls.flatten.length (!ls.isEmpty)
  rw [← hn2] at hu
  have hprune : Tree.prune.pruneL [Tree.node Ex11.r_grammar (if !ls.isEmpty then some (0, ls.flatten.length) else none)
      (lineTrees 0 ls ++ [.node .r_unique_line_matcher none []])] =
      if ls = [] then [] else [.node .r_grammar (some (0, ls.flatten.length)) (lineTrees 0 ls)] := by
    cases hls : ls with
    | nil => simp [Tree.prune.pruneL, Tree.prune]
    | cons l ls' =>
      have hp := (e2.1 l (by simp [hls])).pos
      rw [← hls]
      have hne : ls ≠ [] := by simp [hls]
      have hpos : 0 < ls.flatten.length := by rw [hls]; simp; omega
      simp only [Tree.prune.pruneL, List.append_nil]
      have : (!ls.isEmpty) = true := by simp [hne]
      rw [this, if_pos rfl, if_neg hne, prune_some, if_neg (by omega), prune_lines ls e2.1]
  obtain ⟨t, hcl, _, _, N, hN⟩ := clearFalse_conv (R := Ex11) .r_grammar st2.pub
    (r0 := ⟨0, .r_grammar, 0, 0, true, [1]⟩) (by rw [hn2]; rfl) rfl hu (by
      rw [hprune]
      split
      · simp [Tree.size.sizeL]
      · simp only [Tree.size.sizeL, Tree.size, sizeL_lines]; omega)
  rw [hprune] at hcl
  simp only at hN
  refine ⟨ls, rest, t, max N (src.bytes.length + 12), fun n hn => ?_, e1, e2, e3, hcl.unfolds⟩
  obtain ⟨m, rfl⟩ : ∃ m, n = m + 12 := ⟨n - 12, by omega⟩
  unfold parse
  have : ex11Parser.grammar = .r_grammar := rfl
  rw [this]
  have hu0 : ex11Parser.userInit = [] := rfl
  rw [hu0, hrun m (by omega)]
  simp only [Out.bind_ok]
  rw [hN (m + 12) (by omega)]
  rfl

theorem lines_prefix {ls ls' : List (List UInt8)} {rest rest' : List UInt8} (h : ls.flatten ++ rest = ls'.flatten ++ rest')
    (h1 : DistinctLines ls) (h2 : DistinctLines ls') (hstop : ∀ l r, IsLine l → rest = l ++ r → l ∈ ls) : ls' <+: ls := by
  suffices H : ∀ (pre ls' : List (List UInt8)) (ls : List (List UInt8)), ls.flatten ++ rest = ls'.flatten ++ rest' →
      DistinctLines (pre ++ ls) → DistinctLines (pre ++ ls') → (∀ l r, IsLine l → rest = l ++ r → l ∈ pre ++ ls) →
      ls' <+: ls from H [] ls' ls h (by simpa using h1) (by simpa using h2) (by simpa using hstop)
  clear h1 h2 hstop h
  intro pre ls'
  induction ls' generalizing pre with
  | nil => intro ls _ _ _ _; exact List.nil_prefix
  | cons l' ls' ih =>
    intro ls h h1 h2 h3
    cases ls with
    | nil =>
      exfalso
      have hl := h2.1 l' (by simp)
      have := h3 l' (ls'.flatten ++ rest') hl (by simpa using h)
      have hnd := h2.2
      rw [List.nodup_append] at hnd
      exact hnd.2.2 l' (by simpa using this) l' (by simp) rfl
    | cons l ls =>
      simp only [List.flatten_cons, List.append_assoc] at h
      obtain ⟨rfl, h'⟩ := line_unique (h1.1 l (by simp)) (h2.1 l' (by simp)) h
      have := ih (pre ++ [l]) ls h' (by simpa using h1) (by simpa using h2) (by simpa using h3)
      exact List.cons_prefix_cons.mpr ⟨rfl, this⟩

/-- C41: the consumed prefix is the longest one made of pairwise different lines, and the parse fails iff only the empty
prefix is. -/
theorem C41_longest_prefix (src : Source) (hs : src.bytes.length + 4 ≤ 2 ^ 32) (ht : src.IsText) {n : Nat} {b : Bool} {q : Nat}
    {t : Publisher Ex11} (h : parse ex11Parser src n = .ok (b, q, t)) :
    (∃ ls, DistinctLines ls ∧ ls.flatten <+: src.bytes ∧ q = ls.flatten.length ∧ (b = true ↔ ls ≠ [])) ∧
    ∀ ls, DistinctLines ls → ls.flatten <+: src.bytes → ls.flatten.length ≤ q ∧ (ls ≠ [] → b = true) := by
  obtain ⟨ls, rest, t', N, e1, e2, e3, e4, _⟩ := C41_unique_lines src hs ht
  have hm : parse ex11Parser src (max n N) = .ok (b, q, t) := by
    rw [parse_mono (Nat.le_max_left n N) (by rw [h]; simp)]; exact h
  rw [e1 _ (Nat.le_max_right n N)] at hm
  simp only [Out.ok.injEq, Prod.mk.injEq] at hm
  obtain ⟨rfl, rfl, rfl⟩ := hm
  refine ⟨⟨ls, e3, ⟨rest, e2.symm⟩, rfl, by simp⟩, fun ls' h1 h2 => ?_⟩
  obtain ⟨rest', h2⟩ := h2
  have hp := lines_prefix (e2.symm.trans h2.symm) e3 h1 e4
  obtain ⟨more, hmore⟩ := hp
  rw [← hmore]
  refine ⟨by simp, fun hne => ?_⟩
  cases ls' with
  | nil => exact absurd rfl hne
  | cons a b => rfl

/-- Non-vacuity: a text whose third line repeats the first; the parse stops before it. -/
example : (⟨bytesOf "ab\nc d\nab\nx\n"⟩ : Source).IsText ∧
    (match parse ex11Parser ⟨bytesOf "ab\nc d\nab\nx\n"⟩ 40 with | .ok (b, q, _) => some (b, q) | _ => none)
      = some (true, 7) := by
  refine ⟨⟨"ab\nc d\nab\nx\n".toList, by decide +kernel⟩, by decide +kernel⟩

end PP
