import Verif.Lemmas.Ex2
import Verif.Lemmas.ClearFits
import Verif.Lemmas.Calc.Slice
import Verif.Spec.Ab
import Verif.Model.Calc.Ab

/-! # C73: example 2 -/
namespace PP
open Ex2P

theorem abWord_length (m : Nat) : (abWord m).length = 2 * m + 1 := by
  induction m with
  | zero => rfl
  | succ m ih => simp [abWord, ih]; omega

theorem abWord_get (m : Nat) : ∀ i, i < 2 * m + 1 → (abWord m)[i]? = some (ab i) := by
  induction m with
  | zero => intro i h; obtain rfl : i = 0 := by omega
            rfl
  | succ m ih =>
    intro i h
    simp only [abWord]
    by_cases hi : i < 2 * m + 1
    · rw [List.getElem?_append_left (by rw [abWord_length]; omega)]; exact ih i hi
    · rw [List.getElem?_append_right (by rw [abWord_length]; omega), abWord_length]
      have : i = 2 * m + 1 ∨ i = 2 * m + 2 := by omega
      rcases this with rfl | rfl
      · simp [ab]
      · simp [ab, show 2 * m + 2 - (2 * m + 1) = 1 by omega]

theorem abWord_prefix {m : Nat} {l : List UInt8} : abWord m <+: l ↔ ∀ i, i < 2 * m + 1 → l[i]? = some (ab i) := by
  constructor
  · rintro ⟨s, rfl⟩ i hi
    rw [List.getElem?_append_left (by rw [abWord_length]; omega)]
    exact abWord_get m i hi
  · intro h
    rw [List.prefix_iff_eq_take]
    apply List.ext_getElem?
    intro i
    rw [abWord_length]
    by_cases hi : i < 2 * m + 1
    · rw [abWord_get m i hi, List.getElem?_take_of_lt hi, h i hi]
    · rw [List.getElem?_eq_none (by rw [abWord_length]; omega), List.getElem?_eq_none (by rw [List.length_take]; omega)]

theorem getChar_small {src : Source} (hs : src.bytes.length < 2 ^ 31) (i : Nat) : src.getChar i = src.bytes[i]? := by
  have hl : src.len = src.bytes.length := by unfold Source.len; omega
  unfold Source.getChar
  rw [hl]
  split
  · rfl
  · rw [List.getElem?_eq_none (by omega)]

theorem abNest_unf {m : Nat} {L : List (Node Ex2)} (h : Whole m L) : ∀ i, i ≤ m → UnfL L [3 * i + 5] [abNest i] := by
  intro i
  induction i with
  | zero =>
    intro _
    exact UnfL.cons (h.a 1 (by omega) (by omega)) .nil .nil
  | succ i ih =>
    intro hi
    have h1 := h.a (i + 2) (by omega) (by omega)
    have h2 := h.b (i + 1) (by omega) (by omega)
    have h3 := ih (by omega)
    rw [show 3 * (i + 2) + 2 = 3 * (i + 1) + 5 by omega, if_neg (by omega), show 3 * (i + 2) - 2 = 3 * (i + 1) + 1 by omega,
      show 2 * (i + 2) - 1 = 2 * i + 3 by omega] at h1
    rw [show 3 * (i + 1) + 2 = 3 * i + 5 by omega, show 2 * (i + 1) = 2 * i + 2 by omega] at h2
    exact UnfL.cons h1 (UnfL.cons h2 h3 .nil) .nil

theorem abNest_prune (i : Nat) : (abNest i).prune = [abNest i] := by
  induction i with
  | zero => simp [abNest, Tree.prune, Tree.prune.pruneL]
  | succ i ih => simp [abNest, Tree.prune, Tree.prune.pruneL, ih]

theorem abNest_size (i : Nat) : (abNest i).size = 2 * i + 1 := by
  induction i with
  | zero => rfl
  | succ i ih => simp [abNest, Tree.size, Tree.size.sizeL, ih]; omega

theorem abNest_ht (i : Nat) : Tree.htL [abNest i] = 2 * i + 1 := by
  induction i with
  | zero => simp [abNest, Tree.htL]
  | succ i ih => simp only [abNest, Tree.htL, ih]; omega

/-- C73: example 2 (`A = B,'a' / 'a'; B = A,'b' / 'b'`, two rules that are left recursive through each other) accepts a text that starts
with `a`: it consumes the longest prefix of the form `a`, `aba`, `ababa`, …, and the tree nests `A` and `B` to the left. -/
theorem C73_accepts (src : Source) (hs : src.bytes.length < 2 ^ 31) (m : Nat) (h1 : abWord m <+: src.bytes) (h2 : ¬ abWord (m + 1) <+: src.bytes)
    (n : Nat) (hn : src.bytes.length + 14 ≤ n) :
    ∃ t, parse ex2Parser src n = .ok (true, (abWord m).length, t) ∧
      t.Unfolds 0 (.node .r_grammar (some (0, 0)) [.node .r_grammar (some (0, (abWord m).length)) [abNest m]]) := by
  have hlen : 2 * m + 1 ≤ src.bytes.length := by
    obtain ⟨s, hs⟩ := h1
    rw [← hs, List.length_append, abWord_length]; omega
  have h1' := abWord_prefix.1 h1
  obtain ⟨M, hM1, hM2, hM3, hM4⟩ : ∃ M, (∀ i, i < M → src.getChar i = some (ab i)) ∧ src.getChar M ≠ some (ab M) ∧ 2 * m + 1 ≤ M ∧ M < 2 * m + 3 := by
    by_cases hb : src.bytes[2 * m + 1]? = some (ab (2 * m + 1))
    · refine ⟨2 * m + 2, ?_, ?_, by omega, by omega⟩
      · intro i hi
        rw [getChar_small hs]
        by_cases h : i = 2 * m + 1
        · rw [h]; exact hb
        · exact h1' i (by omega)
      · rw [getChar_small hs]
        intro hc
        apply h2
        rw [abWord_prefix]
        intro i hi
        by_cases h : i < 2 * m + 1
        · exact h1' i h
        · have : i = 2 * m + 1 ∨ i = 2 * m + 2 := by omega
          rcases this with rfl | rfl
          · exact hb
          · exact hc
    · exact ⟨2 * m + 1, fun i hi => by rw [getChar_small hs]; exact h1' i hi, by rw [getChar_small hs]; exact hb, by omega, by omega⟩
  obtain ⟨n, rfl⟩ : ∃ n', n = n' + 14 := ⟨n - 14, by omega⟩
  obtain ⟨st, he, hW⟩ := whole (n := n) hM1 hM2 hM3 hM4 (by omega) (by omega)
  have hu : UnfL st.pub.nodes [1] [.node .r_grammar (some (0, 2 * m + 1)) [abNest m]] :=
    UnfL.cons hW.gr (abNest_unf hW m (by omega)) .nil
  have hp : Tree.prune.pruneL [.node Ex2.r_grammar (some (0, 2 * m + 1)) [abNest m]] = [.node .r_grammar (some (0, 2 * m + 1)) [abNest m]] := by
    simp [Tree.prune.pruneL, Tree.prune, abNest_prune]
  obtain ⟨t, ht⟩ := clearFalse_total .r_grammar st.pub hW.root rfl hu (n := n + 14) (by
    have := abNest_ht m
    simp only [Tree.htL] at this ⊢
    omega) (by rw [hp]; simp [Tree.size.sizeL, Tree.size, abNest_size]; omega)
  refine ⟨t, ?_, ?_⟩
  · rw [abWord_length]
    unfold parse
    rw [show eval ex2Parser src (n + 14) (.varName ex2Parser.grammar) 0 0 (St.new ex2Parser.grammar ex2Parser.userInit) =
      .ok (true, 2 * m + 1, st) from he]
    simp only [Out.bind_ok]
    rw [show st.pub.clearFalse ex2Parser.grammar (n + 14) = .ok t from ht]
    rfl
  · obtain ⟨N, hN⟩ := clearFalse_spec .r_grammar st.pub hW.root rfl hu
    have hc := (hN (n + 14)).2
    rw [ht, hp] at hc
    rw [abWord_length]
    exact Cleaned.unfolds hc

/-- C73: a text that does not start with `a` is rejected, even one that starts with `ba`. -/
theorem C73_rejects (src : Source) (h : src.getChar 0 ≠ some 97) (n : Nat) (hn : 14 ≤ n) :
    ∃ t, parse ex2Parser src n = .ok (false, 0, t) ∧ t.Unfolds 0 (.node .r_grammar (some (0, 0)) []) := by
  obtain ⟨n, rfl⟩ : ∃ n', n = n' + 14 := ⟨n - 14, by omega⟩
  obtain ⟨st, nd, he, h0, h1, h2⟩ := whole_reject (n := n) h
  have ht : st.pub.clearFalse .r_grammar (n + 14) =
      .ok ⟨[⟨0, .r_grammar, 0, 0, true, []⟩, ⟨1, .r_grammar, 0, 0, true, []⟩]⟩ := by
    simp [Publisher.clearFalse, Publisher.getNode, h0, Publisher.addNode, Publisher.new, Publisher.clearFalseKernel, h1, h2]
  refine ⟨⟨[⟨0, .r_grammar, 0, 0, true, []⟩, ⟨1, .r_grammar, 0, 0, true, []⟩]⟩, ?_, ?_⟩
  · unfold parse
    rw [show eval ex2Parser src (n + 14) (.varName ex2Parser.grammar) 0 0 (St.new ex2Parser.grammar ex2Parser.userInit) =
      .ok (false, 0, st) from he]
    simp only [Out.bind_ok]
    rw [show st.pub.clearFalse ex2Parser.grammar (n + 14) = _ from ht]
    rfl
  · exact .mk (R := Ex2) (nd := ⟨0, .r_grammar, 0, 0, true, []⟩) rfl rfl (by simp)

/-- C73: every text (shorter than 2^31 bytes) is covered by exactly one of the two theorems above, and by only one number of repetitions. -/
theorem C73_covers (l : List UInt8) : (l[0]? ≠ some 97 ∧ ∀ m, ¬ abWord m <+: l) ∨
    (l[0]? = some 97 ∧ ∃ m, (abWord m <+: l ∧ ¬ abWord (m + 1) <+: l) ∧ ∀ m', abWord m' <+: l ↔ m' ≤ m) := by
  have hdown : ∀ m' m, m' ≤ m → abWord m <+: l → abWord m' <+: l := by
    intro m' m hle h
    rw [abWord_prefix] at h ⊢
    exact fun i hi => h i (by omega)
  by_cases h0 : l[0]? = some 97
  · right
    refine ⟨h0, ?_⟩
    have hz : abWord 0 <+: l := by
      rw [abWord_prefix]
      intro i hi
      obtain rfl : i = 0 := by omega
      exact h0
    have hbound : ∀ m, abWord m <+: l → m ≤ l.length := by
      rintro m ⟨s, rfl⟩
      rw [List.length_append, abWord_length]; omega
    have : ∀ d m, abWord m <+: l → l.length ≤ m + d → ∃ m, abWord m <+: l ∧ ¬ abWord (m + 1) <+: l := by
      intro d
      induction d with
      | zero =>
        intro m hm hd
        refine ⟨m, hm, fun h => ?_⟩
        have := hbound _ h
        omega
      | succ d ih =>
        intro m hm hd
        by_cases h : abWord (m + 1) <+: l
        · exact ih (m + 1) h (by omega)
        · exact ⟨m, hm, h⟩
    obtain ⟨m, hm1, hm2⟩ := this l.length 0 hz (by omega)
    refine ⟨m, ⟨hm1, hm2⟩, fun m' => ⟨fun h => ?_, fun h => hdown _ _ h hm1⟩⟩
    rcases Nat.lt_or_ge m m' with h' | h'
    · exact absurd (hdown (m + 1) m' (by omega) h) hm2
    · exact h'
  · left
    refine ⟨h0, fun m h => h0 ?_⟩
    exact abWord_prefix.1 h 0 (by omega)

theorem abKernel_nest {t : Publisher Ex2} (m : Nat) : ∀ {k f : Nat} {nd : Node Ex2}, t.Unfolds k (abNest m) → t.getNode k = .ok nd → 2 * m + 1 ≤ f →
    ∃ w, abKernel t f nd = .ok w ∧ w ++ [97] = abWord m ∧ nd.rule = .r_a := by
  induction m with
  | zero =>
    intro k f nd h hk hf
    obtain ⟨nd', e1, e2, _, _, e5⟩ := Publisher.Unfolds.none h
    obtain rfl : nd' = nd := by rw [hk] at e1; injection e1 with e1; exact e1.symm
    obtain ⟨f, rfl⟩ : ∃ f', f = f' + 1 := ⟨f - 1, by omega⟩
    exact ⟨[], by simp [abKernel, e5], rfl, e2⟩
  | succ m ih =>
    intro k f nd h hk hf
    obtain ⟨nd', c, e1, e2, _, _, e5, e6⟩ := Publisher.Unfolds.one h
    obtain rfl : nd' = nd := by rw [hk] at e1; injection e1 with e1; exact e1.symm
    obtain ⟨nb, c', g1, g2, _, _, g5, g6⟩ := Publisher.Unfolds.one e6
    obtain ⟨f, rfl⟩ : ∃ f', f = f' + 2 := ⟨f - 2, by omega⟩
    obtain ⟨na, hna⟩ : ∃ na, t.getNode c' = .ok na := by
      cases m with
      | zero => obtain ⟨na, h, _⟩ := Publisher.Unfolds.none g6; exact ⟨na, h⟩
      | succ m => obtain ⟨na, _, h, _⟩ := Publisher.Unfolds.one g6; exact ⟨na, h⟩
    obtain ⟨w, k1, k2, k3⟩ := ih g6 hna (f := f) (by omega)
    refine ⟨abWord m ++ [98], ?_, by simp [abWord], e2⟩
    simp [abKernel, e5, abChild, g1, g2, g5, hna, k1, k3, k2]

/-- C73: writing the tree out again gives exactly the text that was consumed; nothing for a rejected text. -/
theorem C73_evaluates (src : Source) (hs : src.bytes.length < 2 ^ 31) {n : Nat} {b : Bool} {q : Nat} {t : Publisher Ex2}
    (h : parse ex2Parser src n = .ok (b, q, t)) (f : Nat) (hf : q + 2 ≤ f) : abTree t f = .ok (src.bytes.take q) := by
  have hmono := parse_mono (m := n + src.bytes.length + 14) (by omega) (show parse ex2Parser src n ≠ .oof by rw [h]; simp)
  rw [h] at hmono
  rcases C73_covers src.bytes with ⟨h0, _⟩ | ⟨h0, m, ⟨h1, h2⟩, _⟩
  · obtain ⟨t', e1, e2⟩ := C73_rejects src (by rw [getChar_small hs]; exact h0) (n + src.bytes.length + 14) (by omega)
    rw [hmono] at e1
    simp only [Out.ok.injEq, Prod.mk.injEq] at e1
    obtain ⟨rfl, rfl, rfl⟩ := e1
    obtain ⟨nd, g1, _, _, _, g5⟩ := Publisher.Unfolds.none e2
    obtain ⟨f, rfl⟩ : ∃ f', f = f' + 1 := ⟨f - 1, by omega⟩
    simp [abTree, g1, abKernel, g5]
  · obtain ⟨t', e1, e2⟩ := C73_accepts src hs m h1 h2 (n + src.bytes.length + 14) (by omega)
    rw [hmono] at e1
    simp only [Out.ok.injEq, Prod.mk.injEq] at e1
    obtain ⟨rfl, rfl, rfl⟩ := e1
    obtain ⟨nd, c, g1, _, _, _, g5, g6⟩ := Publisher.Unfolds.one e2
    obtain ⟨nd', c', k1, k2, _, _, k5, k6⟩ := Publisher.Unfolds.one g6
    obtain ⟨f, rfl⟩ : ∃ f', f = f' + 2 := ⟨f - 2, by omega⟩
    obtain ⟨na, hna⟩ : ∃ na, t.getNode c' = .ok na := by
      cases m with
      | zero => obtain ⟨na, h, _⟩ := Publisher.Unfolds.none k6; exact ⟨na, h⟩
      | succ m => obtain ⟨na, _, h, _⟩ := Publisher.Unfolds.one k6; exact ⟨na, h⟩
    obtain ⟨w, w1, w2, w3⟩ := abKernel_nest m k6 hna (f := f) (by rw [abWord_length] at hf; omega)
    rw [← List.prefix_iff_eq_take.1 h1]
    simp [abTree, g1, abKernel, g5, abChild, k1, k2, k5, hna, w1, w3, w2]

/-- The texts of the repository's tests. -/
example : (abWord 4 = bytesOf "ababababa") ∧ (match parse ex2Parser ⟨bytesOf "ababababa"⟩ 60 with
    | .ok (b, q, t) => (match abTree t 60 with | .ok w => some (b, q, w) | _ => none) | _ => none) = some (true, 9, bytesOf "ababababa") := by decide +kernel
example : (match parse ex2Parser ⟨bytesOf "babababababa"⟩ 60 with | .ok (b, q, _) => some (b, q) | _ => none) = some (false, 0) := by decide +kernel
/-- A longest prefix. -/
example : (match parse ex2Parser ⟨bytesOf "ababx"⟩ 60 with | .ok (b, q, _) => some (b, q) | _ => none) = some (true, 3) := by decide +kernel

end PP
