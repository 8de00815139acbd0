import Verif.Lemmas.ClearLen
import Verif.Props.Termination

/-! # C52: the returned tree may be exponentially larger than the work of recognition -/
namespace PP

/-- The grammar `A0 = 'a'`, `A(i+1) = (Ai,'x') / (Ai,'y')`, with `n + 1` rules; start rule `An`. -/
def chain (n : Nat) : Fin (n + 1) → Expr (Fin (n + 1))
  | ⟨0, _⟩ => .terminal 97
  | ⟨i + 1, h⟩ => .orderedChoice
      (.subexpression (.sequence (.varName ⟨i, by omega⟩) (.terminal 120)))
      (.subexpression (.sequence (.varName ⟨i, by omega⟩) (.terminal 121)))

/-- The source "ayy...y" with `n` letters `y`. -/
def chainSrc (n : Nat) : Source := ⟨97 :: List.replicate n 121⟩

theorem chain_plain (n : Nat) (r : Fin (n + 1)) : (chain n r).Plain := by
  obtain ⟨i, h⟩ := r
  cases i <;> simp [chain, Expr.Plain]

theorem chain_wf (n : Nat) : WellFormed (chain n) := by
  refine .ofCert (rules := List.finRange (n + 1)) (by simp) (nul := fun _ => false) (rank := fun r => r.val) ?_
  unfold certOK
  rw [List.all_eq_true]
  rintro ⟨i, h⟩ _
  cases i <;> simp [chain, Expr.nullIn, Expr.ranked, Expr.loops]

theorem chainSrc_get (n i : Nat) (h : i < n) : (chainSrc n).bytes[i + 1]? = some 121 := by
  simp [chainSrc, h]

theorem chainSrc_len (n : Nat) (h : n < 4294967295) : (chainSrc n).len = n + 1 := by
  simp [chainSrc, Source.len]
  omega

/-- The full binary invocation tree. -/
def chainTree (n : Nat) : (i : Nat) → (h : i ≤ n) → Tree (Fin (n + 1))
  | 0, h => .mk ⟨0, by omega⟩ 0 true 1 []
  | i + 1, h => .mk ⟨i + 1, by omega⟩ 0 true (i + 2) [chainTree n i (by omega), chainTree n i (by omega)]

theorem chain_pegT (n : Nat) (hn : n < 4294967295) : ∀ i (h : i ≤ n),
    PegT (chain n) (chainSrc n) (.varName ⟨i, by omega⟩) 0 true (i + 1) [chainTree n i h] := by
  intro i
  induction i with
  | zero =>
    intro h
    refine .ref (.terminal_ok ?_ ?_)
    · rw [chainSrc_len n hn]; omega
    · simp [chainSrc]
  | succ i ih =>
    intro h
    have ih := ih (by omega)
    have hx : PegT (chain n) (chainSrc n) (.terminal 120) (i + 1) false (i + 1) [] := by
      refine .terminal_fail ?_
      rw [chainSrc_get n i (by omega)]
      simp
    have hy : PegT (chain n) (chainSrc n) (.terminal 121) (i + 1) true (i + 1 + 1) [] := by
      refine .terminal_ok ?_ (chainSrc_get n i (by omega))
      rw [chainSrc_len n hn]; omega
    have := PegT.choice_right (.sub_fail (.seq_fail2 ih hx)) (.sub_ok (.seq_ok ih hy))
    exact .ref (r := (⟨i + 1, by omega⟩ : Fin (n + 1))) this

theorem chainTree_size (n : Nat) : ∀ i (h : i ≤ n), Tree.size.sizeL (Tree.prune (chainTree n i h)) + 1 = 2 ^ (i + 1) := by
  intro i
  induction i with
  | zero => intro h; simp [chainTree, Tree.mk, Tree.prune, Tree.prune.pruneL, Tree.size.sizeL, Tree.size]
  | succ i ih =>
    intro h
    have := ih (by omega)
    simp only [chainTree, Tree.mk, if_true]
    rw [prune_some, if_neg (by omega)]
    simp only [Tree.size.sizeL, Tree.size, Tree.prune.pruneL, Tree.sizeL_append]
    rw [Nat.pow_succ]
    omega

/-- C52, lower bound: on `chain n` (a grammar of `n + 1` rules of constant size) and the source "ay...y" (`n + 1` bytes),
whenever `parse` returns, the tree it returns has more than `2 ^ (n + 1)` nodes. -/
theorem C52_returned_tree_is_exponential (n : Nat) (hn : n < 2 ^ 32 - 1) {fuel : Nat} {b : Bool} {q : Nat}
    {t : Publisher (Fin (n + 1))} (h : parse (.plain (chain n) ⟨n, by omega⟩) (chainSrc n) fuel = .ok (b, q, t)) :
    b = true ∧ q = n + 1 ∧ t.nodes.length = 2 ^ (n + 1) + 1 := by
  obtain ⟨ts, h1, h2, h3⟩ := parse_len (lr := False) (.plain (chain n) ⟨n, by omega⟩) (chainSrc n) (plain_hooksOK _ _ _)
    (fun r => Or.inr (chain_plain n r).lrFree) h
  have h1' : Run False (chain n) (chainSrc n) (.varName ⟨n, by omega⟩) 0 b q ts := h1
  have hp := h1'.pegT (chain_plain n) trivial
  obtain ⟨rfl, rfl, rfl⟩ := hp.det (chain_pegT n (by omega) n (Nat.le_refl _))
  refine ⟨rfl, rfl, ?_⟩
  have := chainTree_size n n (Nat.le_refl _)
  simp only [Tree.prune.pruneL, List.append_nil] at h2
  omega

/-- C52: recognition, in contrast, allocates at most quadratically many nodes (C09), and returns success. -/
theorem C52_recognition_is_polynomial (n : Nat) (hn : n < 2 ^ 15) :
    (∃ N, ∀ fuel, N ≤ fuel → ∃ st, eval (.plain (chain n) ⟨n, by omega⟩) (chainSrc n) fuel (.varName ⟨n, by omega⟩) 0 0
      (St.new ⟨n, by omega⟩ ()) = .ok (true, n + 1, st) ∧ st.pub.nodes.length ≤ 1 + (n + 1) * (n + 2)) := by
  have hlen : (chainSrc n).len = n + 1 := chainSrc_len n (by omega)
  obtain ⟨N, hN⟩ := C05_peg_result_is_computed_small (chain n) ⟨n, by omega⟩ (chainSrc n) (chain_plain n)
    (List.finRange (n + 1)) (by simp) (by
      rw [hlen, List.length_finRange]
      have h1 : (n + 1) * (n + 1 + 1) ≤ 2 ^ 15 * (2 ^ 15 + 1) := Nat.mul_le_mul (by omega) (by omega)
      omega) (e := .varName ⟨n, by omega⟩) trivial (Nat.zero_le _)
    (chain_pegT n (by omega) n (Nat.le_refl _)).peg
  refine ⟨N, fun fuel hf => ?_⟩
  obtain ⟨st, h⟩ := hN fuel hf
  refine ⟨st, h, ?_⟩
  have := C09_packrat_bound (chain n) ⟨n, by omega⟩ (chainSrc n) (chain_plain n) (List.finRange (n + 1)) (by simp)
    (e := .varName ⟨n, by omega⟩) trivial (Nat.zero_le _) h
  rw [List.length_finRange, hlen] at this
  exact this

/-- C52: from 32 rules and 33 bytes on, `parse` cannot return at all: it ends in the key-overflow panic. -/
theorem C52_parse_fails_from_depth_32 (n : Nat) (h32 : 32 ≤ n) (hn : n < 2 ^ 32 - 1) :
    ∃ N, ∀ fuel, N ≤ fuel →
      parse (.plain (chain n) ⟨n, by omega⟩) (chainSrc n) fuel = .panic .keyOverflow := by
  obtain ⟨N, hN⟩ := C07_plain_parse_terminates (chain n) ⟨n, by omega⟩ (chainSrc n) (List.finRange (n + 1)) (by simp)
    (chain_wf n)
  refine ⟨N, fun fuel hf => ?_⟩
  rcases hN fuel hf with ⟨b, q, t, h⟩ | h
  · exfalso
    obtain ⟨_, _, h2⟩ := C52_returned_tree_is_exponential n hn h
    obtain ⟨_, _, _, h3⟩ := parse_len (lr := False) (.plain (chain n) ⟨n, by omega⟩) (chainSrc n) (plain_hooksOK _ _ _)
      (fun r => Or.inr (chain_plain n r).lrFree) h
    have : 2 ^ 33 ≤ 2 ^ (n + 1) := Nat.pow_le_pow_right (by omega) (by omega)
    omega
  · exact h

/-- C52, in general: the returned tree has two nodes more than the pruned tree of rule invocations. -/
theorem C52_returned_tree_size {R : Type} [DecidableEq R] (body : R → Expr R) (g : R) (src : Source)
    (hb : ∀ r, (body r).Plain) {n : Nat} {b : Bool} {q : Nat} {t : Publisher R}
    (h : parse (.plain body g) src n = .ok (b, q, t)) {b' : Bool} {q' : Nat} {ts : List (Tree R)}
    (hp : PegT body src (.varName g) 0 b' q' ts) :
    t.nodes.length = 2 + Tree.size.sizeL (Tree.prune.pruneL ts) := by
  obtain ⟨ts', h1, h2, _⟩ := parse_len (lr := False) (.plain body g) src (plain_hooksOK _ _ _)
    (fun r => Or.inr (hb r).lrFree) h
  obtain ⟨_, _, rfl⟩ := (h1.pegT hb (e := .varName g) trivial).det hp
  exact h2

/-- A concrete instance of the hypotheses: `n = 3`, 17 nodes. -/
example : (match parse (.plain (chain 3) 3) (chainSrc 3) 30 with
    | .ok (b, q, t) => some (b, q, t.nodes.length) | _ => none) = some (true, 4, 17) := by decide +kernel

end PP
