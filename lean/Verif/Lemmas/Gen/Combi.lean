import Verif.Spec.Cst
import Verif.Spec.Peg

/-! # Reading with the DSL grammar: building derivations, keeping only the pruned trees -/
namespace PP.Gen
open Tree.prune (pruneL)

theorem pruneL_append {R : Type} (a b : List (Tree R)) : pruneL (a ++ b) = pruneL a ++ pruneL b := by
  induction a with
  | nil => simp [pruneL]
  | cons t ts ih => simp [pruneL, ih]

/-- The expression matches `p..q`; `ts` are the surviving trees. -/
def Ok (src : Source) (e : Expr Dsl) (p q : Nat) (ts : List (Tree Dsl)) : Prop :=
  ∃ us, PegT Dsl.body src e p true q us ∧ pruneL us = ts
/-- The expression fails at `p`; `ts` are the surviving trees. -/
def Bad (src : Source) (e : Expr Dsl) (p : Nat) (ts : List (Tree Dsl)) : Prop :=
  ∃ us, PegT Dsl.body src e p false p us ∧ pruneL us = ts

/-- `s` is what remains of the source from `p` on. -/
structure Rem (src : Source) (p : Nat) (s : Bytes) : Prop where
  small : src.bytes.length < 4294967296
  le : p ≤ src.bytes.length
  drop : src.bytes.drop p = s

section
variable {src : Source} {p q r : Nat} {e a b : Expr Dsl} {ts us : List (Tree Dsl)} {s t : Bytes}

theorem Rem.len (h : Rem src p s) : src.len = src.bytes.length := by
  unfold Source.len; exact Nat.mod_eq_of_lt h.small

theorem Rem.length (h : Rem src p s) : src.bytes.length = p + s.length := by
  have := h.le; rw [← h.drop]; simp; omega

theorem Rem.get (h : Rem src p s) (i : Nat) : src.bytes[p + i]? = s[i]? := by
  rw [← h.drop]; simp

theorem Rem.get0 (h : Rem src p s) : src.bytes[p]? = s.head? := by
  have := h.get 0; simpa [List.head?_eq_getElem?] using this

theorem Rem.skip (h : Rem src p (t ++ s)) : Rem src (p + t.length) s := by
  refine ⟨h.small, by have := h.length; simp at this; omega, ?_⟩
  rw [← List.drop_drop, h.drop]; simp

theorem Rem.tail {c : UInt8} (h : Rem src p (c :: s)) : Rem src (p + 1) s := Rem.skip (t := [c]) h

theorem Rem.lt {c : UInt8} (h : Rem src p (c :: s)) : p < src.len := by
  rw [h.len, h.length]; simp

theorem Ok.term {c : UInt8} (h : Rem src p (c :: s)) : Ok src (.terminal c) p (p + 1) [] :=
  ⟨_, .terminal_ok h.lt (by rw [h.get0]; rfl), rfl⟩
theorem Bad.term {c : UInt8} (h : Rem src p s) (hc : s.head? ≠ some c) : Bad src (.terminal c) p [] :=
  ⟨_, .terminal_fail (by rw [h.get0]; exact fun x => hc x.2), rfl⟩
theorem Ok.range {lo hi : Nat} {c : UInt8} (h : Rem src p (c :: s)) (h1 : lo ≤ c.toNat) (h2 : c.toNat ≤ hi) :
    Ok src (.matchRange lo hi) p (p + 1) [] :=
  ⟨_, .range_ok h.lt (by rw [h.get0]; rfl) h1 h2, rfl⟩
theorem Bad.range {lo hi : Nat} (h : Rem src p s) (hc : ∀ c, s.head? = some c → ¬ (lo ≤ c.toNat ∧ c.toNat ≤ hi)) :
    Bad src (.matchRange lo hi) p [] :=
  ⟨_, .range_fail (by rw [h.get0]; rintro ⟨c, _, h2, h3, h4⟩; exact hc c h2 ⟨h3, h4⟩), rfl⟩
theorem Rem.slice (h : Rem src p s) (n : Nat) : src.slice p (p + n) = s.take n := by
  unfold Source.slice; rw [h.drop]; simp
theorem Ok.string {d : Bytes} (h : Rem src p (d ++ s)) : Ok src (.stringTerminal d) p (p + d.length) [] :=
  ⟨_, .string_ok (Or.inr (by rw [h.len, h.length]; simp)) (by rw [h.slice]; simp), rfl⟩
theorem Bad.string {d : Bytes} (h : Rem src p s) (hd : s.take d.length ≠ d) : Bad src (.stringTerminal d) p [] :=
  ⟨_, .string_fail (by rw [h.slice]; exact fun x => hd x.2), rfl⟩
theorem Ok.seq (h1 : Ok src a p q ts) (h2 : Ok src b q r us) : Ok src (.sequence a b) p r (ts ++ us) := by
  obtain ⟨_, h1, rfl⟩ := h1; obtain ⟨_, h2, rfl⟩ := h2; exact ⟨_, .seq_ok h1 h2, pruneL_append _ _⟩
theorem Bad.seq1 (h1 : Bad src a p ts) : Bad src (.sequence a b) p ts := by
  obtain ⟨_, h1, rfl⟩ := h1; exact ⟨_, .seq_fail1 h1, rfl⟩
theorem Bad.seq2 (h1 : Ok src a p q ts) (h2 : Bad src b q us) : Bad src (.sequence a b) p (ts ++ us) := by
  obtain ⟨_, h1, rfl⟩ := h1; obtain ⟨_, h2, rfl⟩ := h2; exact ⟨_, .seq_fail2 h1 h2, pruneL_append _ _⟩
theorem Ok.left (h1 : Ok src a p q ts) : Ok src (.orderedChoice a b) p q ts := by
  obtain ⟨_, h1, rfl⟩ := h1; exact ⟨_, .choice_left h1, rfl⟩
theorem Ok.right (h1 : Bad src a p ts) (h2 : Ok src b p q us) : Ok src (.orderedChoice a b) p q (ts ++ us) := by
  obtain ⟨_, h1, rfl⟩ := h1; obtain ⟨_, h2, rfl⟩ := h2; exact ⟨_, .choice_right h1 h2, pruneL_append _ _⟩
theorem Bad.choice (h1 : Bad src a p ts) (h2 : Bad src b p us) : Bad src (.orderedChoice a b) p (ts ++ us) := by
  obtain ⟨_, h1, rfl⟩ := h1; obtain ⟨_, h2, rfl⟩ := h2; exact ⟨_, .choice_fail h1 h2, pruneL_append _ _⟩
theorem Ok.not (h1 : Bad src e p ts) : Ok src (.notPredicate e) p p ts := by
  obtain ⟨_, h1, rfl⟩ := h1; exact ⟨_, .not_ok h1, rfl⟩
theorem Bad.not (h1 : Ok src e p q ts) : Bad src (.notPredicate e) p ts := by
  obtain ⟨_, h1, rfl⟩ := h1; exact ⟨_, .not_fail h1, rfl⟩
theorem Ok.opt (h1 : Ok src e p q ts) : Ok src (.optional e) p q ts := by
  obtain ⟨_, h1, rfl⟩ := h1; exact ⟨_, .opt_some h1, rfl⟩
theorem Ok.optNone (h1 : Bad src e p ts) : Ok src (.optional e) p p ts := by
  obtain ⟨_, h1, rfl⟩ := h1; exact ⟨_, .opt_none h1, rfl⟩
theorem Ok.starNil (h1 : Bad src e p ts) : Ok src (.zeroOrMore e) p p ts := by
  obtain ⟨_, h1, rfl⟩ := h1; exact ⟨_, .star_stop h1, rfl⟩
theorem Ok.starCons (h1 : Ok src e p q ts) (h2 : Ok src (.zeroOrMore e) q r us) :
    Ok src (.zeroOrMore e) p r (ts ++ us) := by
  obtain ⟨_, h1, rfl⟩ := h1; obtain ⟨_, h2, rfl⟩ := h2; exact ⟨_, .star_step h1 h2, pruneL_append _ _⟩
theorem Ok.plus (h1 : Ok src e p q ts) (h2 : Ok src (.zeroOrMore e) q r us) :
    Ok src (.oneOrMore e) p r (ts ++ us) := by
  obtain ⟨_, h1, rfl⟩ := h1; obtain ⟨_, h2, rfl⟩ := h2; exact ⟨_, .plus_ok h1 h2, pruneL_append _ _⟩
theorem Bad.plus (h1 : Bad src e p ts) : Bad src (.oneOrMore e) p ts := by
  obtain ⟨_, h1, rfl⟩ := h1; exact ⟨_, .plus_fail h1, rfl⟩
theorem Ok.sub (h1 : Ok src e p q ts) : Ok src (.subexpression e) p q ts := by
  obtain ⟨_, h1, rfl⟩ := h1; exact ⟨_, .sub_ok h1, rfl⟩
theorem Bad.sub (h1 : Bad src e p ts) : Bad src (.subexpression e) p ts := by
  obtain ⟨_, h1, rfl⟩ := h1; exact ⟨_, .sub_fail h1, rfl⟩
theorem Ok.inl {x : Dsl} (h1 : Ok src (Dsl.body x) p q ts) : Ok src (.inlined x) p q ts := by
  obtain ⟨_, h1, rfl⟩ := h1; exact ⟨_, .inl h1, rfl⟩
theorem Bad.inl {x : Dsl} (h1 : Bad src (Dsl.body x) p ts) : Bad src (.inlined x) p ts := by
  obtain ⟨_, h1, rfl⟩ := h1; exact ⟨_, .inl h1, rfl⟩
theorem Ok.ref {x : Dsl} (hpq : p ≠ q) (h1 : Ok src (Dsl.body x) p q ts) :
    Ok src (.varName x) p q [.node x (some (p, q)) ts] := by
  obtain ⟨us, h1, rfl⟩ := h1
  exact ⟨_, .ref h1, by simp [pruneL, Tree.mk, Tree.prune, hpq]⟩
theorem Bad.ref {x : Dsl} (h1 : Bad src (Dsl.body x) p ts) : Bad src (.varName x) p [] := by
  obtain ⟨us, h1, rfl⟩ := h1
  exact ⟨_, .ref h1, by simp [pruneL, Tree.mk, Tree.prune]⟩

theorem Ok.cast {q' : Nat} {ts'} (h : Ok src e p q ts) (hq : q = q') (hts : ts = ts') : Ok src e p q' ts' := by
  subst hq; subst hts; exact h
theorem Bad.cast {ts'} (h : Bad src e p ts) (hts : ts = ts') : Bad src e p ts' := by
  subst hts; exact h
end

end PP.Gen
