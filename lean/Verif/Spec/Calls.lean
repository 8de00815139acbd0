import Verif.Model.Interp

/-! # Specification: assumptions on hooked calls, and the states a client can reach -/
namespace PP
variable {R U : Type}

/-- A hooked call is honest at `pos` if it returns either failure in place or an end position at which the wrapped closure
succeeded from `pos` (`seen`), and it calls the closure only at `pos` or later positions inside the source.  It may rely on the closure
failing in place. -/
inductive HookOK (len pos : Nat) : List Nat → HookProg U → Prop where
  | fail {seen u} : HookOK len pos seen (.ret u false pos)
  | succ {seen u q} : q ∈ seen → HookOK len pos seen (.ret u true q)
  | panic {seen} : HookOK len pos seen .panic
  | call {seen u p k} : pos ≤ p → (p = pos ∨ p ≤ len) →
      (∀ u' b q, (b = false → q = p) → HookOK len pos (if b = true ∧ p = pos then q :: seen else seen) (k u' b q)) →
      HookOK len pos seen (.call u p k)

/-- All hooks of the parser are honest. -/
def Parser.HooksOK (P : Parser R U) (src : Source) : Prop :=
  ∀ name pos u, HookOK src.len pos [] (P.hook name src pos u)

/-- Grammar without left-recursive references. -/
def Expr.LRFree : Expr R → Prop
  | .andPredicate e | .notPredicate e | .oneOrMore e | .zeroOrMore e | .optional e | .subexpression e => e.LRFree
  | .orderedChoice a b | .sequence a b => a.LRFree ∧ b.LRFree
  | .terminal _ | .stringTerminal _ | .matchRange _ _ | .varName _ | .inlined _ => True
  | .varNameLR _ _ => False
  | .hooked _ e => e.LRFree

/-- `Reached P src ok k st`: a client holding parent key `k` can see the state `st`, after any history of calls of generated
closures (any expression satisfying `ok`, at any position, with any fuel that lets it return) and openings of new syntax
nodes, starting from a fresh context. -/
inductive Reached [DecidableEq R] (P : Parser R U) (src : Source) (ok : Expr R → Prop) : Nat → St R U → Prop where
  | init : Reached P src ok 0 (St.new P.grammar P.userInit)
  | call {k st n e p b q st'} : Reached P src ok k st → ok e → eval P src n e k p st = .ok (b, q, st') →
      Reached P src ok k st'
  | node {k st r k' st'} : Reached P src ok k st → st.reserve r = .ok (k', st') → Reached P src ok k' st'

/-- The answer `(matched, position)` of a call, if it returned. -/
def Out.view {α : Type} : Out (Bool × Nat × α) → Option (Bool × Nat)
  | .ok (b, q, _) => some (b, q)
  | _ => none

theorem Out.view_eq {α : Type} {x : Out (Bool × Nat × α)} {b q} (h : x.view = some (b, q)) : ∃ a, x = .ok (b, q, a) := by
  cases x with
  | ok y => obtain ⟨b', q', a⟩ := y; simp [Out.view] at h; exact ⟨a, by rw [h.1, h.2]⟩
  | _ => simp [Out.view] at h

/-- A hook program that never panics, whatever the wrapped closure answers. -/
inductive HookProg.Calm : HookProg U → Prop where
  | ret {u b q} : Calm (.ret u b q)
  | call {u p k} : (∀ u' b q, Calm (k u' b q)) → Calm (.call u p k)

/-- No hook of the parser panics by itself. -/
def Parser.HooksCalm (P : Parser R U) (src : Source) : Prop := ∀ name pos u, (P.hook name src pos u).Calm

/-- Any expression. -/
def Expr.Any : Expr R → Prop := fun _ => True

end PP
