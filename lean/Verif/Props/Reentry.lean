import Verif.Lemmas.Oracle
import Verif.Props.LeftRec

/-! # C23: references to a growing rule from inside its own growth -/
set_option linter.unusedSectionVars false
namespace PP
variable {R U : Type} [DecidableEq R]

/-- C23, for every grammar, source and state: while the growth of `A` at `pA` is the active one, a left-recursive reference to
a rule of its involved set that has already been evaluated in the current round starts no match of its own: it fails in
place and changes nothing if nothing is memoised for it at that position, and otherwise answers what is memoised. -/
theorem C23_no_new_match_inside_growth (P : Parser R U) (src : Source) {st : St R U} {A : R} {pA : Nat} {h : Head R}
    (hact : st.cache.active = some (A, pA)) (hhead : st.cache.heads A pA = some h) {B : R} (hinv : B ∈ h.involved)
    (hev : B ∉ h.evalSet) (inv : List R) (n k p : Nat) :
    (st.cache.memo B p = none → eval P src (n + 1) (.varNameLR inv B) k p st = .ok (false, p, st)) ∧
    (∀ b q key, st.cache.memo B p = some (b, q, key) → ∀ b' q' st',
      eval P src (n + 1) (.varNameLR inv B) k p st = .ok (b', q', st') → b' = b ∧ q' = q ∧ st'.cache = st.cache) := by
  have hgrow : shouldGrow B p st = .ok (false, none, st) := by
    unfold shouldGrow
    rw [hact]
    simp only
    split
    · rfl
    · simp [Cache.ruleInInvolvedSet, hhead, hinv]
  have hinner : ∀ x, (eval P src (n + 1) (.varNameLR inv B) k p st = x) → (match st.cache.check B p with
      | some (mb, mq, mk) => (do
        let st ← st.connectIfNotConnected k mk
        .ok (mb, mq, st))
      | none => .ok (false, p, st)) = x := by
    intro x hx
    rw [← hx, eval, varNameLRKernel, hgrow]
    simp only [Out.bind_ok, Bool.false_eq_true, if_false, lrInner, hact, Cache.ruleInEvalSet, hhead]
    have : h.evalSet.contains B = false := by simpa using hev
    rw [this]
    simp
    rcases st.cache.check B p with _ | ⟨mb, mq, mk⟩ <;> rfl
  refine ⟨fun hm => ?_, fun b q key hm b' q' st' hx => ?_⟩
  · have := hinner _ rfl
    rw [Cache.check, hm] at this
    exact this.symm
  · have := hinner _ hx
    rw [Cache.check, hm] at this
    simp only at this
    rw [Out.bind_eq_ok] at this
    obtain ⟨st1, h1, h2⟩ := this
    simp only [Out.ok.injEq, Prod.mk.injEq] at h2
    obtain ⟨rfl, rfl, rfl⟩ := h2
    exact ⟨rfl, rfl, connectIf_eqs h1⟩

/-! ### `E = (E, '+', E) / '1'` -/

inductive SelfW where
  | grammar
  | e
  deriving DecidableEq, Repr

/-- What the generator emits for `<E> = (<E>, '+', <E>) / '1'; <Grammar> = <E>;` -/
def selfW : SelfW → Expr SelfW
  | .grammar => .varNameLR [.e] .e
  | .e => .orderedChoice (.subexpression (.sequence (.sequence (.varNameLR [.e] .e) (.terminal 43)) (.varNameLR [.e] .e)))
      (.terminal 49)

/-- C23: `E = (E, '+', E) / '1'` never matches more than one '1', on any source. -/
theorem C23_self_reference_never_extends (src : Source) : ∃ t N, ∀ n, N ≤ n → parse (.plain selfW .grammar) src n =
    .ok (decide (src.getChar 0 = some 49), if src.getChar 0 = some 49 then 1 else 0, t) := by
  have key : ∀ T : Nat → UInt8 → Option Bool, Agrees src T → ∀ b q, outcome (parseO (.plain selfW .grammar) T 30) = some (b, q) →
      b = decide (src.getChar 0 = some 49) → q = (if src.getChar 0 = some 49 then 1 else 0) →
      ∃ t N, ∀ n, N ≤ n → parse (.plain selfW .grammar) src n =
        .ok (decide (src.getChar 0 = some 49), if src.getChar 0 = some 49 then 1 else 0, t) := by
    intro T hT b q ho hb hq
    obtain ⟨t, ht⟩ := outcome_some ho
    subst hb; subst hq
    exact ⟨t, 30, parseO_parse hT ht⟩
  by_cases h0 : src.getChar 0 = some 49
  · by_cases h1 : src.getChar 1 = some 43
    · refine key (fun p c => if p = 0 ∧ c = 49 then some true else if p = 1 ∧ c = 43 then some true else none) ?_ true 1
        (by decide +kernel) (by simp [h0]) (by simp [h0])
      intro p c b h
      simp only at h
      split at h
      · next hpc => obtain ⟨rfl, rfl⟩ := hpc; cases h; simp [h0]
      · split at h
        · next hpc => obtain ⟨rfl, rfl⟩ := hpc; cases h; simp [h1]
        · cases h
    · refine key (fun p c => if p = 0 ∧ c = 49 then some true else if p = 1 ∧ c = 43 then some false else none) ?_ true 1
        (by decide +kernel) (by simp [h0]) (by simp [h0])
      intro p c b h
      simp only at h
      split at h
      · next hpc => obtain ⟨rfl, rfl⟩ := hpc; cases h; simp [h0]
      · split at h
        · next hpc => obtain ⟨rfl, rfl⟩ := hpc; cases h; simp [h1]
        · cases h
  · refine key (fun p c => if p = 0 ∧ c = 49 then some false else none) ?_ false 0
        (by decide +kernel) (by simp [h0]) (by simp [h0])
    intro p c b h
    simp only at h
    split at h
    · next hpc => obtain ⟨rfl, rfl⟩ := hpc; cases h; simp [h0]
    · cases h

/-- So "1+1" is cut off after the first digit. -/
example : outcome (parse (.plain selfW .grammar) ⟨bytesOf "1+1"⟩ 40) = some (true, 1) := by decide +kernel

/-! ### Parentheses -/

inductive ParenW where
  | grammar
  | expr
  | prim
  deriving DecidableEq, Repr

/-- What the generator emits for `<expr> = (<expr>, '+', <prim>) / <prim>; <prim> = ('(', <expr>, ')') / '1';` -/
def parenW : ParenW → Expr ParenW
  | .grammar => .varNameLR [.expr] .expr
  | .expr => .orderedChoice (.subexpression (.sequence (.sequence (.varNameLR [.expr] .expr) (.terminal 43)) (.varName .prim)))
      (.varName .prim)
  | .prim => .orderedChoice (.subexpression (.sequence (.sequence (.terminal 40) (.varNameLR [.expr] .expr)) (.terminal 41)))
      (.terminal 49)

/-- C23: with `expr = (expr,'+',prim) / prim` and `prim = ('(',expr,')') / '1'`, every source that starts with a parenthesis is
rejected, "(1)" included: the guarded inner reference does not start a match either. -/
theorem C23_parenthesised_recursion_fails (src : Source) (h : src.getChar 0 = some 40) : ∃ t N, ∀ n, N ≤ n →
    parse (.plain parenW .grammar) src n = .ok (false, 0, t) := by
  have hT : Agrees src (fun p c => if p = 0 then some (c = 40) else none) := by
    intro p c b hb
    simp only at hb
    split at hb
    · next hp =>
      subst hp; cases hb
      rw [h]; simp [eq_comm]
    · cases hb
  obtain ⟨t, ht⟩ := outcome_some (x := parseO (.plain parenW .grammar) (fun p c => if p = 0 then some (c = 40) else none) 30)
    (b := false) (q := 0) (by decide +kernel)
  exact ⟨t, 30, parseO_parse hT ht⟩

example : (⟨bytesOf "(1)"⟩ : Source).getChar 0 = some 40 := by decide +kernel

/-! ### A second left-recursive layer in between lifts the restriction -/

inductive CalcW where
  | grammar
  | expr
  | term
  | prim
  deriving DecidableEq, Repr

/-- `<expr> = (<expr>,'+',<term>) / <term>; <term> = (<term>,'*',<prim>) / <prim>; <prim> = ('(',<expr>,')') / '1';` -/
def calcW : CalcW → Expr CalcW
  | .grammar => .varNameLR [.expr] .expr
  | .expr => .orderedChoice (.subexpression (.sequence (.sequence (.varNameLR [.expr] .expr) (.terminal 43))
      (.varNameLR [.term] .term))) (.varNameLR [.term] .term)
  | .term => .orderedChoice (.subexpression (.sequence (.sequence (.varNameLR [.term] .term) (.terminal 42)) (.varName .prim)))
      (.varName .prim)
  | .prim => .orderedChoice (.subexpression (.sequence (.sequence (.terminal 40) (.varNameLR [.expr] .expr)) (.terminal 41)))
      (.terminal 49)

def calcLR : CalcW → Option (LRDecl CalcW)
  | .expr => some ⟨[.expr], .varNameLR [.term] .term, .sequence (.terminal 43) (.varNameLR [.term] .term)⟩
  | .term => some ⟨[.term], .varName .prim, .sequence (.terminal 42) (.varName .prim)⟩
  | _ => none

theorem direct_calc : DirectLR calcW calcLR := by
  refine .ofCert (rules := [.grammar, .expr, .term, .prim]) (by intro r; cases r <;> simp) ?_ ?_ ?_
    (fun r x => r == .term && x == .prim) ?_ (nul := fun _ => false)
    (rank := fun | .prim => 0 | .term => 1 | .expr => 2 | .grammar => 3) (by decide) ?_
  · intro r d hd
    cases r <;> simp only [calcLR, reduceCtorEq, Option.some.injEq] at hd
    all_goals
      subst hd
      exact ⟨by simp, _, rfl, .sub (.seq .base)⟩
  · intro r d hd
    cases r <;> simp only [calcLR, reduceCtorEq, Option.some.injEq] at hd
    all_goals
      subst hd
      simp [Expr.RefsOK, calcLR]
  · intro r hd
    cases r <;> simp [Expr.RefsOK, calcLR, calcW] at hd ⊢
  · intro r d hd
    cases r <;> simp only [calcLR, reduceCtorEq, Option.some.injEq] at hd
    all_goals
      subst hd
      refine ⟨fun x hx => ?_, by decide, by decide⟩
      cases x <;> first | rfl | cases hx
  · intro r d hd
    cases r <;> simp only [calcLR, reduceCtorEq, Option.some.injEq] at hd
    all_goals
      subst hd
      rfl

/-- C23: if another left-recursive rule (here `term`) grows in between, parenthesised recursion works: on every source, the
parser of the two-layer grammar returns the PEG result of the iterative grammar
`expr = term ('+' term)*, term = prim ('*' prim)*, prim = '(' expr ')' / '1'`. -/
theorem C23_two_layers_parse_parentheses (src : Source) {n : Nat} {b : Bool} {q : Nat} {t : Publisher CalcW}
    (h : parse (.plain calcW .grammar) src n = .ok (b, q, t)) : Peg (iterBody calcW calcLR) src (.varName .grammar) 0 b q :=
  C22_parse_is_iteration (.plain calcW .grammar) src calcLR direct_calc rfl h

example : outcome (parse (.plain calcW .grammar) ⟨bytesOf "(1*(1+1)+1)*1"⟩ 80) = some (true, 13) := by decide +kernel

end PP
