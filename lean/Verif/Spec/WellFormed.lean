import Verif.Model.Interp

/-! # Specification: well-formed grammars

The classical sufficient condition for termination of a PEG parser, with left-recursive references exempted from it. -/
namespace PP
variable {R U : Type}

/-- `MayBeEmpty body e`: the expression might succeed without consuming anything (conservatively: predicates, optionals and
`*` always may; a rule may if its body may). -/
inductive MayBeEmpty (body : R → Expr R) : Expr R → Prop where
  | andP {e} : MayBeEmpty body (.andPredicate e)
  | notP {e} : MayBeEmpty body (.notPredicate e)
  | opt {e} : MayBeEmpty body (.optional e)
  | star {e} : MayBeEmpty body (.zeroOrMore e)
  | plus {e} : MayBeEmpty body e → MayBeEmpty body (.oneOrMore e)
  | sub {e} : MayBeEmpty body e → MayBeEmpty body (.subexpression e)
  | hook {n e} : MayBeEmpty body e → MayBeEmpty body (.hooked n e)
  | left {a b} : MayBeEmpty body a → MayBeEmpty body (.orderedChoice a b)
  | right {a b} : MayBeEmpty body b → MayBeEmpty body (.orderedChoice a b)
  | seq {a b} : MayBeEmpty body a → MayBeEmpty body b → MayBeEmpty body (.sequence a b)
  | string : MayBeEmpty body (.stringTerminal [])
  | ref {r} : MayBeEmpty body (body r) → MayBeEmpty body (.varName r)
  | inl {r} : MayBeEmpty body (body r) → MayBeEmpty body (.inlined r)
  | lr {inv r} : MayBeEmpty body (body r) → MayBeEmpty body (.varNameLR inv r)

/-- `FirstRef body e r`: evaluating `e` might evaluate rule `r` through an *ordinary* reference (memoised or inlined, not a
left-recursive one) before anything has been consumed. -/
inductive FirstRef (body : R → Expr R) : Expr R → R → Prop where
  | ref {r} : FirstRef body (.varName r) r
  | inl {r} : FirstRef body (.inlined r) r
  | andP {e r} : FirstRef body e r → FirstRef body (.andPredicate e) r
  | notP {e r} : FirstRef body e r → FirstRef body (.notPredicate e) r
  | opt {e r} : FirstRef body e r → FirstRef body (.optional e) r
  | star {e r} : FirstRef body e r → FirstRef body (.zeroOrMore e) r
  | plus {e r} : FirstRef body e r → FirstRef body (.oneOrMore e) r
  | sub {e r} : FirstRef body e r → FirstRef body (.subexpression e) r
  | hook {n e r} : FirstRef body e r → FirstRef body (.hooked n e) r
  | left {a b r} : FirstRef body a r → FirstRef body (.orderedChoice a b) r
  | right {a b r} : FirstRef body b r → FirstRef body (.orderedChoice a b) r
  | fst {a b r} : FirstRef body a r → FirstRef body (.sequence a b) r
  | snd {a b r} : MayBeEmpty body a → FirstRef body b r → FirstRef body (.sequence a b) r

/-- No repetition inside the expression has a body that may succeed without consuming. -/
def NoEmptyLoop (body : R → Expr R) : Expr R → Prop
  | .andPredicate e | .notPredicate e | .optional e | .subexpression e | .hooked _ e => NoEmptyLoop body e
  | .oneOrMore e | .zeroOrMore e => ¬ MayBeEmpty body e ∧ NoEmptyLoop body e
  | .orderedChoice a b | .sequence a b => NoEmptyLoop body a ∧ NoEmptyLoop body b
  | .terminal _ | .stringTerminal _ | .matchRange _ _ | .varName _ | .varNameLR _ _ | .inlined _ => True

/-- The grammar has no cycle of ordinary references that consumes nothing, and no empty loop.  Left-recursive references
(which the generator marks as such) may form cycles. -/
structure WellFormed (body : R → Expr R) : Prop where
  noCycle : WellFounded fun r' r => FirstRef body (body r) r'
  noLoop : ∀ r, NoEmptyLoop body (body r)

/-! A decidable certificate: a table of possibly-empty rules and a rank for every rule. -/

/-- `MayBeEmpty` evaluated with a table for the rules. -/
def Expr.nullIn (nul : R → Bool) : Expr R → Bool
  | .andPredicate _ | .notPredicate _ | .optional _ | .zeroOrMore _ => true
  | .oneOrMore e | .subexpression e | .hooked _ e => e.nullIn nul
  | .orderedChoice a b => a.nullIn nul || b.nullIn nul
  | .sequence a b => a.nullIn nul && b.nullIn nul
  | .terminal _ | .matchRange _ _ => false
  | .stringTerminal d => d.isEmpty
  | .varName r | .inlined r | .varNameLR _ r => nul r

/-- Loops are not empty, judged with the table. -/
def Expr.loops (nul : R → Bool) : Expr R → Bool
  | .andPredicate e | .notPredicate e | .optional e | .subexpression e | .hooked _ e => e.loops nul
  | .oneOrMore e | .zeroOrMore e => !e.nullIn nul && e.loops nul
  | .orderedChoice a b | .sequence a b => a.loops nul && b.loops nul
  | .terminal _ | .matchRange _ _ | .stringTerminal _ | .varNameLR _ _ | .varName _ | .inlined _ => true

/-- All `FirstRef`s have rank below `k`, and loops are not empty, judged with the table. -/
def Expr.ranked (nul : R → Bool) (rank : R → Nat) (k : Nat) : Expr R → Bool
  | .andPredicate e | .notPredicate e | .optional e | .subexpression e | .hooked _ e => e.ranked nul rank k
  | .oneOrMore e | .zeroOrMore e => !e.nullIn nul && e.ranked nul rank k
  | .orderedChoice a b => a.ranked nul rank k && b.ranked nul rank k
  | .sequence a b => a.ranked nul rank k && (if a.nullIn nul then b.ranked nul rank k else b.loops nul)
  | .terminal _ | .matchRange _ _ | .stringTerminal _ | .varNameLR _ _ => true
  | .varName r | .inlined r => rank r < k
/-- The certificate is valid for the listed rules. -/
def certOK (body : R → Expr R) (rules : List R) (nul : R → Bool) (rank : R → Nat) : Bool :=
  rules.all fun r => (!(body r).nullIn nul || nul r) && (body r).ranked nul rank (rank r)

theorem MayBeEmpty.nullIn {body : R → Expr R} {nul : R → Bool} (h : ∀ r, (body r).nullIn nul = true → nul r = true)
    {e : Expr R} (he : MayBeEmpty body e) : e.nullIn nul = true := by
  induction he with
  | ref _ ih | inl _ ih | lr _ ih => exact h _ ih
  | _ => simp_all [Expr.nullIn]

theorem Expr.loops_noEmptyLoop {body : R → Expr R} {nul : R → Bool} (h : ∀ r, (body r).nullIn nul = true → nul r = true)
    {e : Expr R} (he : e.loops nul = true) : NoEmptyLoop body e := by
  induction e with
  | oneOrMore e ih | zeroOrMore e ih =>
    simp only [Expr.loops, Bool.and_eq_true, Bool.not_eq_true'] at he
    exact ⟨fun hm => by simpa [he.1] using hm.nullIn h, ih he.2⟩
  | _ => simp_all [Expr.loops, NoEmptyLoop]

theorem Expr.ranked_noEmptyLoop {body : R → Expr R} {nul : R → Bool} {rank : R → Nat} {k : Nat}
    (h : ∀ r, (body r).nullIn nul = true → nul r = true) {e : Expr R} (he : e.ranked nul rank k = true) :
    NoEmptyLoop body e := by
  induction e with
  | oneOrMore e ih | zeroOrMore e ih =>
    simp only [Expr.ranked, Bool.and_eq_true, Bool.not_eq_true'] at he
    exact ⟨fun hm => by simpa [he.1] using hm.nullIn h, ih he.2⟩
  | sequence a b iha ihb =>
    simp only [Expr.ranked, Bool.and_eq_true] at he
    refine ⟨iha he.1, ?_⟩
    have := he.2
    split at this
    · exact ihb this
    · exact Expr.loops_noEmptyLoop h this
  | _ => simp_all [Expr.ranked, NoEmptyLoop]

theorem FirstRef.rank_lt {body : R → Expr R} {nul : R → Bool} {rank : R → Nat} {k : Nat}
    (h : ∀ r, (body r).nullIn nul = true → nul r = true) {e : Expr R} {r : R} (hr : FirstRef body e r)
    (he : e.ranked nul rank k = true) : rank r < k := by
  induction hr with
  | ref | inl => simpa [Expr.ranked] using he
  | snd hm _ ih =>
    simp only [Expr.ranked, Bool.and_eq_true] at he
    have := he.2
    rw [if_pos (hm.nullIn h)] at this
    exact ih this
  | _ => simp_all [Expr.ranked]

/-- A valid certificate proves well-formedness. -/
theorem WellFormed.ofCert {body : R → Expr R} {rules : List R} (hall : ∀ r, r ∈ rules) {nul : R → Bool} {rank : R → Nat}
    (h : certOK body rules nul rank = true) : WellFormed body := by
  have h' : ∀ r, (!(body r).nullIn nul || nul r) = true ∧ (body r).ranked nul rank (rank r) = true := fun r => by
    have := List.all_eq_true.mp h r (hall r)
    simpa using this
  have hn : ∀ r, (body r).nullIn nul = true → nul r = true := fun r e => by simpa [e] using (h' r).1
  refine ⟨?_, fun r => Expr.ranked_noEmptyLoop hn (h' r).2⟩
  exact Subrelation.wf (r := fun r' r => rank r' < rank r) (fun {a b} hab => FirstRef.rank_lt hn hab (h' b).2)
    (InvImage.wf rank Nat.lt_wfRel.wf)

end PP
