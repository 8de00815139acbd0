import Verif.Spec.Iterate

/-! # Specification: groups of left-recursive rules

Indirect left recursion: a *head* rule `A = e / a` whose recursive part `e` starts with `A` directly or through *member* rules
(`A = X / Y / a`, `X = A, b`, `Y = A, c`).  Such a head is read as `A = a (b / c)*`; the members have no meaning outside the
group.  `groupBody` rewrites a grammar that way; the result contains no left-recursive reference, so `Peg` gives it a meaning.
`GT` is the forest the parser builds: a match of the head is the match of `a`, wrapped once for every further match, with the
member nodes in between. -/
namespace PP
variable {R : Type}

/-- The part a rule plays. -/
inductive Role (R : Type) where
  /-- not left recursive -/
  | plain
  /-- a left-recursive rule that other rules may refer to -/
  | head (d : LRDecl R)
  /-- a rule on the way from the head `A` back to `A` -/
  | member (A : R)

/-- `GTail body role inv A ch e t ms`: the expression `e` is "`A`, directly or through members, then `t`", up to grouping and with
alternatives factored.  Alternatives are allowed only in the head's own body (`ch`), not in members.  `ms` are the members on
the way to `A` along the first alternatives. -/
inductive GTail (body : R → Expr R) (role : R → Role R) (inv : List R) (A : R) : Bool → Expr R → Expr R → List R → Prop where
  | head {ch} : GTail body role inv A ch (.varNameLR inv A) (.stringTerminal []) []
  | member {ch X t ms} : role X = .member A → X ∈ inv → X ∉ ms → GTail body role inv A false (body X) t ms →
      GTail body role inv A ch (.varNameLR inv X) t (X :: ms)
  | seq {ch e t ms c} : GTail body role inv A ch e t ms → GTail body role inv A ch (.sequence e c) (.sequence t c) ms
  | sub {ch e t ms} : GTail body role inv A ch e t ms → GTail body role inv A ch (.subexpression e) t ms
  | choice {e t ms e' t' ms'} : GTail body role inv A true e t ms → GTail body role inv A true e' t' ms' →
      GTail body role inv A true (.orderedChoice e e') (.orderedChoice t t') ms

/-- The grammar with every head `A = e / a` replaced by `A = a t*`, `t` the tail of `e`.  Members match nothing. -/
def groupBody (body : R → Expr R) (role : R → Role R) (r : R) : Expr R :=
  match role r with
  | .plain => (body r).deLR
  | .head d => .sequence d.first.deLR (.zeroOrMore d.tail.deLR)
  | .member _ => .matchRange 1 0

/-- No hooked calls. -/
def Expr.NoHook : Expr R → Prop
  | .andPredicate e | .notPredicate e | .oneOrMore e | .zeroOrMore e | .optional e | .subexpression e => e.NoHook
  | .orderedChoice a b | .sequence a b => a.NoHook ∧ b.NoHook
  | .terminal _ | .stringTerminal _ | .matchRange _ _ | .varName _ | .inlined _ | .varNameLR _ _ => True
  | .hooked _ _ => False

/-- References are of the kind the generator emits: ordinary for plain rules, left-recursive for heads.  No hooked calls. -/
def Expr.GRefs (role : R → Role R) : Expr R → Prop
  | .andPredicate e | .notPredicate e | .oneOrMore e | .zeroOrMore e | .optional e | .subexpression e => e.GRefs role
  | .orderedChoice a b | .sequence a b => a.GRefs role ∧ b.GRefs role
  | .terminal _ | .stringTerminal _ | .matchRange _ _ => True
  | .varName r | .inlined r => role r = .plain
  | .varNameLR inv r => ∃ d, role r = .head d ∧ d.involved = inv
  | .hooked _ _ => False

/-- All left recursion of the grammar is in such groups; and while `A` is grown, no rule of its involved set is called again
before some other left-recursive rule has taken over (see C23 for what happens otherwise). -/
structure GroupLR (body : R → Expr R) (role : R → Role R) : Prop where
  shape : ∀ A d, role A = .head d → A ∈ d.involved ∧ ∃ e ms, body A = .orderedChoice e d.first ∧
    GTail body role d.involved A true e d.tail ms
  refsHead : ∀ A d, role A = .head d → d.first.GRefs role ∧ d.tail.GRefs role
  refs : ∀ r, role r = .plain → (body r).GRefs role
  noReentry : ∀ A d, role A = .head d → ∀ B, CallsLR body d.first B ∨ CallsLR body d.tail B → B ∉ d.involved
  firstConsumes : ∀ A d, role A = .head d → ¬ MayBeEmpty (groupBody body role) d.first.deLR
  wf : WellFormed (groupBody body role)

/-- At most one left-recursive reference is evaluated, outside any repetition: the usual shape of a start rule (`<Grammar> = <expr>`,
or `<Grammar> = <ws>, <expr>, <ws>`). -/
inductive Solo (body : R → Expr R) : Expr R → Prop where
  | none {e} : (∀ B, ¬ CallsLR body e B) → Solo body e
  | lr {inv A} : Solo body (.varNameLR inv A)
  | sub {e} : Solo body e → Solo body (.subexpression e)
  | opt {e} : Solo body e → Solo body (.optional e)
  | andP {e} : Solo body e → Solo body (.andPredicate e)
  | notP {e} : Solo body e → Solo body (.notPredicate e)
  | fst {a c} : Solo body a → (∀ B, ¬ CallsLR body c B) → Solo body (.sequence a c)
  | snd {a c} : (∀ B, ¬ CallsLR body a B) → Solo body c → Solo body (.sequence a c)
  | left {a c} : Solo body a → (∀ B, ¬ CallsLR body c B) → Solo body (.orderedChoice a c)
  | right {a c} : (∀ B, ¬ CallsLR body a B) → Solo body c → Solo body (.orderedChoice a c)
  | ref {r} : Solo body (body r) → Solo body (.varName r)
  | inl {r} : Solo body (body r) → Solo body (.inlined r)

/-- The root of `t` is a failed invocation. -/
def Tree.Failed (t : Tree R) : Prop := t.span = none

mutual
/-- `GT body role src pre e p b q ts`: evaluating `e` at `p`, as part of a rule invocation whose forest so far is `pre`, gives
`(b, q)` and appends the forest `ts`. -/
inductive GT (body : R → Expr R) (role : R → Role R) (src : Source) :
    List (Tree R) → Expr R → Nat → Bool → Nat → List (Tree R) → Prop where
  | terminal {pre c p b q} : Peg body src (.terminal c) p b q → GT body role src pre (.terminal c) p b q []
  | range {pre lo hi p b q} : Peg body src (.matchRange lo hi) p b q → GT body role src pre (.matchRange lo hi) p b q []
  | string {pre d p b q} : Peg body src (.stringTerminal d) p b q → GT body role src pre (.stringTerminal d) p b q []
  | seq_ok {pre a c p q r ts us} : GT body role src pre a p true q ts → GT body role src (pre ++ ts) c q true r us →
      GT body role src pre (.sequence a c) p true r (ts ++ us)
  | seq_fail1 {pre a c p q ts} : GT body role src pre a p false q ts → GT body role src pre (.sequence a c) p false p ts
  | seq_fail2 {pre a c p q r ts us} : GT body role src pre a p true q ts →
      GT body role src (pre ++ ts) c q false r us → GT body role src pre (.sequence a c) p false p (ts ++ us)
  | choice_left {pre a c p q ts} : GT body role src pre a p true q ts →
      GT body role src pre (.orderedChoice a c) p true q ts
  | choice_right {pre a c p q r ts us} : GT body role src pre a p false q ts →
      GT body role src (pre ++ ts) c p true r us → GT body role src pre (.orderedChoice a c) p true r (ts ++ us)
  | choice_fail {pre a c p q r ts us} : GT body role src pre a p false q ts →
      GT body role src (pre ++ ts) c p false r us → GT body role src pre (.orderedChoice a c) p false p (ts ++ us)
  | and_ok {pre e p q ts} : GT body role src pre e p true q ts → GT body role src pre (.andPredicate e) p true p ts
  | and_fail {pre e p q ts} : GT body role src pre e p false q ts → GT body role src pre (.andPredicate e) p false p ts
  | not_ok {pre e p q ts} : GT body role src pre e p false q ts → GT body role src pre (.notPredicate e) p true p ts
  | not_fail {pre e p q ts} : GT body role src pre e p true q ts → GT body role src pre (.notPredicate e) p false p ts
  | opt_some {pre e p q ts} : GT body role src pre e p true q ts → GT body role src pre (.optional e) p true q ts
  | opt_none {pre e p q ts} : GT body role src pre e p false q ts → GT body role src pre (.optional e) p true p ts
  | star_stop {pre e p q ts} : GT body role src pre e p false q ts → GT body role src pre (.zeroOrMore e) p true p ts
  | star_step {pre e p q r ts us} : GT body role src pre e p true q ts →
      GT body role src (pre ++ ts) (.zeroOrMore e) q true r us → GT body role src pre (.zeroOrMore e) p true r (ts ++ us)
  | plus_ok {pre e p q r ts us} : GT body role src pre e p true q ts →
      GT body role src (pre ++ ts) (.zeroOrMore e) q true r us → GT body role src pre (.oneOrMore e) p true r (ts ++ us)
  | plus_fail {pre e p q ts} : GT body role src pre e p false q ts → GT body role src pre (.oneOrMore e) p false p ts
  | sub_ok {pre e p q ts} : GT body role src pre e p true q ts → GT body role src pre (.subexpression e) p true q ts
  | sub_fail {pre e p q ts} : GT body role src pre e p false q ts → GT body role src pre (.subexpression e) p false p ts
  | ref {pre r p b q ts} : GT body role src [] (body r) p b q ts →
      GT body role src pre (.varName r) p b q [Tree.mk r p b q ts]
  | inl {pre r p b q ts} : GT body role src pre (body r) p b q ts → GT body role src pre (.inlined r) p b q ts
  /-- a head that matches: the tree grown as far as possible -/
  | lr_ok {pre A d p q t} : role A = .head d → GGrown body role src A d p q t →
      Peg (groupBody body role) src d.tail.deLR q false q → GT body role src pre (.varNameLR d.involved A) p true q [t]
  /-- a head that does not match: a failed node without children -/
  | lr_fail {pre A d p} : role A = .head d → Peg (groupBody body role) src d.first.deLR p false p →
      GT body role src pre (.varNameLR d.involved A) p false p [.node A none []]
  /-- a left-recursive reference whose tree the current node already has among its children is not added again -/
  | lr_dup {pre A d p b q t} : role A = .head d → t ∈ pre → GT body role src [] (.varNameLR d.involved A) p b q [t] →
      GT body role src pre (.varNameLR d.involved A) p b q []
/-- `HV … A p s t pre e b q ts`: the recursive expression `e` of the group of `A` at `p`, when the tree of `A` so far is `t`, for
`p..s`: it gives `(b, q)` and appends `ts`.  References to `A` stand for `t`; members are invoked. -/
inductive HV (body : R → Expr R) (role : R → Role R) (src : Source) :
    R → Nat → Nat → Tree R → List (Tree R) → Expr R → Bool → Nat → List (Tree R) → Prop where
  | head {A p s t pre inv} : HV body role src A p s t pre (.varNameLR inv A) true s [t]
  | head_dup {A p s t pre inv} : t ∈ pre → HV body role src A p s t pre (.varNameLR inv A) true s []
  | member {A p s t pre inv X b q us} : role X = .member A → HV body role src A p s t [] (body X) b q us →
      HV body role src A p s t pre (.varNameLR inv X) b q [Tree.mk X p b q us]
  | member_dup {A p s t pre inv X b q us} : role X = .member A → HV body role src A p s t [] (body X) b q us →
      Tree.mk X p b q us ∈ pre → HV body role src A p s t pre (.varNameLR inv X) b q []
  | seq_ok {A p s t pre a c q r ts us} : HV body role src A p s t pre a true q ts →
      GT body role src (pre ++ ts) c q true r us → HV body role src A p s t pre (.sequence a c) true r (ts ++ us)
  | seq_fail1 {A p s t pre a c q ts} : HV body role src A p s t pre a false q ts →
      HV body role src A p s t pre (.sequence a c) false p ts
  | seq_fail2 {A p s t pre a c q r ts us} : HV body role src A p s t pre a true q ts →
      GT body role src (pre ++ ts) c q false r us → HV body role src A p s t pre (.sequence a c) false p (ts ++ us)
  | sub_ok {A p s t pre e q ts} : HV body role src A p s t pre e true q ts →
      HV body role src A p s t pre (.subexpression e) true q ts
  | sub_fail {A p s t pre e q ts} : HV body role src A p s t pre e false q ts →
      HV body role src A p s t pre (.subexpression e) false p ts
  | choice_left {A p s t pre a c q ts} : HV body role src A p s t pre a true q ts →
      HV body role src A p s t pre (.orderedChoice a c) true q ts
  | choice_right {A p s t pre a c q r ts us} : HV body role src A p s t pre a false q ts →
      HV body role src A p s t (pre ++ ts) c true r us → HV body role src A p s t pre (.orderedChoice a c) true r (ts ++ us)
  | choice_fail {A p s t pre a c q r ts us} : HV body role src A p s t pre a false q ts →
      HV body role src A p s t (pre ++ ts) c false r us → HV body role src A p s t pre (.orderedChoice a c) false p (ts ++ us)
/-- `GGrown … A d p q t`: `t` is a tree of the head `A = e / d.first` for `p..q`. -/
inductive GGrown (body : R → Expr R) (role : R → Role R) (src : Source) :
    R → LRDecl R → Nat → Nat → Tree R → Prop where
  /-- the first tree, possibly with failed nodes of members in front -/
  | seed {A d p q fs ts} : (∀ f ∈ fs, Tree.Failed f) → GT body role src fs d.first p true q ts →
      GGrown body role src A d p q (.node A (some (p, q)) (fs ++ ts))
  | grow {A d p q t e q' us} : GGrown body role src A d p q t → body A = .orderedChoice e d.first →
      HV body role src A p q t [] e true q' us → GGrown body role src A d p q' (.node A (some (p, q')) us)
end

end PP
