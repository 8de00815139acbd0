import Verif.Model.Interp

/-! # Fuel monotonicity: more fuel never changes an answer -/
set_option linter.unusedSectionVars false
namespace PP
variable {R U : Type} [DecidableEq R]

theorem Out.le_refl {α : Type} (x : Out α) : x.le x := Or.inr rfl

theorem Out.le_bind {α β : Type} {x y : Out α} {f g : α → Out β} (h : x.le y) (hf : ∀ a, (f a).le (g a)) :
    (x >>= f).le (y >>= g) := by
  rcases h with rfl | rfl
  · exact Or.inl rfl
  · cases x with
    | oof => exact Or.inl rfl
    | panic p => exact Or.inr rfl
    | ok a => exact hf a

theorem Out.le_trans {α : Type} {x y z : Out α} (h1 : x.le y) (h2 : y.le z) : x.le z := by
  rcases h1 with rfl | rfl
  · exact Or.inl rfl
  · exact h2

theorem Out.le_eq {α : Type} {x y : Out α} (h : x.le y) (hx : x ≠ .oof) : y = x := by
  rcases h with rfl | rfl
  · exact absurd rfl hx
  · rfl

/-- pointwise order of closures -/
def PFn.le (f g : PFn R U) : Prop := ∀ parent pos st, (f parent pos st).le (g parent pos st)

theorem PFn.le_refl (f : PFn R U) : PFn.le f f := fun _ _ _ => Or.inr rfl

theorem repeatLoop_le {f g : PFn R U} (h : PFn.le f g) (parent : Nat) : ∀ n m, n ≤ m → ∀ pos st,
    (repeatLoop f parent n pos st).le (repeatLoop g parent m pos st) := by
  intro n
  induction n with
  | zero => intro m _ pos st; exact Or.inl rfl
  | succ n ih =>
    intro m hm pos st
    obtain ⟨m, rfl⟩ : ∃ k, m = k + 1 := ⟨m - 1, by omega⟩
    refine Out.le_bind (h parent pos st) ?_
    rintro ⟨b, q, st'⟩
    cases b
    · exact Or.inr rfl
    · exact ih m (by omega) q st'

theorem varNameKernel_le {f g : PFn R U} (h : PFn.le f g) (r : R) : PFn.le (varNameKernel r f) (varNameKernel r g) := by
  intro parent pos st
  unfold varNameKernel
  split
  · exact Or.inr rfl
  · unfold defaultBehaviour
    refine Out.le_bind (Out.le_refl _) ?_
    rintro ⟨k, st'⟩
    exact Out.le_bind (h k pos st') fun _ => Out.le_refl _

theorem growthLoop_le {f g : PFn R U} (h : PFn.le f g) (r : R) (parent pos : Nat) (prev : Option (R × Nat)) :
    ∀ n m, n ≤ m → ∀ last lk ck st,
    (growthLoop r f parent pos prev n last lk ck st).le (growthLoop r g parent pos prev m last lk ck st) := by
  intro n
  induction n with
  | zero => intro m _ _ _ _ _; exact Or.inl rfl
  | succ n ih =>
    intro m hm last lk ck st
    obtain ⟨m, rfl⟩ : ∃ k, m = k + 1 := ⟨m - 1, by omega⟩
    unfold growthLoop
    refine Out.le_bind (Out.le_refl _) fun st1 => ?_
    refine Out.le_bind (h ck pos st1) ?_
    rintro ⟨b, q, st2⟩
    dsimp only
    generalize growthPick st2 r pos ck b q = v
    obtain ⟨ck', b', q'⟩ := v
    refine Out.le_bind (Out.le_refl _) fun st3 => ?_
    simp only
    split
    · exact Or.inr rfl
    · refine Out.le_bind (Out.le_refl _) ?_
      rintro ⟨k, st4⟩
      exact ih m (by omega) _ _ _ _

theorem varNameLRKernel_le {f g : PFn R U} (h : PFn.le f g) {n m : Nat} (hnm : n ≤ m) (inv : List R) (r : R) :
    PFn.le (varNameLRKernel n inv r f) (varNameLRKernel m inv r g) := by
  intro parent pos st
  unfold varNameLRKernel
  refine Out.le_bind (Out.le_refl _) ?_
  rintro ⟨should, last, st1⟩
  cases should
  · simp only [Bool.false_eq_true, if_false]
    unfold lrInner
    split
    · exact Or.inr rfl
    · refine Out.le_bind (Out.le_refl _) fun b => ?_
      cases b
      · exact Or.inr rfl
      · refine Out.le_bind (Out.le_refl _) ?_
        rintro ⟨k, st2⟩
        refine Out.le_bind (Out.le_refl _) fun st3 => ?_
        exact Out.le_bind (h k pos st3) fun _ => Out.le_refl _
  · unfold growthFunction
    refine Out.le_bind (Out.le_refl _) ?_
    rintro ⟨k, st2⟩
    refine Out.le_bind (Out.le_refl _) fun st3 => ?_
    refine Out.le_bind (Out.le_refl _) ?_
    rintro ⟨k', st4⟩
    exact growthLoop_le h r parent pos _ n m hnm _ _ _ _

theorem runHook_le {f g : PFn R U} (h : PFn.le f g) (parent : Nat) : ∀ (prog : HookProg U) st,
    (runHook f parent prog st).le (runHook g parent prog st) := by
  intro prog
  induction prog with
  | ret => intro st; exact Or.inr rfl
  | panic => intro st; exact Or.inr rfl
  | call u p k ih =>
    intro st
    refine Out.le_bind (x := f parent p { st with user := u }) (h _ _ _) ?_
    intro a; exact ih _ _ _ _

theorem eval_le (P : Parser R U) (src : Source) : ∀ n m, n ≤ m → ∀ e : Expr R,
    PFn.le (eval P src n e) (eval P src m e) := by
  intro n
  induction n with
  | zero => intro m _ e parent pos st; exact Or.inl rfl
  | succ n ih =>
    intro m hm e
    obtain ⟨m, rfl⟩ : ∃ k, m = k + 1 := ⟨m - 1, by omega⟩
    have hnm : n ≤ m := by omega
    cases e with
    | andPredicate e => exact fun _ _ _ => Out.le_bind (ih m hnm e _ _ _) fun _ => Out.le_refl _
    | notPredicate e => exact fun _ _ _ => Out.le_bind (ih m hnm e _ _ _) fun _ => Out.le_refl _
    | optional e => exact fun _ _ _ => Out.le_bind (ih m hnm e _ _ _) fun _ => Out.le_refl _
    | subexpression e => exact fun _ _ _ => Out.le_bind (ih m hnm e _ _ _) fun _ => Out.le_refl _
    | oneOrMore e =>
      intro parent pos st
      refine Out.le_bind (ih m hnm e _ _ _) ?_
      rintro ⟨b, q, st'⟩
      cases b
      · exact Or.inr rfl
      · exact repeatLoop_le (ih m hnm e) parent n m hnm q st'
    | zeroOrMore e => exact fun parent pos st => repeatLoop_le (ih m hnm e) parent n m hnm pos st
    | orderedChoice a b =>
      intro parent pos st
      refine Out.le_bind (ih m hnm a _ _ _) ?_
      rintro ⟨v, q, st'⟩
      cases v
      · exact Out.le_bind (ih m hnm b _ _ _) fun _ => Out.le_refl _
      · exact Or.inr rfl
    | sequence a b =>
      intro parent pos st
      refine Out.le_bind (ih m hnm a _ _ _) ?_
      rintro ⟨v, q, st'⟩
      cases v
      · exact Or.inr rfl
      · exact Out.le_bind (ih m hnm b _ _ _) fun _ => Out.le_refl _
    | terminal c => exact PFn.le_refl _
    | stringTerminal d => exact PFn.le_refl _
    | matchRange lo hi => exact PFn.le_refl _
    | varName r => exact varNameKernel_le (ih m hnm _) r
    | varNameLR inv r => exact varNameLRKernel_le (ih m hnm _) hnm inv r
    | inlined r => exact fun _ _ _ => ih m hnm _ _ _ _
    | hooked name e => exact fun _ _ _ => runHook_le (ih m hnm e) _ _ _

theorem eval_mono {P : Parser R U} {src : Source} {n m : Nat} (h : n ≤ m) {e : Expr R} {parent pos : Nat} {st : St R U}
    (hx : eval P src n e parent pos st ≠ .oof) :
    eval P src m e parent pos st = eval P src n e parent pos st :=
  Out.le_eq (eval_le P src n m h e parent pos st) hx

end PP
