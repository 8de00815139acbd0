import Verif.Lemmas.Fuel
import Verif.Lemmas.Gen.ClearConv
import Verif.Model.Parsers

/-! # Running a parser on partial knowledge of the source

`evalO` is `eval` where single-byte tests are answered by a partial table `T` and everything else that looks at the source
gives up.  What it returns, the real parser returns on every source that agrees with the table. -/
set_option linter.unusedSectionVars false
namespace PP
variable {R U : Type} [DecidableEq R]

def evalO (P : Parser R U) (T : Nat → UInt8 → Option Bool) : Nat → Expr R → PFn R U
  | 0, _ => fun _ _ _ => .oof
  | n + 1, .andPredicate e => andPredicateKernel (evalO P T n e)
  | n + 1, .notPredicate e => notPredicateKernel (evalO P T n e)
  | n + 1, .oneOrMore e => oneOrMoreKernel n (evalO P T n e)
  | n + 1, .zeroOrMore e => zeroOrMoreKernel n (evalO P T n e)
  | n + 1, .optional e => optionalKernel (evalO P T n e)
  | n + 1, .subexpression e => subexpressionKernel (evalO P T n e)
  | n + 1, .orderedChoice a b => orderedChoiceKernel (evalO P T n a) (evalO P T n b)
  | n + 1, .sequence a b => sequenceKernel (evalO P T n a) (evalO P T n b)
  | _ + 1, .terminal c => fun _ p st =>
    match T p c with
    | none => .oof
    | some true => .ok (true, p + 1, st)
    | some false => .ok (false, p, st)
  | _ + 1, .stringTerminal _ => fun _ _ _ => .oof
  | _ + 1, .matchRange _ _ => fun _ _ _ => .oof
  | n + 1, .varName r => varNameKernel r (evalO P T n (P.body r))
  | n + 1, .varNameLR inv r => varNameLRKernel n inv r (evalO P T n (P.body r))
  | n + 1, .inlined r => fun parent position st => evalO P T n (P.body r) parent position st
  | _ + 1, .hooked _ _ => fun _ _ _ => .oof

/-- The source agrees with the table. -/
def Agrees (src : Source) (T : Nat → UInt8 → Option Bool) : Prop :=
  ∀ p c b, T p c = some b → (b = true ↔ src.getChar p = some c)

theorem evalO_le (P : Parser R U) {src : Source} {T : Nat → UInt8 → Option Bool} (hT : Agrees src T) : ∀ n (e : Expr R),
    PFn.le (evalO P T n e) (eval P src n e) := by
  intro n
  induction n with
  | zero => intro e parent pos st; exact Or.inl rfl
  | succ n ih =>
    intro e
    cases e with
    | andPredicate e => exact fun _ _ _ => Out.le_bind (ih e _ _ _) fun _ => Out.le_refl _
    | notPredicate e => exact fun _ _ _ => Out.le_bind (ih e _ _ _) fun _ => Out.le_refl _
    | optional e => exact fun _ _ _ => Out.le_bind (ih e _ _ _) fun _ => Out.le_refl _
    | subexpression e => exact fun _ _ _ => Out.le_bind (ih e _ _ _) fun _ => Out.le_refl _
    | oneOrMore e =>
      intro parent pos st
      refine Out.le_bind (ih e _ _ _) ?_
      rintro ⟨b, q, st'⟩
      cases b
      · exact Or.inr rfl
      · exact repeatLoop_le (ih e) parent n n (Nat.le_refl _) q st'
    | zeroOrMore e => exact fun parent pos st => repeatLoop_le (ih e) parent n n (Nat.le_refl _) pos st
    | orderedChoice a b =>
      intro parent pos st
      refine Out.le_bind (ih a _ _ _) ?_
      rintro ⟨v, q, st'⟩
      cases v
      · exact Out.le_bind (ih b _ _ _) fun _ => Out.le_refl _
      · exact Or.inr rfl
    | sequence a b =>
      intro parent pos st
      refine Out.le_bind (ih a _ _ _) ?_
      rintro ⟨v, q, st'⟩
      cases v
      · exact Or.inr rfl
      · exact Out.le_bind (ih b _ _ _) fun _ => Out.le_refl _
    | terminal c =>
      intro parent pos st
      simp only [evalO, eval, liftPure, terminalKernel]
      cases h : T pos c with
      | none => exact Or.inl rfl
      | some b =>
        have hb := hT pos c b h
        cases b
        · rw [if_neg (by simpa using hb)]; exact Or.inr rfl
        · rw [if_pos (hb.mp rfl)]; exact Or.inr rfl
    | stringTerminal d => exact fun _ _ _ => Or.inl rfl
    | matchRange lo hi => exact fun _ _ _ => Or.inl rfl
    | varName r => exact varNameKernel_le (ih _) r
    | varNameLR inv r => exact varNameLRKernel_le (ih _) (Nat.le_refl _) inv r
    | inlined r => exact fun _ _ _ => ih _ _ _ _
    | hooked name e => exact fun _ _ _ => Or.inl rfl

/-- `parse` on partial knowledge. -/
def parseO (P : Parser R U) (T : Nat → UInt8 → Option Bool) (fuel : Nat) : Out (Bool × Nat × Publisher R) := do
  let (b, q, st) ← evalO P T fuel (.varName P.grammar) 0 0 (St.new P.grammar P.userInit)
  let t ← st.pub.clearFalse P.grammar fuel
  .ok (b, q, t)

theorem parseO_parse {P : Parser R U} {src : Source} {T : Nat → UInt8 → Option Bool} (hT : Agrees src T) {n : Nat}
    {x : Bool × Nat × Publisher R} (h : parseO P T n = .ok x) : ∀ m, n ≤ m → parse P src m = .ok x := by
  have h1 : parse P src n = .ok x := by
    have : (parseO P T n).le (parse P src n) := by
      unfold parseO parse
      exact Out.le_bind (evalO_le P hT n _ _ _ _) fun _ => Out.le_refl _
    rw [Out.le_eq this (by rw [h]; simp), h]
  intro m hm
  rw [parse_mono hm (by rw [h1]; simp), h1]

/-- The outcome of a closed run, for `decide`. -/
def outcome (x : Out (Bool × Nat × Publisher R)) : Option (Bool × Nat) :=
  match x with | .ok (b, q, _) => some (b, q) | _ => none

theorem outcome_some {x : Out (Bool × Nat × Publisher R)} {b : Bool} {q : Nat} (h : outcome x = some (b, q)) :
    ∃ t, x = .ok (b, q, t) := by
  unfold outcome at h
  split at h
  · cases h; exact ⟨_, rfl⟩
  · cases h

end PP
