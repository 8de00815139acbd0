import Verif.Lemmas.Mini.Whole

/-! # Checking a crate -/
namespace PP.Mini
open PP.Gen

section
variable {R : Type}

/-- Everything about the text of `rules.rs` and `parser.rs`, by computation. -/
def crateCheck (user : Prog) (hooks : List Bytes) (rulesRs parserRs : Bytes) (rules : List R) (body : R → Expr R) (name : R → Bytes) (enum : List Bytes)
    (start : R) : Bool :=
  match Text.readParser parserRs with
  | none => false
  | some items =>
    let funs := Text.funsOf items
    let g : Text.Names := ⟨enum, hooks, funs.map Text.Fun.name⟩
    decide (readFile rulesRs = some (rulesItems enum)) && decide (readFile parserRs = some (parserItems true funs)) && namesOK user enum funs &&
    decide (rules.map name).Nodup && decide (name start = utf8Of "grammar") && decide (utf8Of "Grammar" ∈ enum) && decide (Text.hooksOf items = hooks) &&
    rules.all fun r => funs.any fun f => decide (f.name = name r) && decide (Text.bodyMeaning g .init f.lets f.tail = some (named name (body r)))

theorem readCrate_append {a b : List Bytes} {p q : Prog} (ha : readCrate a = some p) (hb : readCrate b = some q) :
    readCrate (a ++ b) = some (p ++ q) := by
  induction a generalizing p with
  | nil => obtain rfl := Option.some.inj ha; exact hb
  | cons f fs ih =>
    simp only [readCrate, Option.bind_eq_bind, Option.bind_eq_some_iff] at ha
    obtain ⟨is, hi, js, hj, e⟩ := ha
    obtain rfl := Option.some.inj e
    simp [readCrate, hi, ih hj]

theorem crateCheck_ok {U : Type} [DecidableEq R] {core user : List Bytes} {us : User U} (hcore : readCrate core = some Ast.core)
    (huser : readCrate user = some us.items) {rulesRs parserRs : Bytes} {rules : List R}
    {name : R → Bytes} {enum : List Bytes} {P : Parser R U} (hu : UserSim us P) (hall : ∀ r, r ∈ rules)
    (h : crateCheck us.items us.hooks rulesRs parserRs rules P.body name enum P.grammar = true) :
    ∃ Q, readCrate (core ++ user ++ [rulesRs, parserRs]) = some Q ∧ Computes Q P fun r => nameOf (variantOf enum (name r)) := by
  unfold crateCheck at h
  split at h
  · cases h
  · rename_i items _
    simp only [Bool.and_eq_true, decide_eq_true_eq, List.all_eq_true, List.any_eq_true] at h
    obtain ⟨⟨⟨⟨⟨⟨⟨h1, h2⟩, h3⟩, h4⟩, h5⟩, h7⟩, -⟩, h6⟩ := h
    refine ⟨progOf us true enum (Text.funsOf items), ?_, ?_⟩
    · rw [List.append_assoc]
      refine readCrate_append hcore (readCrate_append huser ?_)
      simp [readCrate, h1, h2]
    · exact computes hu (namesOK_ok h3) (variantOf_rules (namesOK_ok h3) (fun r s e => nodup_inj h4 (hall r) (hall s) e)
        (fun r => let ⟨f, hf, e, e'⟩ := h6 r (hall r); ⟨f, hf, e, e'⟩) h5 h7)

/-- The items of user_state.rs and hooked_calls.rs in parser/src. -/
abbrev plainItems : Prog := Ast.userStateItems ++ Ast.hookedCallsItems

/-- Items with user_state.rs as it is in parser/src do what a model without hooked calls says. -/
theorem noHooksUserSim {U : Type} (P : Parser R U) {items : Prog} (h1 : userOK items [] = true)
    (h2 : items.fn? (some n!"UserState") n!"new" = some Ast.UserState.new) (h3 : items.isUnit n!"UserState" = true) : UserSim (plainUser U items) P where
  ok := userOK_ok h1
  hooks _ _ _ := ⟨nofun, nofun, nofun⟩
  new W n h H := by
    rw [run, H.fn _ _ Ast.UserState.new h2]
    have hunit := H.unit.trans h3
    simp only [Ast.UserState.new]
    mini [global, hunit, H.const]
    rfl
  init := rfl

/-- user_state.rs and hooked_calls.rs as they are in parser/src do what a model without hooked calls says. -/
theorem plainUserSim {U : Type} (P : Parser R U) : UserSim (plainUser U plainItems) P :=
  noHooksUserSim P (by decide +kernel) (by decide +kernel) (by decide +kernel)
end
end PP.Mini
