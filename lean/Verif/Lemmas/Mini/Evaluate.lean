import Verif.Lemmas.Mini.Check
import Verif.Lemmas.Mini.Calc
import Verif.Spec.Mini.Evaluate
import Verif.Props.Clearing
import Verif.Lemmas.Gen.ClearConv

/-! # From a simulation of `evaluate_tree` to `Evaluates` -/
namespace PP.Mini
open PP.Gen

section
variable {R U β : Type} [DecidableEq R]

/-- What `evaluate_tree` does with a tree that `parse` returned. -/
def TreeSim (Q : Prog) (P : Parser R U) (vn : R → Name) (T : Publisher R → Bytes → Nat → Out β) (enc : β → Val) : Prop :=
  ∀ (d : Dir) (text : Bytes) (m₀ : Nat) (b : Bool) (q : Nat) (t : Publisher R), parse P ⟨text⟩ m₀ = .ok (b, q, t) → ∀ n m m', ClearFuel d n m' →
    CalcFuel d (n + 1) m → ∀ h, Sim d (fun v _ x => v = enc x) (run Q (n + 2) (.fn none n!"evaluate_tree") [encPub vn t, .str text] h)
      (do let t ← t.clearFalse P.grammar m'; T t text m)

theorem TreeSim.sound {Q : Prog} {P : Parser R U} {vn : R → Name} {T : Publisher R → Bytes → Nat → Out β} {enc : β → Val}
    (hs : TreeSim Q P vn T enc) {text : Bytes} (hh : P.HooksOK ⟨text⟩) {m₀ : Nat} {b : Bool} {q : Nat} {t : Publisher R} (hp : parse P ⟨text⟩ m₀ = .ok (b, q, t))
    (n m : Nat) (hm : n ≤ m) (h : Heap) :
    Sim .sound (fun v _ x => v = enc x) (run Q n (.fn none n!"evaluate_tree") [encPub vn t, .str text] h) (T t text m) := by
  obtain ⟨⟨N, hN⟩, -⟩ := C80_clearing_again P ⟨text⟩ hh hp
  match n, hm with
  | n + 2, hm =>
    have := hs .sound text m₀ b q t hp n m (max N n) (Nat.le_max_right ..) (show n + 1 ≤ m by omega) h
    rwa [hN _ (Nat.le_max_left ..)] at this
  | 1, hm =>
    have := hs .sound text m₀ b q t hp 0 m N (Nat.zero_le _) (show 0 + 1 ≤ m by omega) h
    rw [hN _ (Nat.le_refl _)] at this
    exact this.less (run_le (by omega) _ _ _) (.inl rfl)
  | 0, hm => unfold run; exact .oofL rfl

theorem TreeSim.complete {Q : Prog} {P : Parser R U} {vn : R → Name} {T : Publisher R → Bytes → Nat → Out β} {enc : β → Val}
    (hs : TreeSim Q P vn T enc) {text : Bytes} (hh : P.HooksOK ⟨text⟩) {m₀ : Nat} {b : Bool} {q : Nat} {t : Publisher R} (hp : parse P ⟨text⟩ m₀ = .ok (b, q, t))
    (m : Nat) : ∃ N, ∀ n, N ≤ n → ∀ h,
    Sim .complete (fun v _ x => v = enc x) (run Q n (.fn none n!"evaluate_tree") [encPub vn t, .str text] h) (T t text m) := by
  obtain ⟨⟨N, hN⟩, -⟩ := C80_clearing_again P ⟨text⟩ hh hp
  refine ⟨max (N + 3) (2 * m + 3) + 2, fun n hn h => ?_⟩
  obtain ⟨n, rfl⟩ : ∃ k, n = k + 2 := ⟨n - 2, by omega⟩
  have := hs .complete text m₀ b q t hp n m N (show N + 3 ≤ n by omega) (show 2 * m + 3 ≤ n + 1 by omega) h
  rwa [hN _ (Nat.le_refl _)] at this

theorem evaluates_of {Q : Prog} {P : Parser R U} {vn : R → Name} {T : Publisher R → Bytes → Nat → Out β} {enc : β → Val}
    (hc : Computes Q P vn) (hh : ∀ text, P.HooksOK ⟨text⟩) (hs : TreeSim Q P vn T enc) :
    Evaluates Q (fun text m => do let x ← parse P ⟨text⟩ m; T x.2.2 text m) enc := by
  have hrun : ∀ text n x h, runParse Q n text = .ok (encResult vn x) h →
      runCalc Q n text = run Q n (.fn none n!"evaluate_tree") [encPub vn x.2.2, .str text] h := by
    intro text n x h e
    unfold runCalc
    rw [show run Q n (.fn none n!"parse") [.str text] [] = _ from e]
    rfl
  refine ⟨fun text n v h e => ?_, fun text m x e => ?_, fun text => ⟨?_, ?_⟩, fun text n => ?_⟩
  · cases hr : runParse Q n text with
    | ok w h₁ =>
      obtain ⟨m, x, hx, rfl⟩ := hc.sound text n w h₁ hr
      rw [hrun text n x h₁ hr] at e
      obtain ⟨b, q, t⟩ := x
      have hm := parse_mono (Nat.le_max_left m n) (show parse P ⟨text⟩ m ≠ .oof by rw [hx]; simp)
      have hs := hs.sound (hh text) hx n (max m n) (Nat.le_max_right ..) h₁
      rw [show run Q n _ _ _ = _ from e] at hs
      generalize hq : T t text (max m n) = o at hs
      cases hs with
      | oofR e => cases e
      | ok k => exact ⟨max m n, _, by rw [hm, hx]; exact hq, k⟩
    | _ => unfold runCalc at e; rw [show run Q n (.fn none n!"parse") [.str text] [] = _ from hr] at e; cases e
  · rw [Out.bind_eq_ok] at e
    obtain ⟨⟨b, q, t⟩, hx, e⟩ := e
    obtain ⟨N, hN⟩ := hc.complete text m _ hx
    obtain ⟨N', hN'⟩ := hs.complete (hh text) hx m
    refine ⟨max N N', fun n hn => ?_⟩
    obtain ⟨h₁, hr⟩ := hN n (by omega)
    rw [hrun text n _ h₁ hr]
    have hs := hN' n (by omega) h₁
    rw [show T t text m = _ from e] at hs
    generalize run Q n _ _ _ = r at hs ⊢
    cases hs with
    | oofL e => cases e
    | ok k => exact ⟨_, by rw [k]⟩
  · rintro ⟨n, e⟩
    cases hr : runParse Q n text with
    | ok w h₁ =>
      obtain ⟨m, x, hx, rfl⟩ := hc.sound text n w h₁ hr
      rw [hrun text n x h₁ hr] at e
      obtain ⟨b, q, t⟩ := x
      have hm := parse_mono (Nat.le_max_left m n) (show parse P ⟨text⟩ m ≠ .oof by rw [hx]; simp)
      have hs := hs.sound (hh text) hx n (max m n) (Nat.le_max_right ..) h₁
      rw [show run Q n _ _ _ = _ from e] at hs
      generalize hq : T t text (max m n) = o at hs
      cases hs with
      | oofR e => cases e
      | @panic p => exact ⟨max m n, p, by rw [hm, hx]; exact hq⟩
    | panic =>
      obtain ⟨m, p, hp⟩ := (hc.panics text).mp ⟨n, hr⟩
      exact ⟨m, p, by rw [hp]; rfl⟩
    | _ => unfold runCalc at e; rw [show run Q n (.fn none n!"parse") [.str text] [] = _ from hr] at e; cases e
  · rintro ⟨m, p, e⟩
    cases hp : parse P ⟨text⟩ m with
    | oof => rw [hp] at e; cases e
    | panic p' =>
      obtain ⟨n, hr⟩ := (hc.panics text).mpr ⟨m, p', hp⟩
      refine ⟨n, ?_⟩
      unfold runCalc
      rw [show run Q n (.fn none n!"parse") [.str text] [] = _ from hr]; rfl
    | ok x =>
      obtain ⟨b, q, t⟩ := x
      rw [hp] at e
      obtain ⟨N, hN⟩ := hc.complete text m _ hp
      obtain ⟨N', hN'⟩ := hs.complete (hh text) hp m
      obtain ⟨h₁, hr⟩ := hN (max N N') (by omega)
      refine ⟨max N N', ?_⟩
      rw [hrun text _ _ h₁ hr]
      have hs := hN' (max N N') (by omega) h₁
      rw [show T t text m = _ from e] at hs
      generalize run Q _ _ _ _ = r at hs ⊢
      cases hs with
      | oofL e => cases e
      | panic => rfl
  · rcases hc.total text n with hr | hr | ⟨w, h₁, hr⟩
    · refine .inl ?_; unfold runCalc; rw [show run Q n (.fn none n!"parse") [.str text] [] = _ from hr]; rfl
    · refine .inr (.inl ?_); unfold runCalc; rw [show run Q n (.fn none n!"parse") [.str text] [] = _ from hr]; rfl
    · obtain ⟨m, ⟨b, q, t⟩, hx, rfl⟩ := hc.sound text n w h₁ hr
      rw [hrun text n _ h₁ hr]
      have hs := hs.sound (hh text) hx n n (Nat.le_refl _) h₁
      generalize T t text n = o at hs
      generalize run Q n _ _ _ = r at hs ⊢
      cases hs with
      | oofL e => exact .inl rfl
      | oofR e => cases e
      | panic => exact .inr (.inl rfl)
      | ok k => exact .inr (.inr ⟨_, _, rfl⟩)

/-- The world of a checked crate. -/
theorem crateCheck_world {core user : List Bytes} {us : User U} (hcore : readCrate core = some Ast.core)
    (huser : readCrate user = some us.items) {rulesRs parserRs : Bytes} {rules : List R}
    {name : R → Bytes} {enum : List Bytes} {P : Parser R U} (hu : UserSim us P) (hall : ∀ r, r ∈ rules)
    (h : crateCheck us.items us.hooks rulesRs parserRs rules P.body name enum P.grammar = true) :
    ∃ W : World R U, readCrate (core ++ user ++ [rulesRs, parserRs]) = some W.Q ∧ Computes W.Q P W.vn ∧ HasUser us.items W.Q ∧
      (∀ r, W.vn r = nameOf (variantOf enum (name r))) ∧ (∀ v ∈ enum, W.Q.isVariant n!"Rules" (nameOf v) = true) ∧
      ∀ x, Prog.isTuple Ast.core x = false → x ≠ n!"UserState" → W.Q.isTuple x = false := by
  unfold crateCheck at h
  split at h
  · cases h
  · rename_i items _
    simp only [Bool.and_eq_true, decide_eq_true_eq, List.all_eq_true, List.any_eq_true] at h
    obtain ⟨⟨⟨⟨⟨⟨⟨h1, h2⟩, h3⟩, h4⟩, h5⟩, h7⟩, -⟩, h6⟩ := h
    have hn := namesOK_ok h3
    have hr : Rules us.hooks enum (Text.funsOf items) name (fun r => variantOf enum (name r)) P :=
      variantOf_rules hn (fun r s e => nodup_inj h4 (hall r) (hall s) e) (fun r => let ⟨f, hf, e, e'⟩ := h6 r (hall r); ⟨f, hf, e, e'⟩) h5 h7
    refine ⟨worldOf true hu.ok hn hr [], ?_, computes hu hn hr, hasUser hu.ok hn, fun _ => rfl,
      (world_crate hu hn hr []).named.variants, fun x hx hne => ?_⟩
    · rw [List.append_assoc]
      refine readCrate_append hcore (readCrate_append huser ?_)
      simp [readCrate, h1, h2]
    · have := hu.ok.not_tuple hne
      simp only [Prog.isTuple, List.contains_eq_any_beq] at this hx
      simp only [worldOf, progOf, Prog.isTuple, List.contains_eq_any_beq, List.any_append, this, hx]
      simp [rulesItems, parserItems]
end
end PP.Mini
