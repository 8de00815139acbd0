import Verif.Lemmas.Mini.VarName
import Verif.Lemmas.Mini.Terminals
import Verif.Lemmas.Mini.User

/-! # Closures, and the expressions they are -/
namespace PP.Mini
open PP.Gen
attribute [local congr] Res.bind_congr loopN_congr forN_congr

/-- The closure that a function of the core makes, e.g. `_sequence(&a, &b)`. -/
def cloOf (F : Fn) (args : List Val) : Val :=
  match F.body with
  | some (.block (.tail (.clo ps b))) => .clo ps b (F.params.zip args).reverse
  | _ => .unit

theorem bindAll_zip : ∀ (ps : List Name) (args : List Val) (env : Env), ps.length = args.length →
    bindAll ps args env = some (((ps.zip args).map fun x => (x.1, Bind.val x.2)).reverse ++ env)
  | [], [], env, _ => rfl
  | p :: ps, v :: vs, env, h => by
    rw [bindAll, bindAll_zip ps vs _ (by simpa using h)]
    simp
  | [], _ :: _, _, h => by simp at h
  | _ :: _, [], _, h => by simp at h

theorem capture_vals (h : Heap) (l : List (Name × Val)) : capture h (l.map fun x => (x.1, Bind.val x.2)) = l := by
  simp [capture, Function.comp_def]

theorem lookup_vals (x : Name) : ∀ env : List (Name × Val), List.lookup x (env.map fun x => (x.1, Bind.val x.2)) = (List.lookup x env).map Bind.val
  | [] => rfl
  | y :: env => by
    have ih := lookup_vals x env
    simp only [List.map_cons, List.lookup]
    split <;> simp_all

/-- A function of the core that makes a closure. -/
theorem make_run {Q : Prog} {F : Fn} {ps b} {args : List Val} (hF : Q.fn? none F.name = some F) (hr : F.recv = .none)
    (hb : F.body = some (.block (.tail (.clo ps b)))) (hl : F.params.length = args.length) (n : Nat) (h : Heap) :
    run Q (n + 1) (.fn none F.name) args h = .ok (cloOf F args) h := by
  rw [run]
  simp only [hF, hr, hb, if_true, bindAll_zip _ _ _ hl, List.append_nil, ev, evBlk, Res.result, cloOf]
  rw [← List.map_reverse, capture_vals]

/-- The body of a closure, written as a block or not. -/
def cloBody : Bool → Ex → Ex
  | true, e => .block (.tail e)
  | false, e => e

section
variable {R U : Type} [DecidableEq R] (W : World R U) (us : User U) (fn : R → Name)

/-- The arguments of a hooked call. -/
def hookArgs (parent pos : Nat) (v : Val) : List Val := [.cell W.u, encKey parent, .cell W.a, encSource W.src, .int pos, v]

/-- The hooked calls do what the model says: each makes a closure, and that closure runs the hook around the closure given. -/
structure HooksOK (P : Parser R U) : Prop where
  make : ∀ x ∈ us.hooks, ∀ parent pos v n h, run W.Q (n + 1) (.fn none (nameOf x)) (hookArgs W parent pos v) h = .ok (us.clo x (hookArgs W parent pos v)) h
  load : ∀ x ∈ us.hooks, ∀ parent pos v h, load (follow (us.clo x (hookArgs W parent pos v)) h) h = .ok (us.clo x (hookArgs W parent pos v)) h
  sim : ∀ x ∈ us.hooks, ∀ d n v g parent pos, (∀ j, 1 ≤ j → j ≤ 8 → W.Fn d (n - j) v g) → Fuel d n 8 →
    W.Fn d n (us.clo x (hookArgs W parent pos v)) fun parent pos st => runHook g parent (P.hook (asStr x) W.src pos st.user) st

/-- A closure of a generated rule function represents an expression of the model. -/
inductive CloRel : Val → Expr R → Prop
  | and {v e} : CloRel v e → CloRel (cloOf Ast._and_predicate [v]) (.andPredicate e)
  | not {v e} : CloRel v e → CloRel (cloOf Ast._not_predicate [v]) (.notPredicate e)
  | plus {v e} : CloRel v e → CloRel (cloOf Ast._one_or_more [v]) (.oneOrMore e)
  | star {v e} : CloRel v e → CloRel (cloOf Ast._zero_or_more [v]) (.zeroOrMore e)
  | opt {v e} : CloRel v e → CloRel (cloOf Ast._optional [v]) (.optional e)
  | sub {v e} : CloRel v e → CloRel (cloOf Ast._subexpression [v]) (.subexpression e)
  | choice {v e v' e'} : CloRel v e → CloRel v' e' → CloRel (cloOf Ast._ordered_choice [v, v']) (.orderedChoice e e')
  | seq {v e v' e'} : CloRel v e → CloRel v' e' → CloRel (cloOf Ast._sequence [v, v']) (.sequence e e')
  | terminal (c : UInt8) : CloRel (cloOf Ast._terminal [.int c.toNat]) (.terminal c)
  | str (l : List UInt8) : CloRel (cloOf Ast._string_terminal_opt_ascii [.bytes l]) (.stringTerminal l)
  | range (lo hi : Nat) : CloRel (cloOf Ast._ordered_choice_match_range [.int lo, .int hi]) (.matchRange lo hi)
  | hook {x : Bytes} (parent pos : Nat) {v e} : x ∈ us.hooks → CloRel v e → CloRel (us.clo x (hookArgs W parent pos v)) (.hooked (asStr x) e)
  | var (r : R) : CloRel (cloOf Ast._var_name [.cell W.u, encRule W.vn r, .cell W.a, .fn none (fn r)]) (.varName r)
  | lr (l : List R) (r : R) :
    CloRel (cloOf Ast._var_name_indirect_left_recursion [.cell W.u, .vec (l.map (encRule W.vn)), encRule W.vn r, .cell W.a, .fn none (fn r)])
      (.varNameLR l r)
  | inl (br : Bool) (r : R) {env : List (Name × Val)} : env.lookup n!"user_state" = some (.cell W.u) → env.lookup n!"context" = some (.cell W.a) →
    env.lookup (fn r) = none → fn r ≠ n!"parent" → fn r ≠ n!"source" → fn r ≠ n!"position" →
    CloRel (.clo [n!"parent", n!"source", n!"position"] (cloBody br (.call (.path [fn r]) (.cons (.path [n!"user_state"]) (.cons (.path [n!"parent"])
      (.cons (.path [n!"context"]) (.cons (.path [n!"source"]) (.cons (.path [n!"position"]) .nil))))))) env) (.inlined r)

/-- The program has a function for each rule, which makes the rule's closure and calls it. -/
structure Gen (P : Parser R U) : Prop where
  hooks : HooksOK W us P
  rule : ∀ r d n g, (∀ v, CloRel W us fn v (P.body r) → W.Fn d n v g) → Fuel d n 1 → W.Rule d (n + 1) (.fn none (fn r)) g
  name : ∀ r, fn r ≠ n!"Some" ∧ fn r ≠ n!"Key" ∧ fn r ≠ n!"UserState"
end

/-- Enough fuel for the model or for the run, as the case may be. -/
def Enough (d : Dir) (n m : Nat) : Prop :=
  match d with
  | .sound => n ≤ m
  | .complete => 8 * m ≤ n

theorem Enough.fuel {d : Dir} {n m : Nat} (h : Enough d n (m + 1)) : Fuel d n 8 := by
  rintro rfl; simp only [Enough] at h; omega
theorem Enough.pred {d : Dir} {n m j : Nat} (h : Enough d (n + j) (m + 1)) (h1 : 1 ≤ j) (h8 : j ≤ 8) : Enough d n m := by
  cases d <;> simp only [Enough] at h ⊢ <;> omega
theorem Enough.sub {d : Dir} {n m : Nat} (j : Nat) (h : Enough d n (m + 1)) (h1 : 1 ≤ j) (h8 : j ≤ 8) : Enough d (n - j) m := by
  cases d <;> simp only [Enough] at h ⊢ <;> omega
theorem Fuel.sub {d : Dir} {n k : Nat} (j : Nat) (h : Fuel d n k) : Fuel d (n - j) (k - j) := fun e => Nat.sub_le_sub_right (h e) j

theorem Sim.shape {Q : Prog} {d : Dir} {β : Type} {K : Val → Heap → β → Prop} {n : Nat} {v args h} {o : Out β} (k : Nat) (hf : Fuel d n k)
    (hs : Sim d K (run Q (n - k + k) v args h) o) : Sim d K (run Q n v args h) o := by
  by_cases hk : k ≤ n
  · rwa [Nat.sub_add_cancel hk] at hs
  · refine hs.less (run_le (by omega) _ _ _) (.inl ?_)
    cases d with
    | sound => rfl
    | complete => exact absurd (hf rfl) hk
theorem Enough.rounds {d : Dir} {n m : Nat} (h : Enough d n m) : Rounds d n m := by
  cases d <;> simp only [Enough, Rounds] at h ⊢ <;> omega

section
variable {R U : Type} [DecidableEq R] {W : World R U} {us : User U} {fn : R → Name} {P : Parser R U}

macro "clo_call" f:ident : tactic => `(tactic| (
  simp only [cloOf, $f:ident, List.zip_cons_cons, List.zip_nil_right, List.reverse_cons, List.reverse_nil, List.nil_append, List.cons_append, run]
  mini [W.core.tuple, List.map_cons, List.map_nil]))

variable {n : Nat} {a b c v w : Val} {h : Heap}
omit [DecidableEq R] in
theorem call_and_predicate : run W.Q (n + 1) (cloOf Ast._and_predicate [v]) [a, b, c] h = run W.Q n (.fn none n!"_and_predicate_kernel") [a, b, c, v] h := by
  clo_call Ast._and_predicate
omit [DecidableEq R] in
theorem call_not_predicate : run W.Q (n + 1) (cloOf Ast._not_predicate [v]) [a, b, c] h = run W.Q n (.fn none n!"_not_predicate_kernel") [a, b, c, v] h := by
  clo_call Ast._not_predicate
omit [DecidableEq R] in
theorem call_optional : run W.Q (n + 1) (cloOf Ast._optional [v]) [a, b, c] h = run W.Q n (.fn none n!"_optional_kernel") [a, b, c, v] h := by
  clo_call Ast._optional
omit [DecidableEq R] in
theorem call_subexpression : run W.Q (n + 1) (cloOf Ast._subexpression [v]) [a, b, c] h = run W.Q n (.fn none n!"_subexpression_kernel") [a, b, c, v] h := by
  clo_call Ast._subexpression
omit [DecidableEq R] in
theorem call_zero_or_more : run W.Q (n + 1) (cloOf Ast._zero_or_more [v]) [a, b, c] h = run W.Q n (.fn none n!"_zero_or_more_kernel") [a, b, c, v] h := by
  clo_call Ast._zero_or_more
omit [DecidableEq R] in
theorem call_one_or_more : run W.Q (n + 1) (cloOf Ast._one_or_more [v]) [a, b, c] h = run W.Q n (.fn none n!"_one_or_more_kernel") [a, b, c, v] h := by
  clo_call Ast._one_or_more
omit [DecidableEq R] in
theorem call_ordered_choice : run W.Q (n + 1) (cloOf Ast._ordered_choice [v, w]) [a, b, c] h = run W.Q n (.fn none n!"_ordered_choice_kernel") [a, b, c, v, w] h := by
  clo_call Ast._ordered_choice
omit [DecidableEq R] in
theorem call_sequence : run W.Q (n + 1) (cloOf Ast._sequence [v, w]) [a, b, c] h = run W.Q n (.fn none n!"_sequence_kernel") [a, b, c, v, w] h := by
  clo_call Ast._sequence
omit [DecidableEq R] in
theorem call_terminal : run W.Q (n + 1) (cloOf Ast._terminal [v]) [a, b, c] h = run W.Q n (.fn none n!"_terminal_kernel") [b, c, v] h := by
  clo_call Ast._terminal
omit [DecidableEq R] in
theorem call_str : run W.Q (n + 1) (cloOf Ast._string_terminal_opt_ascii [v]) [a, b, c] h =
    run W.Q n (.fn none n!"_string_terminal_kernel_ascii_opt") [b, c, v] h := by
  clo_call Ast._string_terminal_opt_ascii
omit [DecidableEq R] in
theorem call_range : run W.Q (n + 1) (cloOf Ast._ordered_choice_match_range [v, w]) [a, b, c] h =
    run W.Q n (.fn none n!"_ordered_choice_match_range_kernel") [b, c, v, w] h := by
  clo_call Ast._ordered_choice_match_range
omit [DecidableEq R] in
theorem call_var_name {x y : Val} : run W.Q (n + 1) (cloOf Ast._var_name [v, w, x, y]) [a, b, c] h =
    run W.Q n (.fn none n!"_var_name_kernel") [v, w, x, a, b, c, y] h := by
  clo_call Ast._var_name
omit [DecidableEq R] in
theorem call_lr {x y z : Val} : run W.Q (n + 1) (cloOf Ast._var_name_indirect_left_recursion [v, w, x, y, z]) [a, b, c] h =
    run W.Q n (.fn none n!"_var_name_kernel_indirect_left_recursion") [v, w, x, y, a, b, c, z] h := by
  clo_call Ast._var_name_indirect_left_recursion

omit [DecidableEq R] in
theorem lift_run {d : Dir} {k : Nat} {f : Val} {args : List Val} {st : St R U} {parent pos : Nat} {x : Bool × Nat} {g : Nat → Bool × Nat} (hf : Fuel d n k)
    (hg : W.Good st h) (hx : x = g pos)
    (hs : ∀ m, run W.Q (m + k) f args h = .ok (.tuple [.bool x.1, .int x.2]) h ∨ ∃ v, run W.Q (m + k) f args h = .ok (.tuple [.bool x.1, .int x.2]) (h ++ [v])) :
    Sim d (W.K h) (run W.Q n f args h) (liftPure g parent pos st) := by
  subst hx
  refine Sim.fuel hf fun m => ?_
  rcases hs m with e | ⟨v, e⟩ <;> rw [e]
  · exact .ok ⟨rfl, hg, World.Frame.rfl' W⟩
  · exact .ok ⟨rfl, hg.push v, (World.Frame.rfl' W).push v⟩

theorem Gen.at (G : Gen W us fn P) {d : Dir} {m : Nat} {r : R} (ih : ∀ n v e, CloRel W us fn v e → Enough d n m → W.Fn d n v (eval P W.src m e))
    (hf : Fuel d n 2) (he : Enough d (n - 1) m) : W.Rule d n (.fn none (fn r)) (eval P W.src m (P.body r)) := by
  intro parent pos st h hg
  refine Sim.shape 1 (hf.le (by omega)) ?_
  exact G.rule r d (n - 1) _ (fun v hv => ih _ v _ hv he) (hf.sub 1) parent pos st h hg

/-- Closures do what the model's expressions do. -/
theorem closures_sim (G : Gen W us fn P) {d : Dir} : ∀ m n v e, CloRel W us fn v e → Enough d n m → W.Fn d n v (eval P W.src m e) := by
  intro m
  induction m with
  | zero =>
    intro n v e hv he parent pos st h hg
    cases d with
    | sound => obtain rfl : n = 0 := Nat.le_zero.mp he; exact Sim.zero (k := 0) nofun
    | complete => rw [eval]; exact .oofR rfl
  | succ m ih =>
    intro n v e hv he parent pos st h hg
    have hf := he.fuel.sub 1
    cases hv with
    | hook parent' pos' hx hv =>
      rw [eval]
      exact G.hooks.sim _ hx d n _ _ parent' pos' (fun j h1 h8 => ih _ _ _ hv (he.sub j h1 h8)) he.fuel parent pos st h hg
    | and hv =>
      refine Sim.shape 1 (he.fuel.le (by omega)) ?_
      rw [call_and_predicate]
      exact Sim.shape 1 (hf.le (by omega)) (and_kernel (ih _ _ _ hv (by simpa [Nat.sub_sub] using he.sub 2 (by omega) (by omega))) hg)
    | not hv =>
      refine Sim.shape 1 (he.fuel.le (by omega)) ?_
      rw [call_not_predicate]
      exact Sim.shape 1 (hf.le (by omega)) (not_kernel (ih _ _ _ hv (by simpa [Nat.sub_sub] using he.sub 2 (by omega) (by omega))) hg)
    | opt hv =>
      refine Sim.shape 1 (he.fuel.le (by omega)) ?_
      rw [call_optional]
      exact Sim.shape 1 (hf.le (by omega)) (optional_kernel (ih _ _ _ hv (by simpa [Nat.sub_sub] using he.sub 2 (by omega) (by omega))) hg)
    | sub hv =>
      refine Sim.shape 1 (he.fuel.le (by omega)) ?_
      rw [call_subexpression]
      exact Sim.shape 1 (hf.le (by omega)) (sub_kernel (ih _ _ _ hv (by simpa [Nat.sub_sub] using he.sub 2 (by omega) (by omega))) hg)
    | plus hv =>
      refine Sim.shape 1 (he.fuel.le (by omega)) ?_
      rw [call_one_or_more]
      have he' : Enough d (n - 1 - 1) m := by simpa [Nat.sub_sub] using he.sub 2 (by omega) (by omega)
      exact Sim.shape 1 (hf.le (by omega)) (one_kernel (ih _ _ _ hv he') he'.rounds hg)
    | star hv =>
      refine Sim.shape 1 (he.fuel.le (by omega)) ?_
      rw [call_zero_or_more]
      have he' : Enough d (n - 1 - 1) m := by simpa [Nat.sub_sub] using he.sub 2 (by omega) (by omega)
      exact Sim.shape 1 (hf.le (by omega)) (zero_kernel (ih _ _ _ hv he') he'.rounds hg)
    | choice hv hv' =>
      refine Sim.shape 1 (he.fuel.le (by omega)) ?_
      rw [call_ordered_choice]
      have he' : Enough d (n - 1 - 1) m := by simpa [Nat.sub_sub] using he.sub 2 (by omega) (by omega)
      exact Sim.shape 1 (hf.le (by omega)) (choice_kernel (ih _ _ _ hv he') (ih _ _ _ hv' he') hg)
    | seq hv hv' =>
      refine Sim.shape 1 (he.fuel.le (by omega)) ?_
      rw [call_sequence]
      have he' : Enough d (n - 1 - 1) m := by simpa [Nat.sub_sub] using he.sub 2 (by omega) (by omega)
      exact Sim.shape 1 (hf.le (by omega)) (seq_kernel (ih _ _ _ hv he') (ih _ _ _ hv' he') hg)
    | terminal c =>
      refine Sim.shape 1 (he.fuel.le (by omega)) ?_
      rw [call_terminal, eval]
      exact lift_run (k := 2) (hf.le (by omega)) hg rfl fun m => .inl (terminal_kernel_run W m pos c h)
    | str l =>
      refine Sim.shape 1 (he.fuel.le (by omega)) ?_
      rw [call_str, eval]
      exact lift_run (k := 2) (hf.le (by omega)) hg rfl fun m => .inr (string_kernel_run W m pos l h)
    | range lo hi =>
      refine Sim.shape 1 (he.fuel.le (by omega)) ?_
      rw [call_range, eval]
      exact lift_run (k := 2) (hf.le (by omega)) hg rfl fun m => .inl (range_kernel_run W m pos lo hi h)
    | var r =>
      refine Sim.shape 1 (he.fuel.le (by omega)) ?_
      rw [call_var_name, eval]
      refine Sim.shape 2 (hf.le (by omega)) ?_
      refine var_kernel ((hf.sub 2).le (by omega)) (G.at ih ((hf.sub 2).le (by omega)) ?_) hg r
      simpa [Nat.sub_sub] using he.sub 4 (by omega) (by omega)
    | lr l r =>
      refine Sim.shape 1 (he.fuel.le (by omega)) ?_
      rw [call_lr, eval]
      refine Sim.shape 2 (hf.le (by omega)) ?_
      have he' : Enough d (n - 1 - 2) m := by simpa [Nat.sub_sub] using he.sub 3 (by omega) (by omega)
      refine lr_kernel ((hf.sub 2).le (by omega)) he'.rounds (G.at ih ((hf.sub 2).le (by omega)) ?_) (G.at ih ?_ ?_) hg r l
      · simpa [Nat.sub_sub] using he.sub 4 (by omega) (by omega)
      · exact fun e => by have := hf e; omega
      · exact he'
    | @inl br r env hu hc hn h1 h2 h3 =>
      refine Sim.shape 1 (he.fuel.le (by omega)) ?_
      have b1 : (fn r == n!"parent") = false := by simpa using h1
      have b2 : (fn r == n!"source") = false := by simpa using h2
      have b3 : (fn r == n!"position") = false := by simpa using h3
      have nm := G.name r
      rw [run, eval]
      cases br <;> mini [cloBody, lookup_vals, hu, hc, hn, Option.map, b1, b2, b3, nm.1, W.core.tuple, beq_eq_false_iff_ne.mpr nm.2.1, beq_eq_false_iff_ne.mpr nm.2.2] <;>
      exact G.at ih (hf.le (by omega)) (by simpa [Nat.sub_sub] using he.sub 2 (by omega) (by omega)) parent pos st h hg
end
end PP.Mini
