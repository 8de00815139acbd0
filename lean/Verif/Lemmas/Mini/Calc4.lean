import Verif.Lemmas.Mini.Maths

/-! # The evaluator of example 4 does what Model/Calc/Maths says -/
namespace PP.Mini
open PP.Gen
attribute [local congr] Res.bind_congr loopN_congr forN_congr

/-- What the evaluator of example 4 needs of the program. -/
structure HasCalc4 {U : Type} (W : World Ex4 U) : Prop where
  kernel : W.Q.fn? none n!"evaluate_tree_kernel" = some Ast.Calc4.evaluate_tree_kernel
  tree : W.Q.fn? none n!"evaluate_tree" = some Ast.Calc1.evaluate_tree
  binary : W.Q.fn? none n!"evaluate_binary_node" = some Ast.Calc3.evaluate_binary_node
  number : W.Q.fn? none n!"evaluate_number" = some Ast.Calc3.evaluate_number
  notTuple : W.Q.isTuple n!"evaluate_tree_kernel" = false
  notTuple₂ : W.Q.isTuple n!"evaluate_binary_node" = false
  notTuple₃ : W.Q.isTuple n!"evaluate_number" = false
  isNumber : W.Q.isVariant n!"Rules" n!"Number" = true
  isInteger : W.Q.isVariant n!"Rules" n!"Integer" = true
  isGrammar : W.Q.isVariant n!"Rules" n!"Grammar" = true
  v_grammar : W.vn .r_grammar = n!"Grammar"
  v_term : W.vn .r_term = n!"Term"
  v_factor : W.vn .r_factor = n!"Factor"
  v_expr : W.vn .r_expr = n!"Expr"
  v_parentheses : W.vn .r_parentheses = n!"Parentheses"
  v_power_expr : W.vn .r_power_expr = n!"Power_expr"
  v_power : W.vn .r_power = n!"Power"
  v_addition : W.vn .r_addition = n!"Addition"
  v_subtraction : W.vn .r_subtraction = n!"Subtraction"
  v_multiplication : W.vn .r_multiplication = n!"Multiplication"
  v_division : W.vn .r_division = n!"Division"
  v_number : W.vn .r_number = n!"Number"
  v_exponent : W.vn .r_exponent = n!"Exponent"
  v_fraction : W.vn .r_fraction = n!"Fraction"
  v_integer : W.vn .r_integer = n!"Integer"
  v_sign : W.vn .r_sign = n!"Sign"

/-- The rules that have a variant. -/
def _root_.PP.Ex4.Shown : Ex4 → Prop
  | .r_onenine | .r_digit => False
  | _ => True

section
variable {U : Type} {W : World Ex4 U}

set_option maxHeartbeats 2000000 in
theorem calc4_kernel_sim (H : HasCalc4 W) {d : Dir} (t : Publisher Ex4) (ht : ∀ nd ∈ t.nodes, nd.rule.Shown) (src : Bytes) (n : Nat) :
    ∀ {m : Nat}, CalcFuel d n m → ∀ (nd : Node Ex4) (h : Heap),
    Sim d (IntRes h) (run W.Q n (.fn none n!"evaluate_tree_kernel") [encPub W.vn t, .str src, encNode W.vn nd] h)
      (mathsKernel ex4Maths true t src m nd) := by
  induction n using Nat.strongRecOn with
  | ind n ih =>
  match n, ih with
  | 0, ih =>
    intro m hf nd h
    cases d with
    | sound => unfold run; exact .oofL rfl
    | complete => exact absurd hf (by simp [CalcFuel])
  | n + 1, ih =>
  intro m
  match m with
  | 0 =>
    intro hf nd h
    cases d with
    | sound => exact absurd hf (by simp [CalcFuel])
    | complete => exact .oofR rfl
  | m + 1 =>
    intro hf nd h
    have hf' : CalcFuel d n m := by cases d <;> simp only [CalcFuel] at hf ⊢ <;> omega
    have hk : Fuel d n 4 := by intro e; subst e; simp only [CalcFuel] at hf; omega
    have hrec := fun nd h => ih n (by omega) hf' nd h
    have hbin : ∀ (nd : Node Ex4) (h : Heap), Sim d (fun v h' x => v = .tuple [.i64 x.1, .i64 x.2] ∧ InI64 x.1 ∧ InI64 x.2 ∧ Keeps h h')
        (run W.Q n (.fn none n!"evaluate_binary_node") [encPub W.vn t, .str src, encNode W.vn nd] h)
        (mathsBinary true t (mathsKernel ex4Maths true t src m) nd) := by
      intro nd h
      cases n with
      | zero => exact Sim.zero (k := 3) hk
      | succ n =>
        refine maths_binary_sim H.binary H.notTuple (fun e => by have := hk e; omega) t src (fun nd h => ih n (by omega) ?_ nd h) nd h
        cases d <;> simp only [CalcFuel] at hf ⊢ <;> omega
    have hnum : ∀ (nd : Node Ex4) (h : Heap), Sim d (IntRes h)
        (run W.Q n (.fn none n!"evaluate_number") [encPub W.vn t, .str src, encNode W.vn nd] h)
        (mathsNumber .r_number .r_integer true t src nd) := by
      intro nd h
      cases n with
      | zero => exact Sim.zero (k := 3) hk
      | succ n => exact number_sim H.number H.v_number H.v_integer H.isNumber H.isInteger (fun e => by have := hk e; omega) t src nd h
    rw [run]
    simp only [H.kernel, Ast.Calc4.evaluate_tree_kernel]
    simp only [bindAll, reduceIte]
    rw [ev_mut_block]
    rw [ev_none rfl, Res.bind_ok, evBlk_expr]
    unfold mathsKernel
    refine Sim.result (for_children (fun e => Nat.le_trans (by decide) (hk e)) rfl
      (fold_loop (I := OptIs h) (fun b k h₁ hi => ?_)
      nd.children none _ ⟨by simp [encOpt], Keeps.rfl'.push _, nofun⟩)) ?_
    · obtain ⟨hi, hk₁, -⟩ := hi
      unfold mathsChild
      rw [ev_let_block, out_assoc]
      refine Sim.bind (K := fun v h' nd => v = encNode W.vn nd ∧ h' = h₁ ∧ nd ∈ t.nodes) ?_ ?_
      · mini [follow_key, load_key, call_pub W t _ _ _ _ W.core.f_BasicPublisher_get_node rfl]
        exact get_node_sim W (fun e => Nat.le_trans (by decide) (hk e)) t k h₁
      rintro _ h₂ child ⟨rfl, rfl, hm⟩
      have hsh := ht child hm
      have hrec := hrec child (h₂ ++ [.uninit])
      have hbin := hbin child (h₂ ++ [.uninit])
      have hnum := hnum child (h₂ ++ [.uninit])
      have hi' : (h₂ ++ [Val.uninit])[h.length]? = some (encOpt b) := by
        rw [List.getElem?_append_left (List.getElem?_eq_some_iff.mp hi).1]; exact hi
      have hk' := hk₁.push .uninit
      have hx : 1 = 1 := rfl
      cases hr : child.rule
      case r_onenine | r_digit => rw [hr] at hsh; exact hsh.elim
      case r_exponent | r_fraction | r_integer | r_sign =>
        mini [nd_rule, load_rule, hr, encRule, H.v_exponent, H.v_fraction, H.v_integer, H.v_sign, matchPat_variants, List.mem_singleton,
          List.mem_cons, Prod.mk.injEq, and_self, and_false, true_or, or_true, or_false, or_self, List.not_mem_nil, ex4Maths, ex4Arm]
        exact .panic
      case r_grammar | r_term | r_factor | r_expr | r_parentheses | r_power_expr =>
        clear hbin hnum
        mini [nd_rule, load_rule, hr, encRule, H.v_grammar, H.v_term, H.v_factor, H.v_expr, H.v_parentheses, H.v_power_expr, matchPat_variants, List.mem_singleton,
          List.mem_cons, Prod.mk.injEq, and_self, and_false, true_or, or_true, or_false, or_self, List.not_mem_nil, ex4Maths, ex4Arm, H.notTuple]
        exact opt_tail_let hi hk₁ hrec
      case r_number =>
        clear hbin hrec
        mini [nd_rule, load_rule, hr, encRule, H.v_number, matchPat_variants, List.mem_singleton,
          List.mem_cons, Prod.mk.injEq, and_self, and_false, true_or, or_true, or_false, or_self, List.not_mem_nil, ex4Maths, ex4Arm, H.notTuple₃]
        exact opt_tail hi' hk' hnum
      case r_power =>
        clear hnum hrec
        mini [nd_rule, load_rule, hr, encRule, H.v_power, matchPat_variants, List.mem_singleton,
          List.mem_cons, Prod.mk.injEq, and_self, and_false, true_or, or_true, or_false, or_self, List.not_mem_nil, ex4Maths, ex4Arm, H.notTuple₂]
        rw [out_assoc]
        refine Sim.bind hbin ?_
        rintro _ h₃ ⟨x, y⟩ ⟨rfl, hx, hy, hk₃⟩
        by_cases hz : InI64 (x ^ (y % 4294967296).toNat)
        · mini [castTo, callMethod_i64, m_pow, i64_in hz, opt_store hi' hk₃, i64Pow, i64Result, hz, true_or, or_true]
          exact .ok (.set hi' hk' hk₃ hz)
        · mini [castTo, callMethod_i64, m_pow, i64_out hz, i64Pow, i64Result, hz, true_or, or_true]
          exact .panic
      case r_addition =>
        clear hnum hrec
        mini [nd_rule, load_rule, hr, encRule, H.v_addition, matchPat_variants, List.mem_singleton,
          List.mem_cons, Prod.mk.injEq, and_self, and_false, true_or, or_true, or_false, or_self, List.not_mem_nil, ex4Maths, ex4Arm, H.notTuple₂]
        rw [out_assoc]
        refine Sim.bind hbin ?_
        rintro _ h₃ ⟨x, y⟩ ⟨rfl, hx, hy, hk₃⟩
        by_cases hz : InI64 (x + y)
        · mini [binop, i64_in hz, opt_store hi' hk₃, i64Result, hz, true_or, or_true]
          exact .ok (.set hi' hk' hk₃ hz)
        · mini [binop, i64_out hz, i64Result, hz, true_or, or_true]
          exact .panic
      case r_subtraction =>
        clear hnum hrec
        mini [nd_rule, load_rule, hr, encRule, H.v_subtraction, matchPat_variants, List.mem_singleton,
          List.mem_cons, Prod.mk.injEq, and_self, and_false, true_or, or_true, or_false, or_self, List.not_mem_nil, ex4Maths, ex4Arm, H.notTuple₂]
        rw [out_assoc]
        refine Sim.bind hbin ?_
        rintro _ h₃ ⟨x, y⟩ ⟨rfl, hx, hy, hk₃⟩
        by_cases hz : InI64 (x - y)
        · mini [binop, i64_in hz, opt_store hi' hk₃, i64Result, hz, true_or, or_true]
          exact .ok (.set hi' hk' hk₃ hz)
        · mini [binop, i64_out hz, i64Result, hz, true_or, or_true]
          exact .panic
      case r_multiplication =>
        clear hnum hrec
        mini [nd_rule, load_rule, hr, encRule, H.v_multiplication, matchPat_variants, List.mem_singleton,
          List.mem_cons, Prod.mk.injEq, and_self, and_false, true_or, or_true, or_false, or_self, List.not_mem_nil, ex4Maths, ex4Arm, H.notTuple₂]
        rw [out_assoc]
        refine Sim.bind hbin ?_
        rintro _ h₃ ⟨x, y⟩ ⟨rfl, hx, hy, hk₃⟩
        by_cases hz : InI64 (x * y)
        · mini [binop, i64_in hz, opt_store hi' hk₃, i64Result, hz, true_or, or_true]
          exact .ok (.set hi' hk' hk₃ hz)
        · mini [binop, i64_out hz, i64Result, hz, true_or, or_true]
          exact .panic
      case r_division =>
        clear hnum hrec
        mini [nd_rule, load_rule, hr, encRule, H.v_division, matchPat_variants, List.mem_singleton,
          List.mem_cons, Prod.mk.injEq, and_self, and_false, true_or, or_true, or_false, or_self, List.not_mem_nil, ex4Maths, ex4Arm, H.notTuple₂]
        rw [out_assoc]
        refine Sim.bind hbin ?_
        rintro _ h₃ ⟨x, y⟩ ⟨rfl, hx, hy, hk₃⟩
        by_cases h0 : y = 0
        · mini [binop, i64Div, h0]
          exact .panic
        · by_cases hm : x = -9223372036854775808 ∧ y = -1
          · obtain ⟨rfl, rfl⟩ := hm
            have hz : ¬ InI64 ((-9223372036854775808 : Int).tdiv (-1)) := by decide
            mini [binop, i64Div, h0, i64_out hz, and_self, true_or, or_true]
            exact .panic
          · have hz := tdiv_in hx h0 hm
            mini [binop, i64Div, h0, hm, i64_in hz, opt_store hi' hk₃, true_or, or_true]
            exact .ok (.set hi' hk' hk₃ hz)
    · rintro _ h₁ rs ⟨rfl, hi, hk₁, hr⟩
      cases rs with
      | none =>
        have e : load (.ref h.length []) h₁ = .ok .none h₁ := by simp [load, loadV, hi, getAt_nil, encOpt]
        mini [e, or_true, true_or]
        exact .panic
      | some x =>
        have e : load (.ref h.length []) h₁ = .ok (.some (.i64 x)) h₁ := by simp [load, loadV, hi, getAt_nil, encOpt]
        mini [e, or_true, true_or]
        exact .ok ⟨rfl, hr x rfl, hk₁⟩

/-- examples/example_4_full_maths/src/lib.rs:4: clearing, and then the evaluation of the root. -/
theorem calc4_tree_sim (H : HasCalc4 W) {d : Dir} (t : Publisher Ex4) (src : Bytes) (hl : t.nodes.length < 18446744073709551616)
    (ht : ∀ m t', t.clearFalse .r_grammar m = .ok t' → ∀ nd ∈ t'.nodes, nd.rule.Shown) {n m m' : Nat} (hf : ClearFuel d n m')
    (hf' : CalcFuel d (n + 1) m) (h : Heap) :
    Sim d (fun v h' x => v = .i64 x ∧ Keeps h h') (run W.Q (n + 2) (.fn none n!"evaluate_tree") [encPub W.vn t, .str src] h)
      (do let t ← t.clearFalse .r_grammar m'; mathsTree ex4Maths true t src m) :=
  tree_sim (enc := .i64) (f := fun t nd => mathsKernel ex4Maths true t src m nd) H.tree H.notTuple H.v_grammar H.isGrammar hl hf
    (fun t' e nd h => Sim.mono (calc4_kernel_sim H t' (ht m' t' e) src (n + 1) hf' nd h) fun _ _ _ ⟨a, _, b⟩ => ⟨a, b⟩) h
end
end PP.Mini
