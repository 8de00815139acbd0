import Verif.Lemmas.Mini.Calc
import Verif.Model.Calc.Calc1

/-! # The evaluator of example 1 does what Model/Calc/Calc1 says -/
namespace PP.Mini
open PP.Gen
attribute [local congr] Res.bind_congr loopN_congr forN_congr

/-- What the evaluator needs of the program. -/
structure HasCalc1 {U : Type} (W : World Ex1 U) : Prop where
  kernel : W.Q.fn? none n!"evaluate_tree_kernel" = some Ast.Calc1.evaluate_tree_kernel
  tree : W.Q.fn? none n!"evaluate_tree" = some Ast.Calc1.evaluate_tree
  notTuple : W.Q.isTuple n!"evaluate_tree_kernel" = false
  isVar : W.Q.isVariant n!"Rules" n!"Subtraction" = true
  isGrammar : W.Q.isVariant n!"Rules" n!"Grammar" = true
  v_grammar : W.vn .r_grammar = n!"Grammar"
  v_expr : W.vn .r_expr = n!"Expr"
  v_addition : W.vn .r_addition = n!"Addition"
  v_subtraction : W.vn .r_subtraction = n!"Subtraction"
  v_integer : W.vn .r_integer = n!"Integer"

/-- The rules that have a variant. -/
def _root_.PP.Ex1.Shown : Ex1 → Prop
  | .r_onenine | .r_digit => False
  | _ => True

section
variable {U : Type} {W : World Ex1 U}

/-- The end of a round: the result is assigned and pushed. -/
theorem tail_sim {d : Dir} {Q : Prog} {c : Call} {h h₂ : Heap} {acc : List Int} {r : Res Val} {o : Out Int}
    (hs : Sim d (fun v h' x => v = .i64 x ∧ Keeps (h₂ ++ [.uninit]) h') r o) (hi : h₂[h.length]? = some (.vec (acc.map .i64))) (hk : Keeps h h₂) :
    Sim d (fun _ h' x => h'[h.length]? = some (.vec ((acc ++ [x]).map .i64)) ∧ Keeps h h')
      (r.bind fun a h₃ => (store h₂.length [] a h₃).bind fun _ h₃ => (load (.ref h₂.length []) h₃).bind fun a h₄ =>
        (callMethod Q c n!"push" (.ref h.length []) [a] h₄).bind fun _ h => .ok Val.unit h) o := by
  cases hs with
  | oofL e => exact .oofL e
  | oofR e => exact .oofR e
  | panic => exact .panic
  | @ok v h₃ x k =>
    obtain ⟨rfl, hk₃⟩ := k
    have hlt : h.length < h₂.length := (List.getElem?_eq_some_iff.mp hi).1
    have hlt₃ : h₂.length < h₃.length := by have := hk₃.le; simp at this; omega
    have e1 : (h₃.set h₂.length (.i64 x))[h₂.length]? = some (.i64 x) := by rw [List.getElem?_set_self hlt₃]
    have e2 : (h₃.set h₂.length (.i64 x))[h.length]? = some (.vec (acc.map .i64)) := by
      rw [List.getElem?_set_ne (by omega), hk₃.unpush.eq _ hlt]; exact hi
    rw [Res.bind_ok, store_loc hk₃.last, Res.bind_ok, load_loc e1, Res.bind_ok, push_loc e2, Res.bind_ok]
    refine .ok ⟨?_, ((hk.trans hk₃.unpush).set (by omega) _).set (by omega) _⟩
    rw [List.getElem?_set_self (by simp; omega)]
    simp

theorem calc1_kernel_sim (H : HasCalc1 W) {d : Dir} (t : Publisher Ex1) (ht : ∀ nd ∈ t.nodes, nd.rule.Shown) (src : Bytes) :
    ∀ {n m : Nat}, CalcFuel d n m → ∀ (nd : Node Ex1) (h : Heap),
    Sim d (fun v h' x => v = .i64 x ∧ Keeps h h')
      (run W.Q n (.fn none n!"evaluate_tree_kernel") [encPub W.vn t, .str src, encNode W.vn nd] h) (calc1Kernel true t src m nd)
  | 0, m, hf, nd, h => by
    cases d with
    | sound => unfold run; exact .oofL rfl
    | complete => exact absurd hf (by simp [CalcFuel])
  | n + 1, 0, hf, nd, h => by
    cases d with
    | sound => exact absurd hf (by simp [CalcFuel])
    | complete => exact .oofR rfl
  | n + 1, m + 1, hf, nd, h => by
    have hf' : CalcFuel d n m := by cases d <;> simp only [CalcFuel] at hf ⊢ <;> omega
    have hk : Fuel d n 3 := by intro e; subst e; simp only [CalcFuel] at hf; omega
    rw [run]
    simp only [H.kernel, Ast.Calc1.evaluate_tree_kernel]
    have e0 : ∀ env h, ev W.Q (run W.Q n) n false (.call (.path [n!"Vec", n!"new"]) .nil) env h = .ok (.vec []) h := fun env h => by mini
    simp only [bindAll, reduceIte]
    rw [ev_mut_block, e0, Res.bind_ok, evBlk_expr]
    unfold calc1Kernel List.mapM
    refine Sim.result (for_children (fun e => Nat.le_trans (by decide) (hk e)) rfl
      (map_loop (I := fun acc h' => h'[h.length]? = some (.vec (acc.map .i64)) ∧ Keeps h h') (fun acc k h₁ hi => ?_)
      nd.children [] _ ⟨by simp, Keeps.rfl'.push _⟩)) ?_
    · obtain ⟨hi, hk₁⟩ := hi
      unfold calc1Child
      rw [ev_let_block]
      refine Sim.bind (K := fun v h' nd => v = encNode W.vn nd ∧ h' = h₁ ∧ nd ∈ t.nodes) ?_ ?_
      · mini [follow_key, load_key, call_pub W t _ _ _ _ W.core.f_BasicPublisher_get_node rfl]
        exact get_node_sim W (fun e => Nat.le_trans (by decide) (hk e)) t k h₁
      rintro _ h₂ child ⟨rfl, rfl, hm⟩
      have hsh := ht child hm
      have hrec := calc1_kernel_sim H t ht src hf' child (h₂ ++ [.uninit])
      cases hr : child.rule
      case r_onenine | r_digit => rw [hr] at hsh; exact hsh.elim
      case r_grammar | r_expr | r_addition | r_subtraction =>
        mini [nd_rule, load_rule, hr, encRule, H.v_grammar, H.v_expr, H.v_addition, H.v_subtraction, matchPat_variants, List.mem_singleton,
          Prod.mk.injEq, and_self, and_false, true_or, H.notTuple]
        refine tail_sim (Sim.mono hrec ?_) hi hk₁
        rintro _ h₃ x ⟨rfl, hk₃⟩
        exact ⟨rfl, hk₃⟩
      case r_integer =>
        mini [nd_rule, load_rule, hr, encRule, H.v_integer, matchPat_variants, List.mem_singleton, Prod.mk.injEq, and_self, and_false, true_or,
          call_node W child _ _ _ _ W.core.f_Node_get_string rfl]
        refine Sim.bind (node_string_sim W (fun e => Nat.le_trans (by decide) (hk e)) child src _) ?_
        rintro _ _ s ⟨rfl, rfl⟩
        mini [m_parse]
        cases hp : parseI64 s with
        | none => mini [Out.ofOption]; exact .panic
        | some x =>
          mini [Out.ofOption]
          exact tail_sim (r := .ok (.i64 x) (h₂ ++ [.uninit])) (.ok ⟨rfl, Keeps.rfl'⟩) hi hk₁
    · rintro _ h₁ rs ⟨rfl, hi, hk₁⟩
      have hlt : h.length < h₁.length := (List.getElem?_eq_some_iff.mp hi).1
      have hfin : ∀ {h₂ : Heap} {l : List Int}, h₂[h.length]? = some (.vec (l.map .i64)) → Keeps h h₂ →
          Sim d (fun v h' x => v = .i64 x ∧ Keeps h h')
            ((callMethod W.Q (run W.Q n) n!"iter" (.ref h.length []) [] h₂).bind fun v h => callMethod W.Q (run W.Q n) n!"sum" v [] h).result
            (l.foldlM (fun a x => i64Result true (a + x)) 0) := by
        intro h₂ l e hk
        rw [call_loc e nofun nofun, m_iter, Res.bind_ok, callMethod_vec, m_sum]
        refine (Sim.mono (sum_sim h₂ l 0) ?_).res
        rintro _ _ x ⟨rfl, rfl⟩
        exact ⟨rfl, hk⟩
      have heq : ∀ h : Heap, binop .eq (encRule W.vn nd.rule) (.variant n!"Rules" n!"Subtraction") h =
          .ok (.bool (decide (nd.rule = .r_subtraction))) h := fun h => by
        have : (W.vn nd.rule = n!"Subtraction") ↔ nd.rule = .r_subtraction := by
          rw [← H.v_subtraction]; exact ⟨W.inj _ _, congrArg _⟩
        simp only [binop, valEq, atomEq, encRule, true_and, this]
      unfold calc1Finish
      by_cases hr : nd.rule = .r_subtraction
      · rw [hr] at heq
        have el : loadV h₁ (.ref h.length []) = some (.vec (rs.map .i64)) := by simp [loadV, hi, getAt_nil]
        have ef : follow (.ref h.length []) h₁ = .ref h.length [] := by unfold follow; rw [el]
        cases h1 : rs[1]? with
        | none =>
          have ee : element (.int 1) (.ref h.length []) h₁ = .panic := by simp [element, ef, el, h1]
          mini [nd_rule, load_rule, global, H.isVar, hr, heq, decide_true, true_or, ee, Out.ofOption]
          exact .panic
        | some x =>
          have ee : element (.int 1) (.ref h.length []) h₁ = .ok (.ref h.length [.idx 1]) h₁ := by simp [element, ef, el, h1]
          have eg : load (.ref h.length [.idx 1]) h₁ = .ok (.i64 x) h₁ := by simp [load, loadV, hi, getAt, h1]
          mini [nd_rule, load_rule, global, H.isVar, hr, heq, decide_true, true_or, ee, eg, Out.ofOption, Out.bind_ok]
          refine Sim.result (i64_sim (-x) h₁) ?_
          rintro _ h₁ y ⟨rfl, rfl⟩
          have es : store h.length [.idx 1] (.i64 y) h₁ = .ok .unit (h₁.set h.length (.vec ((rs.set 1 y).map .i64))) := by
            simp [store, hi, putAt, h1, List.map_set]
          mini [ee, es]
          exact hfin (by rw [List.getElem?_set_self hlt]) (hk₁.set (Nat.le_refl _) _)
      · have e2 : ∀ (k : Out (List Int)), (match nd.rule with
            | .r_subtraction => k
            | _ => Out.ok rs) = Out.ok rs := fun k => by
          split
          · rename_i e; exact absurd e hr
          · rfl
        mini [nd_rule, load_rule, global, H.isVar, heq, hr, decide_false, e2, true_or]
        exact hfin hi hk₁

/-- examples/example_1/src/lib.rs:4: clearing, and then the evaluation of the root. -/
theorem calc1_tree_sim (H : HasCalc1 W) {d : Dir} (t : Publisher Ex1) (src : Bytes) (hl : t.nodes.length < 18446744073709551616)
    (ht : ∀ m t', t.clearFalse .r_grammar m = .ok t' → ∀ nd ∈ t'.nodes, nd.rule.Shown) {n m m' : Nat} (hf : ClearFuel d n m')
    (hf' : CalcFuel d (n + 1) m) (h : Heap) :
    Sim d (fun v h' x => v = .i64 x ∧ Keeps h h') (run W.Q (n + 2) (.fn none n!"evaluate_tree") [encPub W.vn t, .str src] h)
      (do let t ← t.clearFalse .r_grammar m'; calc1Tree true t src m) :=
  tree_sim (enc := .i64) (f := fun t nd => calc1Kernel true t src m nd) H.tree H.notTuple H.v_grammar H.isGrammar hl hf
    (fun t' e nd h => calc1_kernel_sim H t' (ht m' t' e) src hf' nd h) h
end
end PP.Mini
