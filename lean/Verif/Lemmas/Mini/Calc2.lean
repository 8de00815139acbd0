import Verif.Lemmas.Mini.Calc
import Verif.Model.Calc.Ab

/-! # The evaluator of example 2 does what Model/Calc/Ab says -/
namespace PP.Mini
open PP.Gen
attribute [local congr] Res.bind_congr loopN_congr forN_congr

/-- What the evaluator needs of the program. -/
structure HasCalc2 {U : Type} (W : World Ex2 U) : Prop where
  kernel : W.Q.fn? none n!"evaluate_tree_kernel" = some Ast.Calc2.evaluate_tree_kernel
  tree : W.Q.fn? none n!"evaluate_tree" = some Ast.Calc2.evaluate_tree
  notTuple : W.Q.isTuple n!"evaluate_tree_kernel" = false
  isGrammar : W.Q.isVariant n!"Rules" n!"Grammar" = true
  v_grammar : W.vn .r_grammar = n!"Grammar"
  v_a : W.vn .r_a = n!"A"
  v_b : W.vn .r_b = n!"B"

section
variable {U : Type} {W : World Ex2 U}

/-- The end of a round: the result is appended. -/
theorem append_loc {d : Dir} {Q : Prog} {c : Call} {h h₂ h₃ : Heap} {acc s : Bytes} (hi : h₂[h.length]? = some (.str acc)) (hk : Keeps h h₂)
    (hk₃ : Keeps h₂ h₃) (hs : h₃[h₂.length]? = some (.str s)) :
    Sim d (fun _ h' x => h'[h.length]? = some (.str x) ∧ Keeps h h')
      ((load (follow (.ref h₂.length []) h₃) h₃).bind fun a h₄ =>
        (callMethod Q c n!"push_str" (.ref h.length []) [a] h₄).bind fun _ h => .ok Val.unit h) (Out.ok (acc ++ s)) := by
  have hlt : h.length < h₂.length := (List.getElem?_eq_some_iff.mp hi).1
  have ef : follow (.ref h₂.length []) h₃ = .ref h₂.length [] := by simp [follow, loadV, hs, getAt_nil]
  have e2 : h₃[h.length]? = some (.str acc) := by rw [hk₃.eq _ hlt]; exact hi
  rw [ef, load_loc hs, Res.bind_ok, call_loc e2 nofun nofun, m_push_str, store_loc e2, Res.bind_ok]
  exact .ok ⟨by rw [List.getElem?_set_self (Nat.lt_of_lt_of_le hlt hk₃.le)], (hk.trans hk₃).set (Nat.le_refl _) _⟩

theorem ab_kernel_sim (H : HasCalc2 W) {d : Dir} (t : Publisher Ex2) (src : Bytes) :
    ∀ {n m : Nat}, CalcFuel d n m → ∀ (nd : Node Ex2) (h : Heap),
    Sim d (fun v h' x => v = .str x ∧ Keeps h h')
      (run W.Q n (.fn none n!"evaluate_tree_kernel") [encPub W.vn t, .str src, encNode W.vn nd] h) (abKernel t m nd)
  | 0, m, hf, nd, h => by
    cases d with
    | sound => unfold run; exact .oofL rfl
    | complete => exact absurd hf (by simp [CalcFuel])
  | n + 1, 0, hf, nd, h => by
    cases d with
    | sound => exact absurd hf (by simp [CalcFuel])
    | complete => exact .oofR rfl
  | n + 1, m + 1, hf, nd, h => by
    have hf' : CalcFuel d n m := by cases d <;> simp only [CalcFuel] at hf ⊢ <;> omega
    have hk : Fuel d n 3 := by intro e; subst e; simp only [CalcFuel] at hf; omega
    rw [run]
    simp only [H.kernel, Ast.Calc2.evaluate_tree_kernel]
    have e0 : ∀ env h, ev W.Q (run W.Q n) n false (.meth (.str n!"") n!"to_string" .nil) env h = .ok (.str []) h := fun env h => by mini; rfl
    simp only [bindAll, reduceIte]
    rw [ev_mut_block, e0, Res.bind_ok, evBlk_expr]
    unfold abKernel
    refine Sim.result' (for_children (fun e => Nat.le_trans (by decide) (hk e)) rfl
      (fold_loop (I := fun acc h' => h'[h.length]? = some (.str acc) ∧ Keeps h h') (fun acc k h₁ hi => ?_)
      nd.children [] _ ⟨by simp, Keeps.rfl'.push _⟩)) ?_
    · obtain ⟨hi, hk₁⟩ := hi
      unfold abChild
      rw [ev_let_block, out_assoc]
      refine Sim.bind (K := fun v h' nd => v = encNode W.vn nd ∧ h' = h₁ ∧ nd ∈ t.nodes) ?_ ?_
      · mini [follow_key, load_key, call_pub W t _ _ _ _ W.core.f_BasicPublisher_get_node rfl]
        exact get_node_sim W (fun e => Nat.le_trans (by decide) (hk e)) t k h₁
      rintro _ h₂ child ⟨rfl, rfl, hm⟩
      have hrec := ab_kernel_sim H t src hf' child (h₂ ++ [.uninit])
      cases hr : child.rule
      all_goals
        mini [nd_rule, load_rule, hr, encRule, H.v_grammar, H.v_a, H.v_b, matchPat_variants, List.mem_singleton,
          Prod.mk.injEq, and_self, and_false, true_or, H.notTuple]
        rw [out_assoc]
        refine Sim.bind hrec ?_
        rintro _ h₃ s ⟨rfl, hk₃⟩
        have hlt₃ : h₂.length < h₃.length := by have := hk₃.le; simp at this; omega
        have e1 : ∀ v, (h₃.set h₂.length v)[h₂.length]? = some v := fun v => by rw [List.getElem?_set_self hlt₃]
        rw [store_loc hk₃.last, Res.bind_ok]
      case r_grammar => exact append_loc hi hk₁ (hk₃.unpush.set (Nat.le_refl _) _) (e1 _)
      all_goals
        mini [load_loc (e1 _), binop, store_loc (e1 _)]
        exact append_loc hi hk₁ ((hk₃.unpush.set (Nat.le_refl _) _).set (Nat.le_refl _) _) (by rw [List.getElem?_set_self (by simpa using hlt₃)]; rfl)
    · rintro _ h₁ s ⟨rfl, hi, hk₁⟩
      mini [load_loc hi]
      exact .ok ⟨rfl, hk₁⟩

/-- examples/example_2/src/lib.rs:3: clearing, and then the evaluation of the root. -/
theorem ab_tree_sim (H : HasCalc2 W) {d : Dir} (t : Publisher Ex2) (src : Bytes) (hl : t.nodes.length < 18446744073709551616)
    {n m m' : Nat} (hf : ClearFuel d n m') (hf' : CalcFuel d (n + 1) m) (h : Heap) :
    Sim d (fun v h' x => v = .str x ∧ Keeps h h') (run W.Q (n + 2) (.fn none n!"evaluate_tree") [encPub W.vn t, .str src] h)
      (do let t ← t.clearFalse .r_grammar m'; abTree t m) :=
  tree_sim (enc := .str) (f := fun t nd => abKernel t m nd) H.tree H.notTuple H.v_grammar H.isGrammar hl hf
    (fun t' _ nd h => ab_kernel_sim H t' src hf' nd h) h
end
end PP.Mini
