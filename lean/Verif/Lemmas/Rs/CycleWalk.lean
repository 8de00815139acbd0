import Verif.Lemmas.Rs.Cycles

/-! # generator/src/cycle_detector.rs, executed: walking the tree -/
namespace PP.Rs
open PP.Gen

variable (ord : List Val → List Val) (p : Publisher Dsl) {src : Bytes}

theorem call_refs (hs : ascii src = true) (n : Nat) : ∀ nd s m, n + 3 ≤ m →
    (callN (World.gen ord) m Ast.RuleCallTree.get_rules_referenced_by_rule [encTree p, .str src, encNode nd, .set (s.map .str)]).Sim (getRulesReferencedByRule p src n nd s)
      fun s' => .ok unit [encTree p, .str src, encNode nd, .set (s'.map .str)] := by
  induction n with
  | zero => intros; trivial
  | succ n ih =>
    intro nd s m hm
    rw [callN_succ rfl rfl (by omega), getRulesReferencedByRule]
    rs [Ast.RuleCallTree.get_rules_referenced_by_rule, callMeth_node, call_get_children, items]
    generalize hL : forN _ _ _ = L
    generalize hO : (List.foldlM _ _ _ : Out _) = O
    have R : Loop L O (fun _ => True) fun s => [(n!"node_children", .vec (nd.children.map encKey)), (n!"tree", encTree p), (n!"source", .str src), (n!"node", encNode nd),
        (n!"referenced_rules", .set (s.map .str))] := by
      rw [← hL, ← hO]
      refine forN_loop rfl trivial fun b _ s _ => ?_
      rcases getNode_cases p b with ⟨cn, hc, _⟩ | ⟨q, hc⟩
      · rw [hc]
        simp only [Out.bind_ok]
        by_cases hr : cn.rule = .r_var_name_ref
        · rw [if_pos hr]
          have H := call_ref_name ord hs cn (m := m - 1) (by omega)
          cases ho : getRuleRefName src cn with
          | oof => trivial
          | panic q =>
            rw [ho] at H
            simp only [CRes.Sim] at H
            refine .panic ?_
            rs [inScope, callMeth_pub, call_get_node ord hc, fieldVal_rule, eq_ref, hr, decide_true, H]
          | ok x =>
            rw [ho] at H
            simp only [CRes.Sim] at H
            simp only [Out.bind_ok]
            have H' := ih cn (setInsert s x) (m - 1) (by omega)
            cases ho' : getRulesReferencedByRule p src n cn (setInsert s x) with
            | oof => trivial
            | panic q =>
              rw [ho'] at H'
              simp only [CRes.Sim] at H'
              refine .panic ?_
              rs [inScope, callMeth_pub, call_get_node ord hc, fieldVal_rule, eq_ref, hr, decide_true, H, set_insert, H']
            | ok s' =>
              rw [ho'] at H'
              simp only [CRes.Sim] at H'
              refine .ok (v := unit) ?_ trivial
              rs [inScope, callMeth_pub, call_get_node ord hc, fieldVal_rule, eq_ref, hr, decide_true, H, set_insert, H']
        · rw [if_neg hr]
          simp only [Out.bind_ok]
          have H' := ih cn s (m - 1) (by omega)
          cases ho' : getRulesReferencedByRule p src n cn s with
          | oof => trivial
          | panic q =>
            rw [ho'] at H'
            simp only [CRes.Sim] at H'
            refine .panic ?_
            rs [inScope, callMeth_pub, call_get_node ord hc, fieldVal_rule, eq_ref, hr, decide_false, H']
          | ok s' =>
            rw [ho'] at H'
            simp only [CRes.Sim] at H'
            refine .ok (v := unit) ?_ trivial
            rs [inScope, callMeth_pub, call_get_node ord hc, fieldVal_rule, eq_ref, hr, decide_false, H']
      · rw [hc]
        rs [inScope, callMeth_pub, call_get_node_panic ord hc]
        rfl
    clear hL hO
    loop_end

theorem nil_set : Val.set [] = .set ((List.nil : List Bytes).map .str) := rfl

theorem call_walk (hs : ascii src = true) (n : Nat) : ∀ nd t m, n + 4 ≤ m →
    (callN (World.gen ord) m Ast.RuleCallTree.walk_node_children [encRct t, encTree p, .str src, encNode nd]).Sim (walkNodeChildren p src n nd t)
      fun t' => .ok unit [encRct t', encTree p, .str src, encNode nd] := by
  induction n with
  | zero => intros; trivial
  | succ n ih =>
    intro nd t m hm
    rw [callN_succ rfl rfl (by omega), walkNodeChildren]
    rs [Ast.RuleCallTree.walk_node_children, callMeth_node, call_get_children, items]
    generalize hL : forN _ _ _ = L
    generalize hO : (List.foldlM _ _ _ : Out _) = O
    have R : Loop L O (fun _ => True) fun t => [(n!"node_children", .vec (nd.children.map encKey)), (n!"self", encRct t), (n!"tree", encTree p), (n!"source", .str src), (n!"node", encNode nd)] := by
      rw [← hL, ← hO]
      refine forN_loop rfl trivial fun b _ t _ => ?_
      rcases getNode_cases p b with ⟨cn, hc, _⟩ | ⟨q, hc⟩
      · rw [hc]
        simp only [Out.bind_ok]
        by_cases hr : cn.rule = .r_rule
        · rw [if_pos hr]
          have H := call_rules_name ord p hs cn (m := m - 1) (by omega)
          cases ho : getRulesName p src cn with
          | oof => trivial
          | panic q =>
            rw [ho] at H
            simp only [CRes.Sim] at H
            refine .panic ?_
            rs [inScope, callMeth_pub, call_get_node ord hc, fieldVal_rule, eq_rule, hr, decide_true, H]
          | ok x =>
            rw [ho] at H
            simp only [CRes.Sim] at H
            simp only [Out.bind_ok]
            have K := call_rhs_index ord cn (m := m - 1) (by omega)
            cases hk : getRuleRhsIndex cn with
            | oof => trivial
            | panic q =>
              rw [hk] at K
              simp only [CRes.Sim] at K
              refine .panic ?_
              rs [inScope, callMeth_pub, call_get_node ord hc, fieldVal_rule, eq_rule, hr, decide_true, H, encRct, clone_lib, keys_insert, K]
            | ok k =>
              rw [hk] at K
              simp only [CRes.Sim] at K
              simp only [Out.bind_ok]
              have G := call_refs ord p hs n cn [] (m - 1) (by omega)
              rw [← nil_set] at G
              cases hg : getRulesReferencedByRule p src n cn [] with
              | oof => trivial
              | panic q =>
                rw [hg] at G
                simp only [CRes.Sim] at G
                refine .panic ?_
                rs [inScope, callMeth_pub, call_get_node ord hc, fieldVal_rule, eq_rule, hr, decide_true, H, encRct, clone_lib, keys_insert, K, G]
              | ok refs =>
                rw [hg] at G
                simp only [CRes.Sim] at G
                simp only [Out.bind_ok]
                generalize hT : (⟨_, _, _, _, _, _⟩ : RuleCallTree) = T
                have H' := ih cn T (m - 1) (by omega)
                cases ho' : walkNodeChildren p src n cn T with
                | oof => trivial
                | panic q =>
                  rw [ho'] at H'
                  subst hT
                  simp only [CRes.Sim, encRct] at H'
                  refine .panic ?_
                  rs [inScope, callMeth_pub, call_get_node ord hc, fieldVal_rule, eq_rule, hr, decide_true, H, encRct, clone_lib, keys_insert, K, G, sets_insert, H']
                | ok s' =>
                  rw [ho'] at H'
                  subst hT
                  simp only [CRes.Sim, encRct] at H'
                  refine .ok (v := unit) ?_ trivial
                  rs [inScope, callMeth_pub, call_get_node ord hc, fieldVal_rule, eq_rule, hr, decide_true, H, encRct, clone_lib, keys_insert, K, G, sets_insert, H']
        · rw [if_neg hr]
          simp only [Out.bind_ok]
          have H' := ih cn t (m - 1) (by omega)
          cases ho' : walkNodeChildren p src n cn t with
          | oof => trivial
          | panic q =>
            rw [ho'] at H'
            simp only [CRes.Sim, encRct] at H'
            refine .panic ?_
            rs [inScope, callMeth_pub, call_get_node ord hc, fieldVal_rule, eq_rule, hr, decide_false, encRct, H']
          | ok s' =>
            rw [ho'] at H'
            simp only [CRes.Sim, encRct] at H'
            refine .ok (v := unit) ?_ trivial
            rs [inScope, callMeth_pub, call_get_node ord hc, fieldVal_rule, eq_rule, hr, decide_false, encRct, H']
      · rw [hc]
        rs [inScope, callMeth_pub, call_get_node_panic ord hc]
        rfl
    clear hL hO
    loop_end

end PP.Rs
