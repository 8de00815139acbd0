import Verif.Lemmas.Rs.CycleWalk

/-! # generator/src/cycle_detector.rs, executed: leftmost references -/
namespace PP.Rs
open PP.Gen

variable (ord : List Val → List Val) (p : Publisher Dsl) {src : Bytes}

theorem pm_skip (r : Dsl) : pmatch (.variants [(n!"Rules", n!"Optional"), (n!"Rules", n!"Zero_Or_More")]) (encRule r) =
    if r = .r_optional ∨ r = .r_zero_or_more then .some [] else .none := by cases r <;> rfl
theorem pm_transparent (r : Dsl) : pmatch (.variants [(n!"Rules", n!"Atom"), (n!"Rules", n!"RHS"), (n!"Rules", n!"Nucleus"), (n!"Rules", n!"Subexpression"),
      (n!"Rules", n!"Hooked_Call"), (n!"Rules", n!"One_Or_More"), (n!"Rules", n!"And_Predicate"), (n!"Rules", n!"Not_Predicate")]) (encRule r) =
    if isTransparent r = true then .some [] else .none := by cases r <;> rfl

/-- The body of the inner loop of the case of a sequence. -/
def skipBody : Ex := .block (.letS (.var n!"child_node") (.meth (.path [n!"tree"]) n!"get_node" (.cons (.path [n!"child"]) .nil))
    (.tail (.mtch (.field (.path [n!"child_node"]) n!"rule") (.cons (.variants [(n!"Rules", n!"Optional"), (n!"Rules", n!"Zero_Or_More")])
      (.block .nil) (.cons .wild (.block (.tail .brk)) .nil)))))

theorem skip_loop {m : Nat} (hm : 2 ≤ m) (a b c d e f g : Val) (ks : List Nat) :
    (forN (inScope (.var n!"child") fun env => ev (World.gen ord) ⟨callN (World.gen ord) m, cloN (World.gen ord) m⟩ m skipBody env) (ks.map encKey)
      [(n!"child_node", a), (n!"child", b), (n!"node_children", c), (n!"rule_name", d), (n!"node", e), (n!"tree", encTree p), (n!"source", f), (n!"left_most_rules", g)]).Sim
      (sequenceSkipLoop p ks) fun _ => .ok unit
      [(n!"child_node", a), (n!"child", b), (n!"node_children", c), (n!"rule_name", d), (n!"node", e), (n!"tree", encTree p), (n!"source", f), (n!"left_most_rules", g)] := by
  induction ks with
  | nil => rfl
  | cons k ks ih =>
    rw [List.map_cons, forN, sequenceSkipLoop]
    rcases getNode_cases p k with ⟨cn, hc, _⟩ | ⟨q, hc⟩
    · rw [hc]
      simp only [Out.bind_ok]
      by_cases hr : cn.rule = .r_optional ∨ cn.rule = .r_zero_or_more
      · rw [if_pos hr]
        rs [inScope, skipBody, callMeth_pub, call_get_node ord hc, fieldVal_rule, pm_skip, if_pos hr]
        exact ih
      · rw [if_neg hr]
        rs [inScope, skipBody, callMeth_pub, call_get_node ord hc, fieldVal_rule, pm_skip, if_neg hr]
        rfl
    · rw [hc]
      rs [inScope, skipBody, callMeth_pub, call_get_node_panic ord hc]
      rfl

/-- The end of a loop that may return. -/
def Ends {σ : Type} (L : Res) (O : Out σ) (E : σ → Env) : Prop :=
  match O with
  | .ok s => L = .ok unit (E s) ∨ L = .ret unit (E s)
  | .panic _ => L = .panic
  | .oof => True

theorem call_left (hs : ascii src = true) (name : Bytes) (n : Nat) : ∀ nd s m, n + 3 ≤ m →
    (callN (World.gen ord) m Ast.RuleCallTree.get_left_most_called_rules_of_rule [.str name, encNode nd, encTree p, .str src, .set (s.map .str)]).Sim (leftMostOf p src n nd s)
      fun s' => .ok unit [.str name, encNode nd, encTree p, .str src, .set (s'.map .str)] := by
  induction n with
  | zero => intros; trivial
  | succ n ih =>
    intro nd s m hm
    rw [callN_succ rfl rfl (by omega), leftMostOf]
    rs [Ast.RuleCallTree.get_left_most_called_rules_of_rule, callMeth_node, call_get_children, items]
    generalize hF : inScope _ _ = F
    have R : ∀ ks : List Nat, Ends (forN F (ks.map encKey) [(n!"node_children", .vec (nd.children.map encKey)), (n!"rule_name", .str name), (n!"node", encNode nd),
        (n!"tree", encTree p), (n!"source", .str src), (n!"left_most_rules", .set (s.map .str))]) (leftMostLoop p src (leftMostOf p src n) nd.children ks s)
        fun s => [(n!"node_children", .vec (nd.children.map encKey)), (n!"rule_name", .str name), (n!"node", encNode nd),
        (n!"tree", encTree p), (n!"source", .str src), (n!"left_most_rules", .set (s.map .str))] := by
      intro ks
      induction ks with
      | nil => exact .inl rfl
      | cons b ks ih' =>
        rw [List.map_cons, forN, leftMostLoop]
        rcases getNode_cases p b with ⟨cn, hc, _⟩ | ⟨q, hc⟩
        · rw [hc]
          simp only [Out.bind_ok]
          by_cases r1 : cn.rule = .r_ordered_choice
          · rw [if_pos r1]
            by_cases h0 : cn.children.length = 0
            · rw [if_pos h0, ← hF]
              rs [inScope, callMeth_pub, call_get_node ord hc, fieldVal_rule, pm_ordered_choice, r1, callMeth_node, call_get_children, vecLib, List.length_map, h0, sub_usize_zero]
              rfl
            · rw [if_neg h0, ← hF]
              have hsl : sliceVal (.vec (cn.children.map encKey)) (.num false 0) (.num false (cn.children.length - 1)) =
                  .ok (.vec ((cn.children.take (cn.children.length - 1)).map encKey)) .none := by
                have : cn.children.length - 1 ≤ (cn.children.map encKey).length := by simp
                simp only [sliceVal, Nat.zero_le, true_and, this, if_true, List.drop_zero, List.map_take]
              rs [inScope, callMeth_pub, call_get_node ord hc, fieldVal_rule, pm_ordered_choice, r1, callMeth_node, call_get_children, vecLib, List.length_map, sub_usize h0, hsl, items]
              generalize hL : forN _ (List.map encKey (cn.children.take (cn.children.length - 1))) _ = L
              generalize hO : (List.foldlM _ _ _ : Out _) = O
              have R : Loop L O (fun _ => True) fun s => [(n!"children", .vec ((cn.children.take (cn.children.length - 1)).map encKey)), (n!"children", .vec (cn.children.map encKey)), (n!"child_node", encNode cn), (n!"child", encKey b),
                  (n!"node_children", .vec (nd.children.map encKey)), (n!"rule_name", .str name), (n!"node", encNode nd),
                  (n!"tree", encTree p), (n!"source", .str src), (n!"left_most_rules", .set (s.map .str))] := by
                rw [← hL, ← hO]
                refine forN_loop rfl trivial fun c _ s _ => ?_
                rcases getNode_cases p c with ⟨dn, hd, _⟩ | ⟨q, hd⟩
                · rw [hd]
                  simp only [Out.bind_ok]
                  have H := ih dn s (m - 1) (by omega)
                  cases ho : leftMostOf p src n dn s with
                  | oof => trivial
                  | panic q =>
                    rw [ho] at H
                    simp only [CRes.Sim] at H
                    refine .panic ?_
                    rs [inScope, callMeth_pub, call_get_node ord hd, clone_lib, H]
                  | ok s' =>
                    rw [ho] at H
                    simp only [CRes.Sim] at H
                    refine .ok (v := unit) ?_ trivial
                    rs [inScope, callMeth_pub, call_get_node ord hd, clone_lib, H]
                · rw [hd]
                  refine .panic ?_
                  rs [inScope, callMeth_pub, call_get_node_panic ord hd]
              clear hL hO
              cases O with
              | oof => trivial
              | panic q => obtain rfl := R; rfl
              | ok t => obtain ⟨rfl, -⟩ := R; exact .inr rfl
          · rw [if_neg r1]
            by_cases r2 : cn.rule = .r_sequence
            · rw [if_pos r2, ← hF]
              rs [inScope, callMeth_pub, call_get_node ord hc, fieldVal_rule, pm_ordered_choice, if_neg r1, pm_sequence, if_pos r2, items]
              have K := skip_loop ord p (m := m - 1) (by omega) (encNode cn) (encKey b) (.vec (nd.children.map encKey)) (.str name) (encNode nd) (.str src) (.set (s.map .str)) nd.children
              rw [skipBody] at K
              generalize forN _ _ _ = L at K ⊢
              cases ho : sequenceSkipLoop p nd.children with
              | oof => trivial
              | panic q => rw [ho] at K; obtain rfl := K; rfl
              | ok u =>
                rw [ho] at K
                obtain rfl := K
                simp only [Out.bind_ok]
                by_cases r3 : cn.rule = .r_optional ∨ cn.rule = .r_zero_or_more
                · rw [r2] at r3; simp at r3
                · rw [if_neg r3]
                  have r4 : ¬ cn.rule = .r_optional := fun e => r3 (.inl e)
                  have r5 : ¬ cn.rule = .r_zero_or_more := fun e => r3 (.inr e)
                  have H := ih cn s (m - 1) (by omega)
                  cases ho : leftMostOf p src n cn s with
                  | oof => trivial
                  | panic q =>
                    rw [ho] at H
                    simp only [CRes.Sim] at H
                    rs [callMeth_pub, call_get_node ord hc, fieldVal_rule, eq_optional, eq_star, r4, r5, decide_false, clone_lib, H]
                    rfl
                  | ok s' =>
                    rw [ho] at H
                    simp only [CRes.Sim] at H
                    rs [callMeth_pub, call_get_node ord hc, fieldVal_rule, eq_optional, eq_star, r4, r5, decide_false, clone_lib, H]
                    exact .inr rfl
            · rw [if_neg r2]
              by_cases r3 : isTransparent cn.rule = true
              · rw [if_pos r3, ← hF]
                have H := ih cn s (m - 1) (by omega)
                cases ho : leftMostOf p src n cn s with
                | oof => trivial
                | panic q =>
                  rw [ho] at H
                  simp only [CRes.Sim] at H
                  rs [inScope, callMeth_pub, call_get_node ord hc, fieldVal_rule, pm_ordered_choice, if_neg r1, pm_sequence, if_neg r2, pm_transparent, if_pos r3, clone_lib, H]
                  rfl
                | ok s' =>
                  rw [ho] at H
                  simp only [CRes.Sim] at H
                  rs [inScope, callMeth_pub, call_get_node ord hc, fieldVal_rule, pm_ordered_choice, if_neg r1, pm_sequence, if_neg r2, pm_transparent, if_pos r3, clone_lib, H]
                  exact .inr rfl
              · rw [if_neg r3]
                by_cases r4 : cn.rule = .r_var_name_ref
                · rw [if_pos r4, ← hF]
                  have H := call_ref_name ord hs cn (m := m - 1) (by omega)
                  cases ho : getRuleRefName src cn with
                  | oof => trivial
                  | panic q =>
                    rw [ho] at H
                    simp only [CRes.Sim] at H
                    rs [inScope, callMeth_pub, call_get_node ord hc, fieldVal_rule, pm_ordered_choice, if_neg r1, pm_sequence, if_neg r2, pm_transparent, if_neg r3, pm_var_name_ref, if_pos r4, H]
                    rfl
                  | ok x =>
                    rw [ho] at H
                    simp only [CRes.Sim] at H
                    rs [inScope, callMeth_pub, call_get_node ord hc, fieldVal_rule, pm_ordered_choice, if_neg r1, pm_sequence, if_neg r2, pm_transparent, if_neg r3, pm_var_name_ref, if_pos r4, H, set_insert]
                    exact .inr rfl
                · rw [if_neg r4]
                  have E : ∀ env, F (encKey b) ((n!"node_children", .vec (nd.children.map encKey)) :: (n!"rule_name", .str name) :: (n!"node", encNode nd) ::
                      (n!"tree", encTree p) :: env) = .ok unit ((n!"node_children", .vec (nd.children.map encKey)) :: (n!"rule_name", .str name) :: (n!"node", encNode nd) :: (n!"tree", encTree p) :: env) := by
                    intro env
                    rw [← hF]
                    rs [inScope, callMeth_pub, call_get_node ord hc, fieldVal_rule, pm_ordered_choice, if_neg r1, pm_sequence, if_neg r2, pm_transparent, if_neg r3, pm_var_name_ref, if_neg r4]
                  rw [E]
                  exact ih'
        · rw [hc, ← hF]
          rs [inScope, callMeth_pub, call_get_node_panic ord hc]
          rfl
    have R := R nd.children
    generalize leftMostLoop p src (leftMostOf p src n) nd.children nd.children s = O at R ⊢
    generalize forN _ _ _ = L at R ⊢
    cases O with
    | oof => trivial
    | panic q => obtain rfl := R; rfl
    | ok t => rcases R with rfl | rfl <;> rfl

end PP.Rs
