import Verif.Lemmas.Rs.Construct
import Verif.Lemmas.Rs.CycleSets

/-! # generator/src/cycle_detector.rs, executed: the tree -/
namespace PP.Rs
open PP.Gen

/-! ## The call tree -/

def encKeys (m : Map Nat) : Val := .map (m.map fun p => (.str p.1, encKey p.2))
/-- `is_rule_left_recursive`: every name has the value `LeftRecursive::False`. -/
def encMarks (l : List Bytes) : Val := .map (l.map fun x => (.str x, .data n!"LeftRecursive" n!"False" []))

def encRct (t : RuleCallTree) : Val :=
  .struct n!"RuleCallTree" [(n!"rules_keys", encKeys t.rulesKeys), (n!"rules_rhs_keys", encKeys t.rulesRhsKeys), (n!"rules_referenced_by_rule", encSets t.referenced),
    (n!"is_rule_left_recursive", encMarks t.notLR), (n!"rules_left_most_rule_refs", encSets t.leftMost), (n!"involved_sets", encSets t.involved)]

theorem mapSet_map {V : Type} (f : V → Val) (m : Map V) (k : Bytes) (v : V) :
    mapSet (.str k) (f v) (m.map fun p => (.str p.1, f p.2)) = (m.insert k v).map fun p => (Val.str p.1, f p.2) := by
  induction m with
  | nil => rfl
  | cons p m ih =>
    rw [List.map_cons, mapSet, Map.insert, valEq_str]
    by_cases h : p.1 = k
    · simp [h]
    · have : (k == p.1) = false := by simpa using fun e => h e.symm
      simp [h, this, ih]

theorem mapGet_map {V : Type} (f : V → Val) (m : Map V) (k : Bytes) : mapGet (.str k) (m.map fun p => (.str p.1, f p.2)) = (m.get k).map f := by
  induction m with
  | nil => rfl
  | cons p m ih =>
    rw [List.map_cons, mapGet, valEq_str]
    by_cases h : p.1 = k
    · simp [h, Map.get]
    · have : (k == p.1) = false := by simpa using fun e => h e.symm
      simp [Map.get] at ih
      simp [h, this, Map.get, ih]

theorem mapSet_marks (l : List Bytes) (k : Bytes) (v : Val) : mapSet (.str k) v (l.map fun x => (.str x, v)) = (setInsert l k).map fun x => (Val.str x, v) := by
  induction l with
  | nil => rfl
  | cons a l ih =>
    rw [List.map_cons, mapSet, valEq_str]
    by_cases h : a = k
    · simp [h, setInsert]
    · have h1 : (k == a) = false := by simpa using fun e => h e.symm
      rw [if_neg (by simp [h1]), ih]
      have h3 : ¬ k = a := fun e => h e.symm
      by_cases h2 : k ∈ l <;> simp [setInsert, h3, h2]

theorem mapGet_marks (l : List Bytes) (k : Bytes) (v : Val) : mapGet (.str k) (l.map fun x => (.str x, v)) = if l.contains k then .some v else .none := by
  induction l with
  | nil => rfl
  | cons a l ih =>
    rw [List.map_cons, mapGet, valEq_str]
    by_cases h : k = a
    · simp [h]
    · have h1 : (k == a) = false := by simpa using h
      rw [if_neg (by simp [h1]), ih, List.contains_cons, h1, Bool.false_or]

theorem has_str (x : Bytes) (s : List Bytes) : has (.str x) (s.map .str) = s.contains x := by
  unfold has
  induction s with
  | nil => rfl
  | cons a s ih => rw [List.map_cons, List.any_cons, ih, valEq_str, List.contains_cons]; cases (x == a) <;> rfl

section
variable (W : World) (C : Calls) (e : Ex) (es : Exs) (env : Env)

theorem keys_insert (m : Map Nat) (k : Bytes) (v : Nat) :
    callMeth W C e (encKeys m) n!"insert" es [.str k, encKey v] env = .ofLib e env (.ok (optVal (mapGet (.str k) (m.map fun p => (.str p.1, encKey p.2)))) (.some (encKeys (m.insert k v)))) := by
  rw [encKeys, callMeth_map, encKeys, ← mapSet_map encKey]; rfl
theorem sets_insert (m : Map (List Bytes)) (k : Bytes) (v : List Bytes) :
    callMeth W C e (encSets m) n!"insert" es [.str k, .set (v.map .str)] env =
      .ofLib e env (.ok (optVal (mapGet (.str k) (m.map fun p => (.str p.1, .set (p.2.map .str))))) (.some (encSets (m.insert k v)))) := by
  rw [encSets, callMeth_map, encSets, ← mapSet_map (fun v : List Bytes => Val.set (v.map .str))]; rfl
theorem marks_insert (l : List Bytes) (k : Bytes) :
    callMeth W C e (encMarks l) n!"insert" es [.str k, .data n!"LeftRecursive" n!"False" []] env =
      .ofLib e env (.ok (optVal (mapGet (.str k) (l.map fun x => (.str x, .data n!"LeftRecursive" n!"False" [])))) (.some (encMarks (setInsert l k)))) := by
  rw [encMarks, callMeth_map, encMarks, ← mapSet_marks]; rfl
theorem marks_get (l : List Bytes) (k : Bytes) :
    callMeth W C e (encMarks l) n!"get" es [.str k] env = .ok (if l.contains k then .some (.data n!"LeftRecursive" n!"False" []) else .none) env := by
  rw [encMarks, callMeth_map]
  have : mapLib W.ord n!"get" (l.map fun x => (.str x, .data n!"LeftRecursive" n!"False" [])) [.str k] = .ok (optVal (mapGet (.str k) (l.map fun x => (.str x, .data n!"LeftRecursive" n!"False" [])))) .none := rfl
  rw [this, mapGet_marks, Res.ofLib_ok]
  cases l.contains k <;> rfl
theorem marks_len (l : List Bytes) : callMeth W C e (encMarks l) n!"len" es [] env = .ok (.num false l.length) env := by
  rw [encMarks, callMeth_map]
  simp [mapLib, Res.ofLib_ok]
theorem sets_get (m : Map (List Bytes)) (k : Bytes) :
    callMeth W C e (encSets m) n!"get" es [.str k] env = .ok (optVal ((m.get k).map fun v => .set (v.map .str))) env := by
  rw [encSets, callMeth_map, ← mapGet_map (fun v : List Bytes => Val.set (v.map .str))]; rfl
theorem sets_clone (m : Map (List Bytes)) : callMeth W C e (encSets m) n!"clone" es [] env = .ok (encSets m) env := rfl
theorem sets_values (m : Map (List Bytes)) : callMeth W C e (encSets m) n!"values" es [] env = .ok (.vec (W.ord (m.map fun p => .set (p.2.map .str)))) env := by
  rw [encSets, callMeth_map]
  simp [mapLib, Res.ofLib_ok, Function.comp_def]
theorem keys_keys (m : Map Nat) : callMeth W C e (encKeys m) n!"keys" es [] env = .ok (.vec (W.ord (m.map fun p => .str p.1))) env := by
  rw [encKeys, callMeth_map]
  simp [mapLib, Res.ofLib_ok, Function.comp_def]
end

section
variable (ord : List Val → List Val)
theorem set_insert (s : List Bytes) (x : Bytes) : setLib ord n!"insert" (s.map .str) [.str x] = .ok (.bool !(s.contains x)) (.some (.set ((setInsert s x).map .str))) := by
  have : setLib ord n!"insert" (s.map .str) [.str x] = .ok (.bool !(has (.str x) (s.map .str))) (.some (.set (if has (.str x) (s.map .str) then s.map .str else s.map .str ++ [.str x]))) := rfl
  rw [this, has_str, setInsert]
  cases s.contains x <;> simp
theorem set_len (s : List Bytes) : setLib ord n!"len" (s.map .str) [] = .ok (.num false s.length) .none := by simp [setLib]
theorem set_empty (s : List Bytes) : setLib ord n!"is_empty" (s.map .str) [] = .ok (.bool s.isEmpty) .none := by cases s <;> rfl
theorem set_clone (s : List Val) : setLib ord n!"clone" s [] = .ok (.set s) .none := rfl
theorem set_cloned (s : List Val) : setLib ord n!"cloned" s [] = .ok (.set s) .none := rfl
theorem set_collect (s : List Val) : setLib ord n!"collect" s [] = .ok (.set s) .none := rfl
theorem set_union (s u : List Bytes) (hu : u.Nodup) : setLib ord n!"union" (s.map .str) [.set (u.map .str)] = .ok (.set ((setUnion s u).map .str)) .none := by
  have : setLib ord n!"union" (s.map .str) [.set (u.map .str)] = .ok (.set (s.map .str ++ (u.map .str).filter fun w => !(has w (s.map .str)))) .none := rfl
  rw [this, union_filter s hu, List.map_append, List.filter_map]
  congr 4
  exact List.filter_congr fun x _ => by rw [Function.comp_apply, has_str]
end

theorem clone_lib (s : Bytes) : strLib n!"clone" s [] = .ok (.str s) .none := by simp [strLib]

theorem items_sets (ord : List Val → List Val) (m : Map (List Bytes)) : items ord (encSets m) = .some (ord (m.map pairVal)) := by
  simp [items, encSets, Function.comp_def]
  rfl

theorem index_keys (m : Map Nat) (k : Bytes) : indexVal (encKeys m) (.str k) = match m.get k with | some v => .ok (encKey v) .none | none => .panic := by
  have : indexVal (encKeys m) (.str k) = match mapGet (.str k) (m.map fun p => (.str p.1, encKey p.2)) with | .some v => .ok v .none | .none => .panic := rfl
  rw [this, mapGet_map]
  cases m.get k <;> rfl

/-! ## Names -/

variable (ord : List Val → List Val)

section
variable (r : Dsl)
theorem eq_ref : binop .eq (encRule r) (.data n!"Rules" n!"Var_Name_Ref" []) = .ok (.bool (decide (r = .r_var_name_ref))) .none := by cases r <;> rfl
theorem eq_rule : binop .eq (encRule r) (.data n!"Rules" n!"Rule" []) = .ok (.bool (decide (r = .r_rule))) .none := by cases r <;> rfl
theorem eq_rhs : binop .eq (encRule r) (.data n!"Rules" n!"RHS" []) = .ok (.bool (decide (r = .r_rhs))) .none := by cases r <;> rfl
theorem eq_optional : binop .eq (encRule r) (.data n!"Rules" n!"Optional" []) = .ok (.bool (decide (r = .r_optional))) .none := by cases r <;> rfl
theorem eq_star : binop .eq (encRule r) (.data n!"Rules" n!"Zero_Or_More" []) = .ok (.bool (decide (r = .r_zero_or_more))) .none := by cases r <;> rfl
theorem assert_rule : macroCall n!"debug_assert_eq" [encRule r, .data n!"Rules" n!"Rule" []] = if r = .r_rule then .ok unit .none else .panic := by cases r <;> rfl
theorem assert_lhs : macroCall n!"debug_assert_eq" [encRule r, .data n!"Rules" n!"LHS" []] = if r = .r_lhs then .ok unit .none else .panic := by cases r <;> rfl
theorem assert_decl : macroCall n!"debug_assert_eq" [encRule r, .data n!"Rules" n!"Var_Name_Decl" []] = if r = .r_var_name_decl then .ok unit .none else .panic := by cases r <;> rfl
theorem assert_ref : macroCall n!"debug_assert_eq" [encRule r, .data n!"Rules" n!"Var_Name_Ref" []] = if r = .r_var_name_ref then .ok unit .none else .panic := by cases r <;> rfl
end

theorem len_str_lib (s : Bytes) : strLib n!"len" s [] = .ok (.num false s.length) .none := by simp [strLib]
theorem sub_usize {a : Nat} (h : a ≠ 0) : binop .sub (.num false a) (.num false 1) = .ok (.num false (a - 1)) .none := by
  have : 1 ≤ a := by omega
  simp [binop, this]
theorem sub_usize_zero : binop .sub (.num false 0) (.num false 1) = .panic := by simp [binop]

variable (p : Publisher Dsl) {src : Bytes}

theorem call_ref_name (hs : ascii src = true) (nd : Node Dsl) {m : Nat} (hm : 2 ≤ m) :
    (callN (World.gen ord) m Ast.RuleCallTree.get_rule_ref_name [.str src, encNode nd]).Sim (getRuleRefName src nd) fun t => .ok (.str t) [.str src, encNode nd] := by
  rw [callN_succ rfl rfl (by omega), getRuleRefName]
  by_cases hr : nd.rule = .r_var_name_ref
  · rw [if_neg (by simpa using hr), innerString]
    have H := call_get_string ord hs nd (m := m - 1) (by omega)
    cases ho : Source.strSlice src nd.start nd.stop with
    | oof => trivial
    | panic q =>
      rw [ho] at H
      simp only [CRes.Sim] at H
      rs [Ast.RuleCallTree.get_rule_ref_name, fieldVal_rule, assert_ref, hr, callMeth_node, H]
      rfl
    | ok s =>
      rw [ho] at H
      simp only [CRes.Sim] at H
      simp only [Out.bind_ok]
      by_cases h0 : s.length = 0
      · rw [if_pos h0]
        rs [Ast.RuleCallTree.get_rule_ref_name, fieldVal_rule, assert_ref, hr, callMeth_node, H, len_str_lib, h0, sub_usize_zero]
        rfl
      · rw [if_neg h0]
        have hsl := slice_ascii (strSlice_ascii hs ho) 1 (s.length - 1) false false
        cases ho' : Source.strSlice s 1 (s.length - 1) with
        | oof => trivial
        | panic q =>
          rw [ho'] at hsl
          simp only at hsl
          rs [Ast.RuleCallTree.get_rule_ref_name, fieldVal_rule, assert_ref, hr, callMeth_node, H, len_str_lib, sub_usize h0, hsl]
          rfl
        | ok t =>
          rw [ho'] at hsl
          simp only at hsl
          rs [Ast.RuleCallTree.get_rule_ref_name, fieldVal_rule, assert_ref, hr, callMeth_node, H, len_str_lib, sub_usize h0, hsl, to_string_lib]
          rfl
  · rw [if_pos (by simpa using hr)]
    rs [Ast.RuleCallTree.get_rule_ref_name, fieldVal_rule, assert_ref, hr]
    rfl

theorem call_rhs_index (nd : Node Dsl) {m : Nat} (hm : 2 ≤ m) :
    (callN (World.gen ord) m Ast.RuleCallTree.get_rule_rhs_index [encNode nd]).Sim (getRuleRhsIndex nd) fun k => .ok (encKey k) [encNode nd] := by
  rw [callN_succ rfl rfl (by omega), getRuleRhsIndex]
  by_cases hr : nd.rule = .r_rule
  · rw [if_neg (by simpa using hr)]
    cases hk : nd.children[1]? with
    | none =>
      rs [Ast.RuleCallTree.get_rule_rhs_index, fieldVal_rule, assert_rule, hr, callMeth_node, call_get_children, index_children_none hk]
      rfl
    | some k =>
      rs [Ast.RuleCallTree.get_rule_rhs_index, fieldVal_rule, assert_rule, hr, callMeth_node, call_get_children, index_children hk]
      rfl
  · rw [if_pos (by simpa using hr)]
    rs [Ast.RuleCallTree.get_rule_rhs_index, fieldVal_rule, assert_rule, hr]
    rfl

theorem call_rules_name (hs : ascii src = true) (nd : Node Dsl) {m : Nat} (hm : 3 ≤ m) :
    (callN (World.gen ord) m Ast.RuleCallTree.get_rules_name [encTree p, .str src, encNode nd]).Sim (getRulesName p src nd)
      fun t => .ok (.str t) [encTree p, .str src, encNode nd] := by
  rw [callN_succ rfl rfl (by omega), getRulesName]
  by_cases hr : nd.rule = .r_rule
  · rw [if_neg (by simpa using hr)]
    cases hk : nd.children[0]? with
    | none =>
      rs [Ast.RuleCallTree.get_rules_name, fieldVal_rule, assert_rule, hr, callMeth_node, call_get_children, index_children_none hk]
      rfl
    | some k =>
      simp only [Out.ofOption, Out.bind_ok]
      rcases getNode_cases p k with ⟨ln, hl, _⟩ | ⟨q, hl⟩
      · rw [hl]
        simp only [Out.bind_ok]
        by_cases hlr : ln.rule = .r_lhs
        · rw [if_neg (by simpa using hlr)]
          cases hj : ln.children[0]? with
          | none =>
            rs [Ast.RuleCallTree.get_rules_name, fieldVal_rule, assert_rule, hr, callMeth_node, call_get_children, index_children hk, callMeth_pub, call_get_node ord hl, assert_lhs, hlr,
              index_children_none hj]
            rfl
          | some j =>
            simp only [Out.bind_ok]
            rcases getNode_cases p j with ⟨dn, hd, _⟩ | ⟨q, hd⟩
            · rw [hd]
              simp only [Out.bind_ok]
              by_cases hdr : dn.rule = .r_var_name_decl
              · rw [if_neg (by simpa using hdr), innerString]
                have H := call_get_string ord hs dn (m := m - 1) (by omega)
                cases ho : Source.strSlice src dn.start dn.stop with
                | oof => trivial
                | panic q =>
                  rw [ho] at H
                  simp only [CRes.Sim] at H
                  rs [Ast.RuleCallTree.get_rules_name, fieldVal_rule, assert_rule, hr, callMeth_node, call_get_children, index_children hk, callMeth_pub, call_get_node ord hl, assert_lhs, hlr,
                    index_children hj, call_get_node ord hd, assert_decl, hdr, H]
                  rfl
                | ok s =>
                  rw [ho] at H
                  simp only [CRes.Sim] at H
                  simp only [Out.bind_ok]
                  by_cases h0 : s.length = 0
                  · rw [if_pos h0]
                    rs [Ast.RuleCallTree.get_rules_name, fieldVal_rule, assert_rule, hr, callMeth_node, call_get_children, index_children hk, callMeth_pub, call_get_node ord hl, assert_lhs, hlr,
                      index_children hj, call_get_node ord hd, assert_decl, hdr, H, len_str_lib, h0, sub_usize_zero]
                    rfl
                  · rw [if_neg h0]
                    have hsl := slice_ascii (strSlice_ascii hs ho) 1 (s.length - 1) false false
                    cases ho' : Source.strSlice s 1 (s.length - 1) with
                    | oof => trivial
                    | panic q =>
                      rw [ho'] at hsl
                      simp only at hsl
                      rs [Ast.RuleCallTree.get_rules_name, fieldVal_rule, assert_rule, hr, callMeth_node, call_get_children, index_children hk, callMeth_pub, call_get_node ord hl, assert_lhs, hlr,
                        index_children hj, call_get_node ord hd, assert_decl, hdr, H, len_str_lib, sub_usize h0, hsl]
                      rfl
                    | ok t =>
                      rw [ho'] at hsl
                      simp only at hsl
                      rs [Ast.RuleCallTree.get_rules_name, fieldVal_rule, assert_rule, hr, callMeth_node, call_get_children, index_children hk, callMeth_pub, call_get_node ord hl, assert_lhs, hlr,
                        index_children hj, call_get_node ord hd, assert_decl, hdr, H, len_str_lib, sub_usize h0, hsl, to_string_lib]
                      rfl
              · rw [if_pos (by simpa using hdr)]
                rs [Ast.RuleCallTree.get_rules_name, fieldVal_rule, assert_rule, hr, callMeth_node, call_get_children, index_children hk, callMeth_pub, call_get_node ord hl, assert_lhs, hlr,
                  index_children hj, call_get_node ord hd, assert_decl, hdr]
                rfl
            · rw [hd]
              rs [Ast.RuleCallTree.get_rules_name, fieldVal_rule, assert_rule, hr, callMeth_node, call_get_children, index_children hk, callMeth_pub, call_get_node ord hl, assert_lhs, hlr,
                index_children hj, call_get_node_panic ord hd]
              rfl
        · rw [if_pos (by simpa using hlr)]
          rs [Ast.RuleCallTree.get_rules_name, fieldVal_rule, assert_rule, hr, callMeth_node, call_get_children, index_children hk, callMeth_pub, call_get_node ord hl, assert_lhs, hlr]
          rfl
      · rw [hl]
        rs [Ast.RuleCallTree.get_rules_name, fieldVal_rule, assert_rule, hr, callMeth_node, call_get_children, index_children hk, callMeth_pub, call_get_node_panic ord hl]
        rfl
  · rw [if_pos (by simpa using hr)]
    rs [Ast.RuleCallTree.get_rules_name, fieldVal_rule, assert_rule, hr]
    rfl

end PP.Rs
