import Verif.Lemmas.Rs.Sim

/-! # generator/src/symbol_table.rs, executed -/
namespace PP.Rs
open PP.Gen
variable (ord : List Val → List Val)

/-! ## Sorting, repetitions and maps -/

theorem strs_map (l : List Bytes) : strs (l.map .str) = .some l := by
  induction l with
  | nil => rfl
  | cons a l ih => simp [strs, ih]

theorem dedup_go (a : Bytes) (l : List Bytes) : dedup (a :: l) = Gen.dedup.go a l := by
  induction l generalizing a with
  | nil => rw [dedup]; rfl
  | cons b l ih =>
    rw [dedup, Gen.dedup.go]
    by_cases h : a = b
    · subst h
      simp only [if_true]
      exact ih a
    · rw [if_neg h, if_neg (Ne.symm h), ih]

theorem dedup_eq (l : List Bytes) : dedup l = Gen.dedup l := by
  cases l with
  | nil => rw [dedup]; rfl
  | cons a l => exact dedup_go a l

theorem valEq_str (a b : Bytes) : valEq (.str a) (.str b) = .some (a == b) := rfl

theorem mapSet_insert (m : Map Unit) (k : Bytes) :
    mapSet (.str k) (.str []) (m.map fun p => (.str p.1, .str [])) = (m.insert k ()).map fun p => (Val.str p.1, Val.str []) := by
  induction m with
  | nil => rfl
  | cons p m ih =>
    rw [List.map_cons, mapSet, Map.insert, valEq_str]
    by_cases h : p.1 = k
    · simp [h]
    · have : (k == p.1) = false := by simpa using fun e => h e.symm
      simp [h, this, ih]

theorem mapGet_get (m : Map Unit) (k : Bytes) :
    mapGet (.str k) (m.map fun p => (.str p.1, .str [])) = (m.get k).map fun _ => Val.str [] := by
  induction m with
  | nil => rfl
  | cons p m ih =>
    rw [List.map_cons, mapGet, valEq_str]
    by_cases h : p.1 = k
    · simp [h, Map.get]
    · have : (k == p.1) = false := by simpa using fun e => h e.symm
      simp [Map.get] at ih
      simp [h, this, Map.get, ih]

/-! ## The table -/

theorem callMeth_sym (W C e src t m es vs env) : callMeth W C e (encSym src t) m es vs env =
    (match W.fn? (.some n!"SymbolTable") m with | .some f => .ofCall f.muts (.cons e es) env (C.fn f (encSym src t :: vs)) | .none => .stuck) := rfl

theorem call_is_inline (src : Bytes) (t : SymbolTable) (name : Bytes) {n : Nat} (hn : 1 ≤ n) :
    callN (World.gen ord) n Ast.SymbolTable.check_symbol_is_inline [encSym src t, .str name] = .ok (.bool (t.isInline name)) [encSym src t, .str name] := by
  rw [callN_succ rfl rfl (by omega)]
  cases h : t.inlined.get name <;>
  rs [Ast.SymbolTable.check_symbol_is_inline, encSym, mapLib, mapGet_get, h, optVal, optLib, SymbolTable.isInline, Option.isSome_some, Option.isSome_none]

theorem call_get_names (src : Bytes) (t : SymbolTable) {n : Nat} (hn : 1 ≤ n) :
    callN (World.gen ord) n Ast.SymbolTable.get_names [encSym src t] = .ok (.vec (t.names.map .str)) [encSym src t] := by
  rw [callN_succ rfl rfl (by omega)]
  rs [Ast.SymbolTable.get_names, encSym]

theorem call_dup (src : Bytes) (t : SymbolTable) {n : Nat} (hn : 1 ≤ n) :
    callN (World.gen ord) n Ast.SymbolTable.run_duplication_check [encSym src t] = .ok unit [encSym src t.runDuplicationCheck] := by
  rw [callN_succ rfl rfl (by omega)]
  rs [Ast.SymbolTable.run_duplication_check, encSym, vecLib, strs_map, dedup_eq, SymbolTable.runDuplicationCheck, sortNames]

variable (p : Publisher Dsl) (src : Bytes)

theorem call_semantic (t : SymbolTable) (parent : Nat) (name : Bytes) (index : Nat) {n : Nat} (hn : 4 ≤ n) :
    (callN (World.gen ord) n Ast.SymbolTable.check_semantic_instructions [encSym src t, encKey parent, .str name, encTree p, encKey index]).Sim
      (checkSemanticInstructions p t parent name index) fun t => .ok unit [encSym src t, encKey parent, .str name, encTree p, encKey index] := by
  rw [callN_succ rfl rfl (by omega), checkSemanticInstructions]
  rcases getNode_cases p index with ⟨nd, h, _⟩ | ⟨q, h⟩
  · rcases getNode_cases p parent with ⟨pn, h', _⟩ | ⟨q, h'⟩
    · rs [Ast.SymbolTable.check_semantic_instructions, callMeth_pub, call_get_node ord h, call_get_node ord h', callMeth_node, call_get_children, items]
      rw [h, h']
      simp only [Out.bind_ok]
      generalize hL : forN _ _ _ = L
      generalize hO : (List.foldlM _ _ _ : Out _) = O
      have R : Loop L O (fun _ => True) fun t => [(n!"node", encNode pn), (n!"_lhs", encNode nd), (n!"self", encSym src t), (n!"parent_index", encKey parent),
          (n!"name", .str name), (n!"tree", encTree p), (n!"index", encKey index)] := by
        rw [← hL, ← hO]
        refine forN_loop rfl trivial fun b _ t _ => ?_
        rcases getNode_cases p b with ⟨cn, hc, _⟩ | ⟨q, hc⟩
        · rw [hc]
          simp only [Out.bind_ok]
          by_cases hr : cn.rule = .r_semantic_instructions
          · rw [if_pos hr]
            cases hk : cn.children[0]? with
            | none =>
              rs [inScope, callMeth_pub, call_get_node ord hc, fieldVal_rule, eq_sem, hr, decide_true, callMeth_node, call_get_children, index_children_none hk]
              rfl
            | some j =>
              simp only [Out.ofOption, Out.bind_ok]
              rcases getNode_cases p j with ⟨sn, hs, _⟩ | ⟨q, hs⟩
              · rw [hs]
                simp only [Out.bind_ok]
                by_cases hi : sn.rule = .r_inline
                · rw [if_pos hi]
                  refine .ok (v := unit) ?_ trivial
                  rs [inScope, callMeth_pub, call_get_node ord hc, call_get_node ord hs, fieldVal_rule, eq_sem, eq_inline, hr, hi, decide_true, callMeth_node, call_get_children, index_children hk,
                    encSym, to_string_lib, mapLib, show utf8Of "" = [] from rfl, mapSet_insert, unit]
                · rw [if_neg hi]
                  refine .ok (v := unit) ?_ trivial
                  rs [inScope, callMeth_pub, call_get_node ord hc, call_get_node ord hs, fieldVal_rule, eq_sem, eq_inline, hr, hi, decide_true, decide_false, callMeth_node, call_get_children, index_children hk, unit]
              · rs [inScope, callMeth_pub, call_get_node ord hc, call_get_node_panic ord hs, fieldVal_rule, eq_sem, hr, decide_true, callMeth_node, call_get_children, index_children hk]
                rw [hs]
                rfl
          · rw [if_neg hr]
            refine .ok (v := unit) ?_ trivial
            rs [inScope, callMeth_pub, call_get_node ord hc, fieldVal_rule, eq_sem, hr, decide_false, unit]
        · rw [hc]
          rs [inScope, callMeth_pub, call_get_node_panic ord hc]
          rfl
      clear hL hO
      cases O with
      | oof => trivial
      | panic q => obtain rfl := R; rfl
      | ok t => obtain ⟨rfl, -⟩ := R; rfl
    · rs [Ast.SymbolTable.check_semantic_instructions, callMeth_pub, call_get_node ord h, call_get_node_panic ord h']
      rw [h, h']
      rfl
  · rs [Ast.SymbolTable.check_semantic_instructions, callMeth_pub, call_get_node_panic ord h]
    rw [h]
    rfl

theorem add_start {nd : Node Dsl} {k : Nat} (h : nd.start + 2 < 4294967296) (hk : k ≤ 2) : binop .add (.num true nd.start) (.num false k) = .ok (.num true (nd.start + k)) .none := by
  have : nd.start + k < 4294967296 := by omega
  simp [binop, numLimit, this]
theorem sub_one {a : Nat} (h : a ≠ 0) : binop .sub (.num true a) (.num false 1) = .ok (.num true (a - 1)) .none := by
  have : 1 ≤ a := by omega
  simp [binop, this]
theorem sub_one_panic : binop .sub (.num true 0) (.num false 1) = .panic := by simp [binop]
theorem cast_usize (u n) : cast (.num u n) n!"usize" = .some (.num false n) := rfl

set_option hygiene false in
/-- Going on after the end of a loop. -/
macro "loop_end" : tactic => `(tactic| (cases O with
  | oof => trivial
  | panic q => obtain rfl := R; rfl
  | ok t => obtain ⟨rfl, -⟩ := R; rfl))

variable {p src}

theorem call_kernel {B : Nat} (hf : TreeFits p B) (hs : ascii src = true) (n : Nat) : ∀ t parent index m, n + B + 6 ≤ m →
    (callN (World.gen ord) m Ast.SymbolTable.create_symbol_table_from_tree_kernel [encSym src t, encKey parent, encTree p, encKey index]).Sim
      (symbolTableKernel p src n t parent index) fun t => .ok unit [encSym src t, encKey parent, encTree p, encKey index] := by
  induction n with
  | zero => intros; trivial
  | succ n ih =>
    intro t parent index m hm
    rw [callN_succ rfl rfl (by omega), symbolTableKernel]
    rcases getNode_cases p index with ⟨nd, h, hmem⟩ | ⟨q, h⟩
    · rw [h]
      simp only [Out.bind_ok]
      have hp := hf.pos nd hmem
      have hw := hf.width nd hmem
      have loop : ∀ t, Loop (loopN (fun env => ev (World.gen ord) ⟨callN (World.gen ord) (m - 1), cloN (World.gen ord) (m - 1)⟩ (m - 1)
          (.block (.exprS (.ite (.bin .ge (.path [n!"counter"]) (.meth (.meth (.path [n!"node"]) n!"get_children" .nil) n!"len"
      .nil)) (.block (.exprS .brk
    .nil)) (.tuple .nil))
    (.letS (.var n!"child_index") (.index (.meth (.path [n!"node"]) n!"get_children" .nil) (.path [n!"counter"]))
    (.exprS (.meth (.path [n!"self"]) n!"create_symbol_table_from_tree_kernel" (.cons (.path [n!"index"]) (.cons (.path [n!"tree"]) (.cons
      (.path [n!"child_index"]) .nil))))
    (.exprS (.addAssign (.path [n!"counter"]) (.int 1))
    .nil))))) env) (m - 1) [(n!"counter", .num false 0), (n!"node", encNode nd), (n!"self", encSym src t), (n!"parent_index", encKey parent), (n!"tree", encTree p), (n!"index", encKey index)])
          (nd.children.foldlM (fun t childIndex => symbolTableKernel p src n t index childIndex) t) (fun _ => True) fun t =>
            [(n!"counter", .num false nd.children.length), (n!"node", encNode nd), (n!"self", encSym src t), (n!"parent_index", encKey parent), (n!"tree", encTree p), (n!"index", encKey index)] := by
        intro t
        refine loopN_loop (E := fun c t => [(n!"counter", .num false c), (n!"node", encNode nd), (n!"self", encSym src t), (n!"parent_index", encKey parent), (n!"tree", encTree p),
          (n!"index", encKey index)]) rfl trivial (by omega) (fun t => ?_) fun c b hb hc t _ => ?_
        · rs [callMeth_node, call_get_children, vecLib, List.length_map, binop, Nat.le_refl, decide_true]
        · have hcl : decide (nd.children.length ≤ c) = false := by simpa using hc
          have H := ih t index b (m - 1) (by omega)
          have hc1 : c + 1 < numLimit false := by have := hf.bound; simp [numLimit]; omega
          cases ho : symbolTableKernel p src n t index b with
          | oof => trivial
          | panic q =>
            rw [ho] at H
            simp only [CRes.Sim] at H
            refine .panic ?_
            rs [callMeth_node, call_get_children, vecLib, List.length_map, binop, hcl, index_children hb, callMeth_sym, H]
          | ok t' =>
            rw [ho] at H
            simp only [CRes.Sim] at H
            refine .ok (v := unit) ?_ trivial
            rs [callMeth_node, call_get_children, vecLib, List.length_map, binop, hcl, index_children hb, callMeth_sym, H, addTo, hc1, Bool.or_false]
      by_cases hr : nd.rule = .r_var_name_decl
      · rw [if_pos hr]
        by_cases hres : nd.result = true
        · rw [hres]
          simp only [Bool.not_true, Bool.false_eq_true, if_false]
          by_cases h0 : nd.stop = 0
          · rw [if_pos h0]
            rs [Ast.SymbolTable.create_symbol_table_from_tree_kernel, callMeth_pub, call_get_node ord h, fieldVal_rule, eq_decl, hr, decide_true, fieldVal_result, hres,
              fieldVal_start, fieldVal_stop, add_start hp, cast_usize, h0, sub_one_panic, encSym]
            rfl
          · rw [if_neg h0]
            have hsl := slice_ascii hs (nd.start + 1) (nd.stop - 1) false false
            cases ho : Source.strSlice src (nd.start + 1) (nd.stop - 1) with
            | oof => trivial
            | panic q =>
              rw [ho] at hsl
              simp only at hsl
              rs [Ast.SymbolTable.create_symbol_table_from_tree_kernel, callMeth_pub, call_get_node ord h, fieldVal_rule, eq_decl, hr, decide_true, fieldVal_result, hres,
                fieldVal_start, fieldVal_stop, add_start hp, cast_usize, sub_one h0, encSym, hsl]
              rfl
            | ok name =>
              rw [ho] at hsl
              simp only at hsl
              simp only [Out.bind_ok]
              have H := call_semantic ord p src { t with names := t.names ++ [name] } parent name index (n := m - 1) (by omega)
              cases ho : checkSemanticInstructions p { t with names := t.names ++ [name] } parent name index with
              | oof => trivial
              | panic q =>
                rw [ho] at H
                simp only [CRes.Sim, encSym, List.map_append, List.map_cons, List.map_nil] at H
                rs [Ast.SymbolTable.create_symbol_table_from_tree_kernel, callMeth_pub, call_get_node ord h, fieldVal_rule, eq_decl, hr, decide_true, fieldVal_result, hres,
                  fieldVal_start, fieldVal_stop, add_start hp, cast_usize, sub_one h0, encSym, hsl, to_string_lib, vecLib, H]
                rfl
              | ok t' =>
                rw [ho] at H
                simp only [CRes.Sim, encSym, List.map_append, List.map_cons, List.map_nil] at H
                have R := loop t'
                simp only [encSym] at R
                rs [Ast.SymbolTable.create_symbol_table_from_tree_kernel, callMeth_pub, call_get_node ord h, fieldVal_rule, eq_decl, hr, decide_true, fieldVal_result, hres,
                  fieldVal_start, fieldVal_stop, add_start hp, cast_usize, sub_one h0, encSym, hsl, to_string_lib, vecLib, H, Out.bind_ok]
                generalize loopN _ _ _ = L at R ⊢
                generalize (List.foldlM _ _ _ : Out _) = O at R ⊢
                loop_end
        · have hres : nd.result = false := by simpa using hres
          rw [hres]
          rs [Ast.SymbolTable.create_symbol_table_from_tree_kernel, callMeth_pub, call_get_node ord h, fieldVal_rule, eq_decl, hr, decide_true, fieldVal_result, hres, macroCall]
          rfl
      · rw [if_neg hr]
        rs [Ast.SymbolTable.create_symbol_table_from_tree_kernel, callMeth_pub, call_get_node ord h, fieldVal_rule, eq_decl, hr, decide_false, Out.bind_ok]
        have R := loop t
        generalize loopN _ _ _ = L at R ⊢
        generalize (List.foldlM _ _ _ : Out _) = O at R ⊢
        loop_end
    · rw [h]
      rs [Ast.SymbolTable.create_symbol_table_from_tree_kernel, callMeth_pub, call_get_node_panic ord h]
      rfl

theorem call_create {B : Nat} (hf : TreeFits p B) (hs : ascii src = true) (n : Nat) (t : SymbolTable) (m : Nat) (hm : n + B + 7 ≤ m) :
    (callN (World.gen ord) m Ast.SymbolTable.create_symbol_table_from_tree [encSym src t, encTree p]).Sim
      (createSymbolTable p src n t) fun t => .ok unit [encSym src t, encTree p] := by
  rw [callN_succ rfl rfl (by omega), createSymbolTable]
  rcases getNode_cases p 0 with ⟨nd, h, hmem⟩ | ⟨q, h⟩
  · rw [h]
    simp only [Out.bind_ok]
    have hw := hf.width nd hmem
    by_cases hr : nd.rule = .r_grammar
    · rw [if_neg (by simpa using hr)]
      rs [Ast.SymbolTable.create_symbol_table_from_tree, callMeth_pub, key_fold, call_get_node ord h, fieldVal_rule, ne_grammar, hr, ne_eq, not_true, decide_false]
      generalize hL : loopN _ _ _ = L
      generalize hO : (List.foldlM _ _ _ : Out _) = O
      have R : Loop L O (fun _ => True) fun t => [(n!"counter", .num false nd.children.length), (n!"node", encNode nd), (n!"self", encSym src t), (n!"tree", encTree p)] := by
        rw [← hL, ← hO]
        refine loopN_loop (E := fun c t => [(n!"counter", .num false c), (n!"node", encNode nd), (n!"self", encSym src t), (n!"tree", encTree p)]) rfl trivial (by omega) (fun t => ?_)
          fun c b hb hc t _ => ?_
        · rs [callMeth_node, call_get_children, vecLib, List.length_map, binop, Nat.le_refl, decide_true]
        · have hcl : decide (nd.children.length ≤ c) = false := by simpa using hc
          have H := call_kernel ord hf hs n t b b (m - 1) (by omega)
          have hc1 : c + 1 < numLimit false := by have := hf.bound; simp [numLimit]; omega
          cases ho : symbolTableKernel p src n t b b with
          | oof => trivial
          | panic q =>
            rw [ho] at H
            simp only [CRes.Sim] at H
            refine .panic ?_
            rs [callMeth_node, call_get_children, vecLib, List.length_map, binop, hcl, index_children hb, callMeth_sym, H]
          | ok t' =>
            rw [ho] at H
            simp only [CRes.Sim] at H
            refine .ok (v := unit) ?_ trivial
            rs [callMeth_node, call_get_children, vecLib, List.length_map, binop, hcl, index_children hb, callMeth_sym, H, addTo, hc1, Bool.or_false]
      clear hL hO
      loop_end
    · rw [if_pos (by simpa using hr)]
      rs [Ast.SymbolTable.create_symbol_table_from_tree, callMeth_pub, key_fold, call_get_node ord h, fieldVal_rule, ne_grammar, hr, ne_eq, not_false_iff, decide_true, macroCall]
      rfl
  · rw [h]
    rs [Ast.SymbolTable.create_symbol_table_from_tree, callMeth_pub, key_fold, call_get_node_panic ord h]
    rfl

theorem call_symbols {B : Nat} (hf : TreeFits p B) (hs : ascii src = true) (n : Nat) (m : Nat) (hm : n + B + 8 ≤ m) :
    (callN (World.gen ord) m Ast.SymbolTable.new [encTree p, .str src]).Sim (SymbolTable.new p src n) fun t => .ok (encSym src t) [encTree p, .str src] := by
  rw [callN_succ rfl rfl (by omega), SymbolTable.new]
  have H := call_create ord hf hs n ⟨[], []⟩ (m - 1) (by omega)
  cases ho : createSymbolTable p src n ⟨[], []⟩ with
  | oof => trivial
  | panic q =>
    rw [ho] at H
    simp only [CRes.Sim, encSym, List.map_nil] at H
    rs [Ast.SymbolTable.new, macroCall, H]
    rfl
  | ok t =>
    rw [ho] at H
    simp only [CRes.Sim] at H
    rw [encSym] at H
    simp only [List.map_nil] at H
    rs [Ast.SymbolTable.new, macroCall, H, callMeth_sym, call_dup]
    rfl

end PP.Rs
