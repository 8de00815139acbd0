import Verif.Lemmas.Rs.Tree

/-! # generator/src/binary_wo.rs, executed: `to_string` -/
namespace PP.Rs
open PP.Gen
variable (ord : List Val → List Val)

/-- What a call of `to_string` returns. -/
def ToString (t : BTree) (i : Nat) (o : Out (List Line)) (r : CRes) : Prop :=
  match o with
  | .ok ls => r = .ok (.vec (ls.map fun l => .str l.text)) [encBTree t, encKey i]
  | .panic _ => r = .panic
  | .oof => True

theorem call_to_string {t : BTree} (ht : TreeOk t) (n i m : Nat) (hm : 2 * n + 5 ≤ m) :
    ToString t i (t.toLines n i) (callN (World.gen ord) m Ast.BinaryTreeWO.to_string [encBTree t, encKey i]) := by
  rw [BTree.toLines]
  cases hi : t[i]? with
  | none =>
    have : callN (World.gen ord) (m - 1) Ast.BinaryTreeWO.to_string_kernel [encBTree t, .vec [], encKey i] = .panic := by
      rw [callN_succ rfl rfl (by omega)]
      rs [Ast.BinaryTreeWO.to_string_kernel, fieldVal_nodes, call_usize_from, index_nodes_none hi]
    rw [callN_succ rfl rfl (by omega)]
    rs [Ast.BinaryTreeWO.to_string, callMeth_tree, this]
    rfl
  | some nd =>
    obtain ⟨ref, l, r⟩ := nd
    simp only
    by_cases he : ref = .exec
    · subst he
      simp only
      cases hl : l with
      | none =>
        have : callN (World.gen ord) (m - 1) Ast.BinaryTreeWO.to_string_kernel [encBTree t, .vec [], encKey i] = .panic := by
          rw [callN_succ rfl rfl (by omega)]
          rs [Ast.BinaryTreeWO.to_string_kernel, fieldVal_nodes, fieldVal_ref, fieldVal_lhs, call_usize_from, index_nodes hi, encRef, hl, encOpt_none, optLib]
        rw [callN_succ rfl rfl (by omega)]
        rs [Ast.BinaryTreeWO.to_string, callMeth_tree, this]
        rfl
      | some j =>
        have H := call_match_ref ord ht n j (m - 1 - 1) [] (by omega)
        simp only [expectKey, Out.ofOption, Out.bind, Bind.bind]
        cases ho : matchRef t n j with
        | oof => trivial
        | panic p =>
          rw [ho] at H
          simp only [MatchRef] at H
          have : callN (World.gen ord) (m - 1) Ast.BinaryTreeWO.to_string_kernel [encBTree t, .vec [], encKey i] = .panic := by
            rw [callN_succ rfl rfl (by omega)]
            rs [Ast.BinaryTreeWO.to_string_kernel, fieldVal_nodes, fieldVal_ref, fieldVal_lhs, call_usize_from, index_nodes hi, encRef, hl, encOpt_some, optLib, callMeth_tree, H]
          rw [callN_succ rfl rfl (by omega)]
          rs [Ast.BinaryTreeWO.to_string, callMeth_tree, this]
          rfl
        | ok ls =>
          rw [ho] at H
          simp only [MatchRef] at H
          have : callN (World.gen ord) (m - 1) Ast.BinaryTreeWO.to_string_kernel [encBTree t, .vec [], encKey i] =
              .ok (encKey j) [encBTree t, .vec ((ls ++ [Line.exec j]).map fun l => .str l.text), encKey i] := by
            rw [callN_succ rfl rfl (by omega)]
            rs [Ast.BinaryTreeWO.to_string_kernel, fieldVal_nodes, fieldVal_ref, fieldVal_lhs, call_usize_from, index_nodes hi, encRef, hl, encOpt_some, optLib, callMeth_tree, H,
              render, disp, vecLib, List.map_append]
            simp only [decimal_eq, Line.text, List.append_assoc]
          rw [callN_succ rfl rfl (by omega)]
          rs [Ast.BinaryTreeWO.to_string, callMeth_tree, this]
          rfl
    · have : callN (World.gen ord) (m - 1) Ast.BinaryTreeWO.to_string_kernel [encBTree t, .vec [], encKey i] = .panic := by
        rw [callN_succ rfl rfl (by omega)]
        cases ref <;> first | exact absurd rfl he | rs [Ast.BinaryTreeWO.to_string_kernel, fieldVal_nodes, fieldVal_ref, call_usize_from, index_nodes hi, encRef, macroCall]
      have R : callN (World.gen ord) m Ast.BinaryTreeWO.to_string [encBTree t, encKey i] = .panic := by
        rw [callN_succ rfl rfl (by omega)]
        rs [Ast.BinaryTreeWO.to_string, callMeth_tree, this]
      cases ref <;> first | exact absurd rfl he | exact R

end PP.Rs
