import Verif.Lemmas.Rs.Basic

/-! # generator/src/binary_wo.rs, executed -/
namespace PP.Rs
open PP.Gen
variable (ord : List Val → List Val)

theorem index_nodes {t : BTree} {i nd} (h : t[i]? = .some nd) (w) : indexVal (.vec (t.map encBNode)) (.num w i) = .ok (encBNode nd) .none := by
  simp [indexVal, h]
theorem index_nodes_none {t : BTree} {i} (h : t[i]? = none) (w) : indexVal (.vec (t.map encBNode)) (.num w i) = .panic := by
  simp [indexVal] at *
  simp [h]

theorem fieldVal_nodes (t : BTree) : fieldVal (encBTree t) n!"nodes" = .some (.vec (t.map encBNode)) := rfl
theorem fieldVal_ref (nd : BinaryNode) : fieldVal (encBNode nd) n!"reference" = .some (encRef nd.reference) := rfl
theorem fieldVal_lhs (nd : BinaryNode) : fieldVal (encBNode nd) n!"lhs" = .some (encOpt nd.lhs) := rfl
theorem fieldVal_rhs (nd : BinaryNode) : fieldVal (encBNode nd) n!"rhs" = .some (encOpt nd.rhs) := rfl
theorem encOpt_some (k) : encOpt (some k) = .some (encKey k) := rfl
theorem encOpt_none : encOpt none = .none := rfl
theorem callMeth_tree (W C e t m es vs env) : callMeth W C e (encBTree t) m es vs env =
    (match W.fn? (.some n!"BinaryTreeWO") m with | .some f => .ofCall f.muts (.cons e es) env (C.fn f (encBTree t :: vs)) | .none => .stuck) := rfl

/-- The body of the closure `rule_str`. -/
abbrev capEx : Ex :=
  .block (.letS (.var n!"start_char") (.meth (.meth (.meth (.path [n!"rule_name"]) n!"chars" .nil)
      n!"nth" (.cons (.int 0) .nil)) n!"expect" (.cons (.str (utf8Of "Should exist")) .nil))
      (.letS (.var n!"start_char") (.meth (.meth (.path [n!"start_char"]) n!"to_uppercase" .nil) n!"to_string" .nil)
      (.letS (.var n!"rule_name") (.bin .add (.path [n!"start_char"]) (.field (.meth (.meth (.path [n!"rule_name"]) n!"split_at_checked" (.cons (.int 1) .nil)) n!"unwrap" .nil) 1))
      (.tail (.path [n!"rule_name"])))))

theorem upper_lib {c : UInt8} (h : c < 128) : charLib n!"to_uppercase" c.toNat [] = .ok (.str [upperByte c]) .none := by
  have h' : c.toNat < 128 := h
  simp only [charLib, if_true, h']
  congr 3
  by_cases hc : 97 ≤ c ∧ c ≤ 122
  · have h1 : 97 ≤ c.toNat := hc.1
    have h2 : c.toNat ≤ 122 := hc.2
    simp only [upperByte, hc, h1, h2, and_self, if_true]
    apply UInt8.toNat.inj
    rw [UInt8.toNat_sub_of_le _ _ (by exact Nat.le_trans (by decide) h1)]
    simp
    omega
  · have h1 : ¬ (97 ≤ c.toNat ∧ c.toNat ≤ 122) := hc
    simp only [upperByte, hc, h1, if_false, UInt8.ofNat_toNat]

theorem ascii_cons {c : UInt8} {cs : Bytes} : ascii (c :: cs) = true ↔ c < 128 ∧ ascii cs = true := by simp [ascii]

theorem split_lib {c : UInt8} {cs : Bytes} (h : ascii cs) : strLib n!"split_at_checked" (c :: cs) [.num false 1] = .ok (.some (.tuple [.str [c], .str cs])) .none := by
  have : boundary (c :: cs) 1 = true := by
    cases cs with
    | nil => rfl
    | cons d ds => simp [boundary, (ascii_cons.1 h).1]
  simp [strLib, this]

section
variable (C : Calls) (k : Nat)

theorem ev_cap_nil (env : Env) : ev (World.gen ord) C k capEx ((n!"rule_name", .str []) :: env) = .panic := by
  rs [capEx, strLib, ascii, List.all_nil, Bool.not_true, Bool.false_eq_true, vecLib, List.getElem?_nil, optLib]

theorem ev_cap {c : UInt8} {cs : Bytes} (h : ascii (c :: cs)) (env : Env) :
    ev (World.gen ord) C k capEx ((n!"rule_name", .str (c :: cs)) :: env) = .ok (.str (upperByte c :: cs)) ((n!"rule_name", .str (c :: cs)) :: env) := by
  have ⟨h1, h2⟩ := ascii_cons.1 h
  have hs (s : Bytes) : strLib n!"to_string" s [] = .ok (.str s) .none := by simp [strLib]
  have hc : strLib n!"chars" (c :: cs) [] = .ok (.vec ((c :: cs).map fun c => .char c.toNat)) .none := by simp [strLib, h]
  rs [capEx, hc, vecLib, List.getElem?_cons_zero, optLib, upper_lib h1, hs, split_lib h2, List.getElem?_cons_succ, binop]

end

theorem clo_cap_nil (env : Env) {n : Nat} (hn : 1 ≤ n) : cloN (World.gen ord) n [n!"rule_name"] capEx env [.str []] = .panic := by
  obtain ⟨m, rfl⟩ : ∃ m, n = m + 1 := ⟨n - 1, by omega⟩
  rw [cloN]
  simp only [List.length_cons, List.length_nil, if_true, List.zip_cons_cons, List.zip_nil_left, List.cons_append, List.nil_append, ev_cap_nil]
  rfl

theorem clo_cap {c : UInt8} {cs : Bytes} (h : ascii (c :: cs)) (env : Env) {n : Nat} (hn : 1 ≤ n) :
    cloN (World.gen ord) n [n!"rule_name"] capEx env [.str (c :: cs)] = .ok (.str (upperByte c :: cs)) (.str (c :: cs) :: env.map (·.2)) := by
  obtain ⟨m, rfl⟩ : ∃ m, n = m + 1 := ⟨n - 1, by omega⟩
  rw [cloN]
  simp only [List.length_cons, List.length_nil, if_true, List.zip_cons_cons, List.zip_nil_left, List.cons_append, List.nil_append, ev_cap ord _ _ h]
  rfl

theorem call_terminal {t : BTree} {i : Nat} {c l r} (h : t[i]? = .some ⟨.terminal c, l, r⟩) (S : List Val) {n : Nat} (hn : 2 ≤ n) :
    callN (World.gen ord) n Ast.BinaryTreeWO.terminal [encBTree t, .vec S, encKey i] =
      .ok (encKey i) [encBTree t, .vec (S ++ [.str (Line.text (.terminal i c))]), encKey i] := by
  rw [callN_succ rfl rfl (by omega)]
  rs [Ast.BinaryTreeWO.terminal, fieldVal_nodes, fieldVal_ref, call_usize_from, index_nodes h, encRef, render, dbg, disp, Option.map_some, vecLib]
  simp only [decimal_eq, Line.text, List.append_assoc]


theorem call_var_name {t : BTree} {i : Nat} {c l r} (h : t[i]? = .some ⟨.varName c, l, r⟩) (hc : ascii c) (S : List Val) {n : Nat} (hn : 2 ≤ n) :
    callN (World.gen ord) n Ast.BinaryTreeWO.var_name [encBTree t, .vec S, encKey i] =
      (match capitalise c with
      | .ok v => .ok (encKey i) [encBTree t, .vec (S ++ [.str (Line.text (.varName i v (lower c)))]), encKey i]
      | _ => .panic) := by
  rw [callN_succ rfl rfl (by omega)]
  have hl : strLib n!"to_lowercase" c [] = .ok (.str (lower c)) .none := by simp [strLib, hc, lower, lowerByte]
  have hs (s : Bytes) : strLib n!"to_string" s [] = .ok (.str s) .none := by simp [strLib]
  cases c with
  | nil => rs [Ast.BinaryTreeWO.var_name, fieldVal_nodes, fieldVal_ref, call_usize_from, index_nodes h, encRef, render, dbg, disp, Option.map_some, vecLib, hs, clo_cap_nil, capitalise]
  | cons c cs =>
  rs [Ast.BinaryTreeWO.var_name, fieldVal_nodes, fieldVal_ref, call_usize_from, index_nodes h, encRef, render, dbg, disp, Option.map_some, vecLib, hs, hl, clo_cap ord hc, capitalise]
  simp only [decimal_eq, Line.text, List.append_assoc, List.cons_append]

theorem call_inlined {t : BTree} {i : Nat} {c l r} (h : t[i]? = .some ⟨.inlinedRule c, l, r⟩) (hc : ascii c) (S : List Val) {n : Nat} (hn : 2 ≤ n) :
    callN (World.gen ord) n Ast.BinaryTreeWO.inlined_rule [encBTree t, .vec S, encKey i] =
      .ok (encKey i) [encBTree t, .vec (S ++ [.str (Line.text (.inlined i (lower c)))]), encKey i] := by
  rw [callN_succ rfl rfl (by omega)]
  have hl : strLib n!"to_lowercase" c [] = .ok (.str (lower c)) .none := by simp [strLib, hc, lower, lowerByte]
  rs [Ast.BinaryTreeWO.inlined_rule, fieldVal_nodes, fieldVal_ref, call_usize_from, index_nodes h, encRef, render, dbg, disp, Option.map_some, vecLib, hl]
  simp only [decimal_eq, Line.text, List.append_assoc]

theorem call_match_range {t : BTree} {i : Nat} {a b l r} (h : t[i]? = .some ⟨.matchRange a b, l, r⟩) (S : List Val) {n : Nat} (hn : 2 ≤ n) :
    callN (World.gen ord) n Ast.BinaryTreeWO.ordered_choice_match_range [encBTree t, .vec S, encKey i] =
      .ok (encKey i) [encBTree t, .vec (S ++ [.str (Line.text (.matchRange i a b))]), encKey i] := by
  rw [callN_succ rfl rfl (by omega)]
  rs [Ast.BinaryTreeWO.ordered_choice_match_range, fieldVal_nodes, fieldVal_ref, call_usize_from, index_nodes h, encRef, render, dbg, disp, Option.map_some, vecLib]
  simp only [decimal_eq, Line.text, List.append_assoc]

/-- What `match_ref` does with the node at `i`. -/
def MatchRef (t : BTree) (S : List Val) (i : Nat) (o : Out (List Line)) (r : CRes) : Prop :=
  match o with
  | .ok ls => r = .ok (encKey i) [encBTree t, .vec (S ++ ls.map fun l => .str l.text), encKey i]
  | .panic _ => r = .panic
  | .oof => True

theorem MatchRef.panic {t : BTree} {S i p} : MatchRef t S i (.panic p) .panic := rfl

set_option hygiene false in
/-- The proof for a combinator with one operand. -/
macro "unary" f:ident t:term : tactic => `(tactic| (
  rw [callN_succ rfl rfl (by omega)]
  cases hl : l with
  | none => rs [$f:ident, fieldVal_nodes, fieldVal_lhs, hl, encOpt_none, call_usize_from, index_nodes h, optLib, callMeth_tree]; rfl
  | some j =>
    have H := H j S
    simp only [expectKey, Out.ofOption, Out.bind, Bind.bind]
    cases ho : o j with
    | oof => trivial
    | panic p =>
      rw [ho] at H
      simp only [MatchRef] at H ⊢
      rs [$f:ident, fieldVal_nodes, fieldVal_lhs, hl, encOpt_some, call_usize_from, index_nodes h, optLib, callMeth_tree, H]
    | ok ls =>
      rw [ho] at H
      simp only [MatchRef] at H ⊢
      rs [$f:ident, fieldVal_nodes, fieldVal_lhs, fieldVal_ref, encRef, hl, encOpt_some, call_usize_from, index_nodes h, optLib, callMeth_tree, H,
        render, dbg, disp, Option.map_some, Option.bind_some, vecLib]
      simp only [decimal_eq, Line.text, List.append_assoc, List.map_append, List.map_cons, List.map_nil, Unary.text, List.cons.injEq, CRes.ok.injEq, Val.vec.injEq,
        Val.str.injEq, true_and, and_true, List.append_cancel_left_eq]
      try rw [$t:term]
      try simp only [List.append_assoc]))

theorem call_and {t : BTree} {i : Nat} {l r} (h : t[i]? = .some ⟨.andPredicate, l, r⟩) (S : List Val) {n : Nat} (hn : 2 ≤ n) {o : Nat → Out (List Line)}
    (H : ∀ j S, MatchRef t S j (o j) (callN (World.gen ord) (n - 1) Ast.BinaryTreeWO.match_ref [encBTree t, .vec S, encKey j])) :
    MatchRef t S i (do let j ← expectKey l; let ls ← o j; .ok (ls ++ [.unary .and i j]))
      (callN (World.gen ord) n Ast.BinaryTreeWO.and_predicate [encBTree t, .vec S, encKey i]) := by
  unary Ast.BinaryTreeWO.and_predicate (show utf8Of " = _and_predicate(&closure_" = utf8Of " = " ++ (utf8Of "_and_predicate" ++ utf8Of "(&closure_") by decide +kernel)

theorem call_not {t : BTree} {i : Nat} {l r} (h : t[i]? = .some ⟨.notPredicate, l, r⟩) (S : List Val) {n : Nat} (hn : 2 ≤ n) {o : Nat → Out (List Line)}
    (H : ∀ j S, MatchRef t S j (o j) (callN (World.gen ord) (n - 1) Ast.BinaryTreeWO.match_ref [encBTree t, .vec S, encKey j])) :
    MatchRef t S i (do let j ← expectKey l; let ls ← o j; .ok (ls ++ [.unary .not i j]))
      (callN (World.gen ord) n Ast.BinaryTreeWO.not_predicate [encBTree t, .vec S, encKey i]) := by
  unary Ast.BinaryTreeWO.not_predicate (show utf8Of " = _not_predicate(&closure_" = utf8Of " = " ++ (utf8Of "_not_predicate" ++ utf8Of "(&closure_") by decide +kernel)

theorem call_plus {t : BTree} {i : Nat} {l r} (h : t[i]? = .some ⟨.oneOrMore, l, r⟩) (S : List Val) {n : Nat} (hn : 2 ≤ n) {o : Nat → Out (List Line)}
    (H : ∀ j S, MatchRef t S j (o j) (callN (World.gen ord) (n - 1) Ast.BinaryTreeWO.match_ref [encBTree t, .vec S, encKey j])) :
    MatchRef t S i (do let j ← expectKey l; let ls ← o j; .ok (ls ++ [.unary .plus i j]))
      (callN (World.gen ord) n Ast.BinaryTreeWO.one_or_more [encBTree t, .vec S, encKey i]) := by
  unary Ast.BinaryTreeWO.one_or_more (show utf8Of " = _one_or_more(&closure_" = utf8Of " = " ++ (utf8Of "_one_or_more" ++ utf8Of "(&closure_") by decide +kernel)

theorem call_star {t : BTree} {i : Nat} {l r} (h : t[i]? = .some ⟨.zeroOrMore, l, r⟩) (S : List Val) {n : Nat} (hn : 2 ≤ n) {o : Nat → Out (List Line)}
    (H : ∀ j S, MatchRef t S j (o j) (callN (World.gen ord) (n - 1) Ast.BinaryTreeWO.match_ref [encBTree t, .vec S, encKey j])) :
    MatchRef t S i (do let j ← expectKey l; let ls ← o j; .ok (ls ++ [.unary .star i j]))
      (callN (World.gen ord) n Ast.BinaryTreeWO.zero_or_more [encBTree t, .vec S, encKey i]) := by
  unary Ast.BinaryTreeWO.zero_or_more (show utf8Of " = _zero_or_more(&closure_" = utf8Of " = " ++ (utf8Of "_zero_or_more" ++ utf8Of "(&closure_") by decide +kernel)

theorem call_sub {t : BTree} {i : Nat} {l r} (h : t[i]? = .some ⟨.subexpression, l, r⟩) (S : List Val) {n : Nat} (hn : 2 ≤ n) {o : Nat → Out (List Line)}
    (H : ∀ j S, MatchRef t S j (o j) (callN (World.gen ord) (n - 1) Ast.BinaryTreeWO.match_ref [encBTree t, .vec S, encKey j])) :
    MatchRef t S i (do let j ← expectKey l; let ls ← o j; .ok (ls ++ [.unary .sub i j]))
      (callN (World.gen ord) n Ast.BinaryTreeWO.subexpression [encBTree t, .vec S, encKey i]) := by
  unary Ast.BinaryTreeWO.subexpression (show utf8Of " = _subexpression(&closure_" = utf8Of " = " ++ (utf8Of "_subexpression" ++ utf8Of "(&closure_") by decide +kernel)

theorem call_opt {t : BTree} {i : Nat} {l r} (h : t[i]? = .some ⟨.optional, l, r⟩) (S : List Val) {n : Nat} (hn : 2 ≤ n) {o : Nat → Out (List Line)}
    (H : ∀ j S, MatchRef t S j (o j) (callN (World.gen ord) (n - 1) Ast.BinaryTreeWO.match_ref [encBTree t, .vec S, encKey j])) :
    MatchRef t S i (do let j ← expectKey l; let ls ← o j; .ok (ls ++ [.unary .opt i j]))
      (callN (World.gen ord) n Ast.BinaryTreeWO.optional [encBTree t, .vec S, encKey i]) := by
  unary Ast.BinaryTreeWO.optional (show utf8Of " = _optional(&closure_" = utf8Of " = " ++ (utf8Of "_optional" ++ utf8Of "(&closure_") by decide +kernel)

theorem call_hooked {t : BTree} {i : Nat} {c l r} (h : t[i]? = .some ⟨.hookedCall c, l, r⟩) (S : List Val) {n : Nat} (hn : 2 ≤ n) {o : Nat → Out (List Line)}
    (H : ∀ j S, MatchRef t S j (o j) (callN (World.gen ord) (n - 1) Ast.BinaryTreeWO.match_ref [encBTree t, .vec S, encKey j])) :
    MatchRef t S i (do let j ← expectKey l; let ls ← o j; .ok (ls ++ [.hooked i c j]))
      (callN (World.gen ord) n Ast.BinaryTreeWO.hooked_call [encBTree t, .vec S, encKey i]) := by
  unary Ast.BinaryTreeWO.hooked_call (show utf8Of " = _hooked_call(&closure_" = utf8Of " = " ++ (utf8Of "_hooked_call" ++ utf8Of "(&closure_") by decide +kernel)

set_option hygiene false in
/-- The proof for a combinator with two operands. -/
macro "binary" f:ident t:term : tactic => `(tactic| (
  rw [callN_succ rfl rfl (by omega)]
  cases hl : l with
  | none => rs [$f:ident, fieldVal_nodes, fieldVal_lhs, hl, encOpt_none, call_usize_from, index_nodes h, optLib, callMeth_tree]; rfl
  | some j =>
    have H1 := H j S
    simp only [expectKey, Out.ofOption, Out.bind, Bind.bind]
    cases ho : o j with
    | oof => trivial
    | panic p =>
      rw [ho] at H1
      simp only [MatchRef] at H1 ⊢
      rs [$f:ident, fieldVal_nodes, fieldVal_lhs, hl, encOpt_some, call_usize_from, index_nodes h, optLib, callMeth_tree, H1]
    | ok ls =>
      rw [ho] at H1
      simp only [MatchRef] at H1
      cases hr : r with
      | none =>
        simp only [MatchRef]
        rs [$f:ident, fieldVal_nodes, fieldVal_lhs, fieldVal_rhs, hl, hr, encOpt_some, encOpt_none, call_usize_from, index_nodes h, optLib, callMeth_tree, H1]
      | some k =>
        have H2 := H k (S ++ ls.map fun l => .str l.text)
        simp only
        cases ho2 : o k with
        | oof => trivial
        | panic p =>
          rw [ho2] at H2
          simp only [MatchRef] at H2 ⊢
          rs [$f:ident, fieldVal_nodes, fieldVal_lhs, fieldVal_rhs, hl, hr, encOpt_some, call_usize_from, index_nodes h, optLib, callMeth_tree, H1, H2]
        | ok ms =>
          rw [ho2] at H2
          simp only [MatchRef] at H2 ⊢
          rs [$f:ident, fieldVal_nodes, fieldVal_lhs, fieldVal_rhs, fieldVal_ref, encRef, hl, hr, encOpt_some, call_usize_from, index_nodes h, optLib, callMeth_tree, H1, H2,
            render, dbg, disp, Option.map_some, Option.bind_some, vecLib]
          simp only [decimal_eq, Line.text, List.append_assoc, List.map_append, List.map_cons, List.map_nil, Binary.text, List.cons.injEq, CRes.ok.injEq, Val.vec.injEq,
            Val.str.injEq, true_and, and_true, List.append_cancel_left_eq]
          rw [$t:term]
          simp only [List.append_assoc]))

theorem call_choice {t : BTree} {i : Nat} {l r} (h : t[i]? = .some ⟨.orderedChoice, l, r⟩) (S : List Val) {n : Nat} (hn : 2 ≤ n) {o : Nat → Out (List Line)}
    (H : ∀ j S, MatchRef t S j (o j) (callN (World.gen ord) (n - 1) Ast.BinaryTreeWO.match_ref [encBTree t, .vec S, encKey j])) :
    MatchRef t S i (do let j ← expectKey l; let ls ← o j; let k ← expectKey r; let ms ← o k; .ok (ls ++ ms ++ [.binary .choice i j k]))
      (callN (World.gen ord) n Ast.BinaryTreeWO.ordered_choice [encBTree t, .vec S, encKey i]) := by
  binary Ast.BinaryTreeWO.ordered_choice (show utf8Of " = _ordered_choice(&closure_" = utf8Of " = " ++ (utf8Of "_ordered_choice" ++ utf8Of "(&closure_") by decide +kernel)

theorem call_seq {t : BTree} {i : Nat} {l r} (h : t[i]? = .some ⟨.sequence, l, r⟩) (S : List Val) {n : Nat} (hn : 2 ≤ n) {o : Nat → Out (List Line)}
    (H : ∀ j S, MatchRef t S j (o j) (callN (World.gen ord) (n - 1) Ast.BinaryTreeWO.match_ref [encBTree t, .vec S, encKey j])) :
    MatchRef t S i (do let j ← expectKey l; let ls ← o j; let k ← expectKey r; let ms ← o k; .ok (ls ++ ms ++ [.binary .seq i j k]))
      (callN (World.gen ord) n Ast.BinaryTreeWO.sequence [encBTree t, .vec S, encKey i]) := by
  binary Ast.BinaryTreeWO.sequence (show utf8Of " = _sequence(&closure_" = utf8Of " = " ++ (utf8Of "_sequence" ++ utf8Of "(&closure_") by decide +kernel)

/-! ## Loops -/

theorem forN_fold {α : Type} {f : Val → Env → Res} (E : α → Env) (e : β → Val) (g : α → β → α)
    (h : ∀ a b, ∃ w, f (e b) (E a) = .ok w (E (g a b))) (bs : List β) (a : α) :
    forN f (bs.map e) (E a) = .ok unit (E (bs.foldl g a)) := by
  induction bs generalizing a with
  | nil => rfl
  | cons b bs ih =>
    obtain ⟨w, h'⟩ := h a b
    rw [List.map_cons, forN, h']
    exact ih _

/-- A loop over strings each of which may panic. -/
theorem forN_mapOut {f : Val → Env → Res} (E : Bytes → Env) (F : Bytes → Out Bytes) (g : Bytes → Bytes) (P : Bytes → Prop)
    (h : ∀ s c, P c → f (.str c) (E s) = match F c with | .ok v => .ok unit (E (s ++ g v)) | _ => .panic) (cs : List Bytes) (s : Bytes) (hP : ∀ c ∈ cs, P c) :
    forN f (cs.map .str) (E s) = match mapOut F cs with | .ok vs => .ok unit (E (s ++ (vs.map g).flatten)) | _ => .panic := by
  induction cs generalizing s with
  | nil => simp [mapOut, forN]
  | cons c cs ih =>
    rw [List.map_cons, forN, h _ _ (hP c (by simp)), mapOut]
    cases hc : F c with
    | oof => rfl
    | panic p => rfl
    | ok v =>
      simp only [Bind.bind, Out.bind]
      rw [ih _ fun c hc => hP c (by simp [hc])]
      cases mapOut F cs with
      | oof => rfl
      | panic p => rfl
      | ok vs => simp

theorem flatten_foldl (cs : List β) (f : β → Bytes) (s : Bytes) : cs.foldl (fun a b => a ++ f b) s = s ++ (cs.map f).flatten := by
  induction cs generalizing s with
  | nil => simp
  | cons c cs ih => simp [ih]

theorem utf8Of_nil : utf8Of "" = [] := by decide +kernel

theorem call_string_ascii {t : BTree} {i : Nat} {cs l r} (h : t[i]? = .some ⟨.stringTerminalAsciiOpt cs, l, r⟩) (S : List Val) {n : Nat} (hn : 2 ≤ n) :
    callN (World.gen ord) n Ast.BinaryTreeWO.string_terminal_ascii_opt [encBTree t, .vec S, encKey i] =
      .ok (encKey i) [encBTree t, .vec (S ++ [.str (Line.text (.stringTerminalOptAscii i cs))]), encKey i] := by
  rw [callN_succ rfl rfl (by omega)]
  rs [Ast.BinaryTreeWO.string_terminal_ascii_opt, fieldVal_nodes, fieldVal_ref, call_usize_from, index_nodes h, encRef, render, dbg, disp, items]
  rw [forN_fold (E := fun s => (n!"r", .str s) :: _) (g := fun s c => s ++ charText c)]
  · rs [strLib, vecLib]
    simp only [flatten_foldl, decimal_eq, Line.text, List.append_assoc]
  · intro a b
    refine ⟨unit, ?_⟩
    rs [inScope, render, disp, strLib, utf8Of_nil, charText]

/-- The text of the loop in `left_recursive_rule`, after the two `pop`s. -/
theorem pops (vs : List Bytes) (v : Bytes) : (((v :: vs).map fun v => utf8Of "Rules::" ++ (v ++ utf8Of ", ")).flatten).dropLast.dropLast =
    List.intercalate (utf8Of ", ") ((v :: vs).map fun v => utf8Of "Rules::" ++ v) := by
  have hc : utf8Of ", " = [44, 32] := by decide +kernel
  rw [hc]
  induction vs generalizing v with
  | nil => simp [List.intercalate]
  | cons w vs ih =>
    have := ih w
    rw [List.map_cons, List.flatten_cons]
    rw [List.dropLast_append_of_ne_nil (by simp), List.dropLast_append_of_ne_nil, this]
    · simp [List.intercalate]
    · simp

theorem ascii_append (a b : Bytes) : ascii (a ++ b) = (ascii a && ascii b) := by simp [ascii]
theorem ascii_flatten (l : List Bytes) : ascii l.flatten = l.all ascii := by
  induction l with
  | nil => rfl
  | cons a l ih => rw [List.flatten_cons, ascii_append, ih]; rfl

theorem ascii_capitalise {c v : Bytes} (h : ascii c) (hv : capitalise c = .ok v) : ascii v := by
  cases c with
  | nil => simp [capitalise] at hv
  | cons c cs =>
    simp only [capitalise, Out.ok.injEq] at hv
    subst hv
    have ⟨h1, h2⟩ := ascii_cons.1 h
    refine ascii_cons.2 ⟨?_, h2⟩
    unfold upperByte
    split
    · rename_i hc
      have a : 97 ≤ c.toNat := hc.1
      have b : c.toNat ≤ 122 := hc.2
      show (c - 32).toNat < 128
      rw [UInt8.toNat_sub_of_le _ _ (by exact Nat.le_trans (by decide) a)]
      have : c.toNat - (32 : UInt8).toNat ≤ c.toNat := Nat.sub_le _ _
      omega
    · exact h1

theorem mapOut_all {F : Bytes → Out Bytes} {P Q : Bytes → Prop} (h : ∀ c v, P c → F c = .ok v → Q v) {cs vs : List Bytes} (hP : ∀ c ∈ cs, P c) (hv : mapOut F cs = .ok vs) :
    ∀ v ∈ vs, Q v := by
  induction cs generalizing vs with
  | nil => simp [mapOut] at hv; subst hv; simp
  | cons c cs ih =>
    rw [mapOut] at hv
    cases hc : F c with
    | oof => simp [hc, Bind.bind, Out.bind] at hv
    | panic p => simp [hc, Bind.bind, Out.bind] at hv
    | ok w =>
      cases hm : mapOut F cs with
      | oof => simp [hc, hm, Bind.bind, Out.bind] at hv
      | panic p => simp [hc, hm, Bind.bind, Out.bind] at hv
      | ok ws =>
        simp [hc, hm, Bind.bind, Out.bind] at hv
        subst hv
        intro v hv
        rcases List.mem_cons.1 hv with rfl | hv
        · exact h _ _ (hP c (by simp)) hc
        · exact ih (fun c hc => hP c (by simp [hc])) hm v hv


theorem call_left_recursive {t : BTree} {i : Nat} {c inv l r} (h : t[i]? = .some ⟨.leftRecursiveRule c inv, l, r⟩) (hc : ascii c) (hi : ∀ c ∈ inv, ascii c)
    (S : List Val) {n : Nat} (hn : 2 ≤ n) :
    MatchRef t S i (do let vs ← mapOut capitalise inv; let v ← capitalise c; .ok [.involvedSet vs, .varNameLR i v (lower c)])
      (callN (World.gen ord) n Ast.BinaryTreeWO.left_recursive_rule [encBTree t, .vec S, encKey i]) := by
  have hl : strLib n!"to_lowercase" c [] = .ok (.str (lower c)) .none := by simp [strLib, hc, lower, lowerByte]
  have hs (s : Bytes) : strLib n!"to_string" s [] = .ok (.str s) .none := by simp [strLib]
  rw [callN_succ rfl rfl (by omega)]
  cases inv with
  | nil =>
    have he : utf8Of "let involved_set: Vec<Rules> = [].to_vec();" = Line.text (.involvedSet []) := by decide +kernel
    cases c with
    | nil =>
      simp only [mapOut, Bind.bind, Out.bind, capitalise, MatchRef]
      rs [Ast.BinaryTreeWO.left_recursive_rule, fieldVal_nodes, fieldVal_ref, call_usize_from, index_nodes h, encRef, render, dbg, disp, vecLib, List.isEmpty_nil,
        hs, clo_cap_nil]
    | cons c cs =>
      simp only [mapOut, Bind.bind, Out.bind, capitalise, MatchRef]
      rs [Ast.BinaryTreeWO.left_recursive_rule, fieldVal_nodes, fieldVal_ref, call_usize_from, index_nodes h, encRef, render, dbg, disp, vecLib, List.isEmpty_nil,
        hs, hl, clo_cap ord hc, he]
      simp only [decimal_eq, Line.text, List.append_assoc, List.cons_append, List.nil_append]
  | cons d inv =>
    rs [Ast.BinaryTreeWO.left_recursive_rule, fieldVal_nodes, fieldVal_ref, call_usize_from, index_nodes h, encRef, render, dbg, disp, vecLib, List.isEmpty_cons,
        hs, items]
    rw [show Val.str d :: inv.map .str = (d :: inv).map .str from rfl,
      forN_mapOut (E := fun s => (n!"contents_involved_set", .str s) :: _) (F := capitalise) (g := fun v => utf8Of "Rules::" ++ (v ++ utf8Of ", ")) (P := (ascii · = true))
        (cs := d :: inv) (hP := hi)]
    · cases hm : mapOut capitalise (d :: inv) with
      | oof => trivial
      | panic p => rfl
      | ok vs =>
        have hv : ∀ v ∈ vs, ascii v = true := mapOut_all (fun _ _ => ascii_capitalise) hi hm
        obtain ⟨v, vs, rfl⟩ : ∃ v ws, vs = v :: ws := by
          rw [mapOut] at hm
          cases hd : capitalise d <;> simp [hd, Bind.bind, Out.bind] at hm
          cases hw : mapOut capitalise inv <;> simp [hw] at hm
          exact ⟨_, _, hm.symm⟩
        have hne : (((v :: vs).map fun v => utf8Of "Rules::" ++ (v ++ utf8Of ", ")).flatten) ≠ [] ∧ (((v :: vs).map fun v => utf8Of "Rules::" ++ (v ++ utf8Of ", ")).flatten).dropLast ≠ [] := by
          have : ∀ l : Bytes, 2 ≤ l.length → l ≠ [] ∧ l.dropLast ≠ [] := by
            intro l hl
            refine ⟨by rintro rfl; simp at hl, ?_⟩
            intro h
            have := congrArg List.length h
            rw [List.length_dropLast] at this
            simp at this
            omega
          apply this
          have hk : utf8Of ", " = [44, 32] := by decide +kernel
          rw [List.map_cons, List.flatten_cons, hk]
          simp only [List.length_append, List.length_cons, List.length_nil]
          omega
        have ha : ascii (utf8Of "let involved_set: Vec<Rules> = [" ++ (((v :: vs).map fun v => utf8Of "Rules::" ++ (v ++ utf8Of ", ")).flatten)) = true := by
          have h1 : ascii (utf8Of "let involved_set: Vec<Rules> = [") = true := by decide +kernel
          have h2 : ascii (utf8Of "Rules::") = true := by decide +kernel
          have h3 : ascii (utf8Of ", ") = true := by decide +kernel
          rw [ascii_append, ascii_flatten, h1, Bool.true_and, List.all_eq_true]
          intro x hx
          obtain ⟨w, hw, rfl⟩ := List.mem_map.1 hx
          rw [ascii_append, ascii_append, h2, h3, hv w hw]
          rfl
        have ha' (l : Bytes) (h : ascii l = true) : ascii l.dropLast = true := by
          simp only [ascii, List.all_eq_true] at h ⊢
          exact fun x hx => h x (List.dropLast_subset _ hx)
        have hp (l : Bytes) (h : ascii l = true) : ∃ w, strLib n!"pop" l [] = .ok w (.some (.str l.dropLast)) := by
          refine ⟨match l.getLast? with | .some c => .some (.char c.toNat) | .none => .none, ?_⟩
          simp [strLib, h]
          cases l.getLast? <;> rfl
        obtain ⟨w1, hp1⟩ := hp _ ha
        obtain ⟨w2, hp2⟩ := hp _ (ha' _ ha)
        have hx : (utf8Of "let involved_set: Vec<Rules> = [" ++ (((v :: vs).map fun v => utf8Of "Rules::" ++ (v ++ utf8Of ", ")).flatten)).dropLast.dropLast ++ utf8Of "].to_vec();" =
            Line.text (.involvedSet (v :: vs)) := by
          rw [List.dropLast_append_of_ne_nil hne.1, List.dropLast_append_of_ne_nil hne.2, pops]
          rfl
        simp only
        generalize (utf8Of "let involved_set: Vec<Rules> = [" ++ (((v :: vs).map fun v => utf8Of "Rules::" ++ (v ++ utf8Of ", ")).flatten)) = X at hp1 hp2 hx ⊢
        have hq (s t : Bytes) : strLib n!"push_str" s [.str t] = .ok unit (.some (.str (s ++ t))) := by simp [strLib]
        cases c with
        | nil =>
          simp only [Bind.bind, Out.bind, capitalise, MatchRef]
          rs [hp1, hp2, hq, hx, vecLib, hs, clo_cap_nil]
        | cons c cs =>
          simp only [Bind.bind, Out.bind, capitalise, MatchRef]
          rs [hp1, hp2, hq, hx, vecLib, hs, hl, render, dbg, disp, clo_cap ord hc]
          simp only [decimal_eq, Line.text, List.append_assoc, List.cons_append, List.nil_append]
    · intro s c hc
      cases c with
      | nil => rs [inScope, hs, clo_cap_nil, capitalise]
      | cons c cs => rs [inScope, hs, clo_cap ord hc, render, disp, strLib, capitalise]


/-! ## `match_ref`, `to_string` -/

theorem MatchRef.mono {t : BTree} {S i o K R} (hk : MatchRef t S i o K) (h1 : K = .panic → R = .panic)
    (h2 : ∀ ls, K = .ok (encKey i) [encBTree t, .vec (S ++ ls), encKey i] → R = .ok (encKey i) [encBTree t, .vec (S ++ ls), encKey i]) : MatchRef t S i o R := by
  cases o with
  | oof => trivial
  | panic p => exact h1 hk
  | ok ls => exact h2 _ hk

theorem MatchRef.one {t : BTree} {S i l K} (h : K = .ok (encKey i) [encBTree t, .vec (S ++ [.str (Line.text l)]), encKey i]) : MatchRef t S i (.ok [l]) K := h

theorem MatchRef.var {t : BTree} {S i c K} (h : K = (match capitalise c with
      | .ok v => .ok (encKey i) [encBTree t, .vec (S ++ [.str (Line.text (.varName i v (lower c)))]), encKey i]
      | _ => .panic)) : MatchRef t S i (do let v ← capitalise c; .ok [.varName i v (lower c)]) K := by
  cases c <;> exact h

set_option hygiene false in
/-- One arm of `match_ref`. -/
macro "arm" t:term : tactic => `(tactic| (
  refine MatchRef.mono ($t : MatchRef _ _ _ _ (callN (World.gen ord) (m - 1) _ _)) (fun hK => ?_) (fun ls hK => ?_) <;> rw [callN_succ rfl rfl (by omega)] <;>
  rs [Ast.BinaryTreeWO.match_ref, fieldVal_nodes, fieldVal_ref, call_usize_from, index_nodes hi, encRef, callMeth_tree, hK]))

theorem call_match_ref {t : BTree} (ht : TreeOk t) (n : Nat) : ∀ (i m : Nat) (S : List Val), 2 * n + 3 ≤ m →
    MatchRef t S i (matchRef t n i) (callN (World.gen ord) m Ast.BinaryTreeWO.match_ref [encBTree t, .vec S, encKey i]) := by
  induction n with
  | zero => intros; trivial
  | succ n ih =>
    intro i m S hm
    rw [matchRef]
    cases hi : t[i]? with
    | none =>
      rw [callN_succ rfl rfl (by omega)]
      rs [Ast.BinaryTreeWO.match_ref, fieldVal_nodes, call_usize_from, index_nodes_none hi]
      rfl
    | some nd =>
      obtain ⟨ref, l, r⟩ := nd
      have H : ∀ j S, MatchRef t S j (matchRef t n j) (callN (World.gen ord) (m - 1 - 1) Ast.BinaryTreeWO.match_ref [encBTree t, .vec S, encKey j]) :=
        fun j S => ih j (m - 1 - 1) S (by omega)
      have hok := ht _ (List.mem_of_getElem? hi)
      simp only
      cases ref with
      | andPredicate => arm (call_and ord hi S (by omega) H)
      | notPredicate => arm (call_not ord hi S (by omega) H)
      | optional => arm (call_opt ord hi S (by omega) H)
      | oneOrMore => arm (call_plus ord hi S (by omega) H)
      | zeroOrMore => arm (call_star ord hi S (by omega) H)
      | subexpression => arm (call_sub ord hi S (by omega) H)
      | orderedChoice => arm (call_choice ord hi S (by omega) H)
      | sequence => arm (call_seq ord hi S (by omega) H)
      | hookedCall c => arm (call_hooked ord hi S (by omega) H)
      | terminal c => arm (MatchRef.one (call_terminal ord hi S (by omega)))
      | varName c => arm (MatchRef.var (call_var_name ord hi hok S (by omega)))
      | matchRange a b => arm (MatchRef.one (call_match_range ord hi S (by omega)))
      | stringTerminal cs => exact hok.elim
      | stringTerminalAsciiOpt cs => arm (MatchRef.one (call_string_ascii ord hi S (by omega)))
      | inlinedRule c => arm (MatchRef.one (call_inlined ord hi hok S (by omega)))
      | leftRecursiveRule c inv => arm (call_left_recursive ord hi hok.1 hok.2 S (by omega))
      | exec =>
        rw [callN_succ rfl rfl (by omega)]
        rs [Ast.BinaryTreeWO.match_ref, fieldVal_nodes, fieldVal_ref, call_usize_from, index_nodes hi, encRef, macroCall]; rfl
      | null =>
        rw [callN_succ rfl rfl (by omega)]
        rs [Ast.BinaryTreeWO.match_ref, fieldVal_nodes, fieldVal_ref, call_usize_from, index_nodes hi, encRef, macroCall]; rfl

end PP.Rs
