import Verif.Lemmas.Rs.CycleLeft

/-! # generator/src/cycle_detector.rs, executed: the fixpoints -/
namespace PP.Rs
open PP.Gen

variable {ord : List Val → List Val} (hord : ∀ l, (ord l).Perm l)

theorem pm_lrFalse : pmatch (.variants [(n!"LeftRecursive", n!"False")]) (.data n!"LeftRecursive" n!"False" []) = .some [] := rfl
theorem ne_lrFalse : binop .ne (.data n!"LeftRecursive" n!"False" []) (.data n!"LeftRecursive" n!"False" []) = .ok (.bool false) .none := rfl
theorem eq_lrFalse : binop .eq (.data n!"LeftRecursive" n!"False" []) (.data n!"LeftRecursive" n!"False" []) = .ok (.bool true) .none := rfl

/-- The state with other marks. -/
def withMarks (t : RuleCallTree) (l : List Bytes) : RuleCallTree := { t with notLR := l }

theorem all_marks (M l : List Bytes) (b : Bool) : l.foldl (fun b r => if M.contains r then b else false) b = (b && l.all fun r => M.contains r) := by
  induction l generalizing b with
  | nil => simp
  | cons a l ih => rw [List.foldl_cons, ih, List.all_cons]; cases M.contains a <;> simp

theorem call_mark_refs (t : RuleCallTree) (pass : Nat) {m : Nat} (hm : 1 ≤ m) :
    callN (World.gen ord) m Ast.RuleCallTree.loop_over_referenced_rules [encRct t] = .ok unit [encRct (withMarks t (markPass (ordOf hord) 1 pass t.referenced t.notLR))] := by
  rw [callN_succ rfl rfl (by omega)]
  rs [Ast.RuleCallTree.loop_over_referenced_rules, encRct, items_sets, ord_pairs hord (lbl := [1, pass]) (.inr ⟨pass, .inl rfl⟩)]
  generalize hL : forN _ _ _ = L
  have R := (foldlM_ok (fun marked (p : Bytes × List Bytes) => if ((ordOf hord).perm [1, pass, marked.length] p.2).all fun r => marked.contains r then setInsert marked p.1 else marked)
    ((ordOf hord).perm [1, pass] t.referenced) t.notLR)
  rw [← markPass] at R
  have K : Loop L (.ok (markPass (ordOf hord) 1 pass t.referenced t.notLR)) (fun _ => True) fun l => [(n!"self", encRct (withMarks t l))] := by
    rw [← hL, ← R]
    refine forN_loop rfl trivial fun b _ l _ => ?_
    by_cases h0 : b.2.isEmpty = true
    · have : b.2 = [] := by simpa using h0
      have h1 : (((ordOf hord).perm [1, pass, l.length] b.2).all fun r => l.contains r) = true := by
        rw [all_perm]; simp [this]
      rw [h1, if_pos rfl]
      refine .ok (v := unit) ?_ trivial
      rs [inScope, pairVal, set_empty, h0, encRct, withMarks, to_string_lib, marks_insert]
    · have h0 : b.2.isEmpty = false := by simpa using h0
      have S := all_marks l ((ordOf hord).perm [1, pass, l.length] b.2) true
      rw [Bool.true_and] at S
      generalize hA : (((ordOf hord).perm [1, pass, l.length] b.2).all fun r => l.contains r) = A at S ⊢
      refine .ok (v := unit) ?_ trivial
      rs [inScope, pairVal, set_empty, h0, encRct, withMarks, items, ord_set3 hord 1 pass l.length]
      generalize hL : forN _ _ _ = L
      have K : Loop L (.ok A) (fun _ => True) fun c => [(n!"are_all_referenced_rules_not_left_recursive", .bool c), (n!"rule_name", .str b.1), (n!"referenced_rules", .set (b.2.map .str)),
          (n!"self", encRct (withMarks t l))] := by
        rw [← hL, ← S, ← foldlM_ok]
        refine forN_loop rfl trivial fun r _ c _ => ?_
        refine .ok (v := unit) ?_ trivial
        cases hr : l.contains r <;>
        rs [inScope, encRct, withMarks, marks_get, hr, pm_lrFalse, Bool.false_eq_true]
      obtain ⟨rfl, -⟩ := K
      cases A <;> rs [encRct, withMarks, to_string_lib, marks_insert, Bool.false_eq_true, unit]
  obtain ⟨rfl, -⟩ := K
  rfl

theorem call_mark_left (t : RuleCallTree) (pass : Nat) {m : Nat} (hm : 1 ≤ m) :
    callN (World.gen ord) m Ast.RuleCallTree.cleanup_left_most_called_rules [encRct t] = .ok unit [encRct (withMarks t (markPass (ordOf hord) 3 pass t.leftMost t.notLR))] := by
  rw [callN_succ rfl rfl (by omega)]
  rs [Ast.RuleCallTree.cleanup_left_most_called_rules, encRct, items_sets, ord_pairs hord (lbl := [3, pass]) (.inr ⟨pass, .inr (.inl rfl)⟩)]
  generalize hL : forN _ _ _ = L
  have R := (foldlM_ok (fun marked (p : Bytes × List Bytes) => if ((ordOf hord).perm [3, pass, marked.length] p.2).all fun r => marked.contains r then setInsert marked p.1 else marked)
    ((ordOf hord).perm [3, pass] t.leftMost) t.notLR)
  rw [← markPass] at R
  have K : Loop L (.ok (markPass (ordOf hord) 3 pass t.leftMost t.notLR)) (fun _ => True) fun l => [(n!"self", encRct (withMarks t l))] := by
    rw [← hL, ← R]
    refine forN_loop rfl trivial fun b _ l _ => ?_
    have S := all_marks l ((ordOf hord).perm [3, pass, l.length] b.2) true
    rw [Bool.true_and] at S
    generalize hA : (((ordOf hord).perm [3, pass, l.length] b.2).all fun r => l.contains r) = A at S ⊢
    refine .ok (v := unit) ?_ trivial
    rs [inScope, pairVal, encRct, withMarks, items, ord_set3 hord 3 pass l.length]
    generalize hL : forN _ _ _ = L
    have K : Loop L (.ok A) (fun _ => True) fun c => [(n!"is_not_left_recursive", .bool c), (n!"rule_name", .str b.1), (n!"left_most_rule_refs", .set (b.2.map .str)),
        (n!"self", encRct (withMarks t l))] := by
      rw [← hL, ← S, ← foldlM_ok]
      refine forN_loop rfl trivial fun r _ c _ => ?_
      refine .ok (v := unit) ?_ trivial
      cases hr : l.contains r <;>
      rs [inScope, encRct, withMarks, marks_get, hr, pm_lrFalse, Bool.false_eq_true]
    obtain ⟨rfl, -⟩ := K
    cases A <;> rs [encRct, withMarks, to_string_lib, marks_insert, Bool.false_eq_true, unit]
  obtain ⟨rfl, -⟩ := K
  rfl

/-- The number that stands for a count: `usize::MAX` before the first round. -/
def countVal : Option Nat → Nat
  | none => 18446744073709551615
  | some k => k

theorem countVal_ne {l : Option Nat} {k : Nat} (h : k < 18446744073709551615) : decide (countVal l ≠ k) = decide (l ≠ some k) := by
  refine decide_eq_decide.2 ?_
  cases l with
  | none => simp only [countVal]; exact ⟨fun _ e => (by cases e), fun _ => (by omega)⟩
  | some j => simp [countVal]

theorem call_marks_refs {U : List Bytes} (hU : U.length < 4294967296) {t : RuleCallTree} (ht : GoodTree U t) {n : Nat} {l : List Bytes}
    (h : markLoop (ordOf hord) 1 t.referenced n none 0 t.notLR = .ok l) {m : Nat} (hm : n + 2 ≤ m) :
    callN (World.gen ord) m Ast.RuleCallTree.repeated_loop_over_referenced_rules [encRct t] = .ok unit [encRct (withMarks t l)] := by
  rw [callN_succ rfl rfl (by omega)]
  rs [Ast.RuleCallTree.repeated_loop_over_referenced_rules, encRct, marks_len, ne_num, macroCall]
  generalize hf : (fun env => ev _ _ _ _ env) = f
  suffices H : ∀ n k pass l₀ marked, n ≤ k → GoodSet U marked → markLoop (ordOf hord) 1 t.referenced n l₀ pass marked = .ok l →
      ∃ c, loopN f k [(n!"l", .num false (countVal l₀)), (n!"self", encRct (withMarks t marked))] = .ok unit [(n!"l", .num false c), (n!"self", encRct (withMarks t l))] by
    obtain ⟨c, hc⟩ := H n (m - 1) 0 none t.notLR (by omega) ht.notLR h
    have hc : loopN f (m - 1) [(n!"l", .num false 18446744073709551615), (n!"self", encRct t)] = _ := hc
    simp only [encRct] at hc
    rw [hc]
    rfl
  intro n
  induction n with
  | zero => intro k pass l₀ marked _ _ h; cases h
  | succ n ih =>
    intro k pass l₀ marked hk hg h
    obtain ⟨k, rfl⟩ : ∃ k', k = k' + 1 := ⟨k - 1, by omega⟩
    have hlen := hg.length
    have hne := countVal_ne (l := l₀) (k := marked.length) (by omega)
    rw [markLoop] at h
    rw [loopN, ← hf]
    by_cases he : l₀ = some marked.length
    · rw [if_pos he] at h
      have hne : decide (countVal l₀ ≠ marked.length) = false := by rw [hne]; simp [he]
      cases h
      refine ⟨countVal l₀, ?_⟩
      rs [encRct, withMarks, marks_len, ne_num, hne]
    · rw [if_neg he] at h
      have hne : decide (countVal l₀ ≠ marked.length) = true := by rw [hne]; simpa using he
      obtain ⟨c, hc⟩ := ih k (pass + 1) (some marked.length) _ (by omega) (markPass_good ht.referenced hg) h
      refine ⟨c, ?_⟩
      have H := call_mark_refs hord (withMarks t marked) pass (m := m - 1) (by omega)
      simp only [encRct, withMarks] at H
      rs [encRct, withMarks, marks_len, ne_num, hne, H]
      rw [hf]
      exact hc

theorem call_marks_left {U : List Bytes} (hU : U.length < 4294967296) {t : RuleCallTree} (ht : GoodTree U t) {n : Nat} {l : List Bytes}
    (h : markLoop (ordOf hord) 3 t.leftMost n none 0 t.notLR = .ok l) {m : Nat} (hm : n + 2 ≤ m) :
    callN (World.gen ord) m Ast.RuleCallTree.repeated_loop_over_cleanup_left_most_called_rules [encRct t] = .ok unit [encRct (withMarks t l)] := by
  rw [callN_succ rfl rfl (by omega)]
  rs [Ast.RuleCallTree.repeated_loop_over_cleanup_left_most_called_rules, encRct, marks_len, ne_num, macroCall]
  generalize hf : (fun env => ev _ _ _ _ env) = f
  suffices H : ∀ n k pass l₀ marked, n ≤ k → GoodSet U marked → markLoop (ordOf hord) 3 t.leftMost n l₀ pass marked = .ok l →
      ∃ c, loopN f k [(n!"l", .num false (countVal l₀)), (n!"self", encRct (withMarks t marked))] = .ok unit [(n!"l", .num false c), (n!"self", encRct (withMarks t l))] by
    obtain ⟨c, hc⟩ := H n (m - 1) 0 none t.notLR (by omega) ht.notLR h
    have hc : loopN f (m - 1) [(n!"l", .num false 18446744073709551615), (n!"self", encRct t)] = _ := hc
    simp only [encRct] at hc
    rw [hc]
    rfl
  intro n
  induction n with
  | zero => intro k pass l₀ marked _ _ h; cases h
  | succ n ih =>
    intro k pass l₀ marked hk hg h
    obtain ⟨k, rfl⟩ : ∃ k', k = k' + 1 := ⟨k - 1, by omega⟩
    have hlen := hg.length
    have hne := countVal_ne (l := l₀) (k := marked.length) (by omega)
    rw [markLoop] at h
    rw [loopN, ← hf]
    by_cases he : l₀ = some marked.length
    · rw [if_pos he] at h
      have hne : decide (countVal l₀ ≠ marked.length) = false := by rw [hne]; simp [he]
      cases h
      refine ⟨countVal l₀, ?_⟩
      rs [encRct, withMarks, marks_len, ne_num, hne]
    · rw [if_neg he] at h
      have hne : decide (countVal l₀ ≠ marked.length) = true := by rw [hne]; simpa using he
      obtain ⟨c, hc⟩ := ih k (pass + 1) (some marked.length) _ (by omega) (markPass_good ht.leftMost hg) h
      refine ⟨c, ?_⟩
      have H := call_mark_left hord (withMarks t marked) pass (m := m - 1) (by omega)
      simp only [encRct, withMarks] at H
      rs [encRct, withMarks, marks_len, ne_num, hne, H]
      rw [hf]
      exact hc

/-! ## Leftmost references of all rules -/

theorem filter_loop {F : Val → Env → Res} {E : List Bytes → Env} {M : List Bytes} (h1 : ∀ x acc, M.contains x = true → F (.str x) (E acc) = .cont (E acc))
    (h2 : ∀ x acc, M.contains x = false → F (.str x) (E acc) = .ok unit (E (acc ++ [x]))) (xs acc : List Bytes) :
    forN F (xs.map .str) (E acc) = .ok unit (E (acc ++ xs.filter fun r => !M.contains r)) := by
  induction xs generalizing acc with
  | nil => simp [forN]
  | cons x xs ih =>
    rw [List.map_cons, forN]
    cases hx : M.contains x with
    | true =>
      rw [h1 x acc hx]
      simp only
      rw [ih, List.filter_cons_of_neg (by simp at hx; simp [hx])]
    | false =>
      rw [h2 x acc hx]
      simp only
      rw [ih, List.filter_cons_of_pos (by simp at hx; simp [hx])]
      simp

theorem assert_rhs (r : Dsl) : macroCall n!"debug_assert" [.bool (decide (r = .r_rhs))] = if r = .r_rhs then .ok unit .none else .panic := by
  by_cases h : r = .r_rhs <;> simp [macroCall, h]
theorem assert_true : macroCall n!"debug_assert" [.bool true] = .ok unit .none := rfl
theorem println_any (vs : List Val) : macroCall n!"println" vs = .ok unit .none := rfl

variable (p : Publisher Dsl) {src : Bytes}

theorem call_left_all (hs : ascii src = true) (n : Nat) (t : RuleCallTree) {m : Nat} (hm : n + 4 ≤ m) :
    (callN (World.gen ord) m Ast.RuleCallTree.get_left_most_called_rules_of_all_rules [encRct t, encTree p, .str src]).Sim (leftMostOfAll p src (ordOf hord) n t)
      fun t' => .ok unit [encRct t', encTree p, .str src] := by
  rw [callN_succ rfl rfl (by omega), leftMostOfAll]
  rs [Ast.RuleCallTree.get_left_most_called_rules_of_all_rules, encRct, keys_keys, ord_keys hord, items]
  generalize hF : inScope _ _ = F
  have K := filter_loop (F := F) (M := t.notLR) (E := fun acc => [(n!"rule_strings", .vec (acc.map .str)), (n!"self", encRct t), (n!"tree", encTree p), (n!"source", .str src)])
    (fun x acc h => by
      rw [← hF]
      rs [inScope, encRct, marks_get, h, eq_lrFalse])
    (fun x acc h => by
      rw [← hF]
      rs [inScope, encRct, marks_get, h, Bool.false_eq_true, clone_lib, push_lib, List.map_append])
    (((ordOf hord).perm [2] t.rulesKeys).map (·.1)) []
  rw [List.map_map] at K
  simp only [Function.comp_def, List.map_nil, List.nil_append, encRct] at K
  rw [K]
  generalize ((((ordOf hord).perm [2] t.rulesKeys).map (·.1)).filter fun r => !t.notLR.contains r) = names
  rs [items]
  clear K hF
  generalize hL : forN _ _ _ = L
  generalize hO : (List.foldlM _ _ _ : Out _) = O
  have R : Loop L O (fun _ => True) fun t => [(n!"rule_strings", .vec (names.map .str)), (n!"self", encRct t), (n!"tree", encTree p), (n!"source", .str src)] := by
    rw [← hL, ← hO]
    refine forN_loop rfl trivial fun b _ t _ => ?_
    have I := index_keys t.rulesRhsKeys b
    cases hk : t.rulesRhsKeys.get b with
    | none =>
      rw [hk] at I
      simp only at I
      refine .panic ?_
      rs [inScope, encRct, I]
    | some k =>
      rw [hk] at I
      simp only at I
      simp only [Out.ofOption, Out.bind_ok]
      rcases getNode_cases p k with ⟨nd, hn, _⟩ | ⟨q, hn⟩
      · rw [hn]
        simp only [Out.bind_ok]
        by_cases hr : nd.rule = .r_rhs
        · rw [if_neg (by simpa using hr)]
          have H := call_left ord p hs b n nd [] (m - 1) (by omega)
          rw [← nil_set] at H
          cases ho : leftMostOf p src n nd [] with
          | oof => trivial
          | panic q =>
            rw [ho] at H
            simp only [CRes.Sim] at H
            refine .panic ?_
            rs [inScope, encRct, I, callMeth_pub, call_get_node ord hn, fieldVal_rule, eq_rhs, hr, decide_true, assert_true, println_any, clone_lib, H]
          | ok s' =>
            rw [ho] at H
            simp only [CRes.Sim] at H
            refine .ok (v := unit) ?_ trivial
            rs [inScope, encRct, I, callMeth_pub, call_get_node ord hn, fieldVal_rule, eq_rhs, hr, decide_true, assert_true, println_any, clone_lib, H, to_string_lib, sets_insert]
        · rw [if_pos (by simpa using hr)]
          refine .panic ?_
          rs [inScope, encRct, I, callMeth_pub, call_get_node ord hn, fieldVal_rule, eq_rhs, assert_rhs, if_neg hr]
      · rw [hn]
        refine .panic ?_
        rs [inScope, encRct, I, callMeth_pub, call_get_node_panic ord hn]
  clear hL hO
  loop_end

/-! ## Involved sets -/

theorem call_create_sets (t : RuleCallTree) {m : Nat} (hm : 1 ≤ m) :
    callN (World.gen ord) m Ast.RuleCallTree.create_involved_sets [encRct t] = .ok unit [encRct (createInvolvedSets (ordOf hord) t)] := by
  rw [callN_succ rfl rfl (by omega)]
  rs [Ast.RuleCallTree.create_involved_sets, encRct, items_sets, ord_pairs hord (lbl := [4]) (.inl rfl)]
  generalize hL : forN _ _ _ = L
  have K : Loop L (.ok (createInvolvedSets (ordOf hord) t)) (fun t' => t'.notLR = t.notLR) fun t => [(n!"self", encRct t)] := by
    rw [← hL, createInvolvedSets, ← foldlM_ok]
    refine forN_loop rfl rfl fun b _ s hn => ?_
    have S := foldlM_ok (fun s' r => if s.notLR.contains r then s' else setInsert s' r) ((ordOf hord).perm [4, s.involved.length] b.2) []
    simp only
    generalize hA : ((ordOf hord).perm [4, s.involved.length] b.2).foldl (fun s' r => if s.notLR.contains r then s' else setInsert s' r) [] = A at S ⊢
    refine .ok (v := unit) ?_ (by split <;> exact hn)
    rs [inScope, pairVal, encRct, items, ord_set4 hord s.involved.length]
    generalize hL : forN _ _ _ = L
    have K : Loop L (.ok A) (fun _ => True) fun c => [(n!"involved_set", .set (c.map .str)), (n!"rule_name", .str b.1), (n!"left_most_rules", .set (b.2.map .str)), (n!"self", encRct s)] := by
      rw [← hL, ← S]
      refine forN_loop rfl trivial fun r _ c _ => ?_
      refine .ok (v := unit) ?_ trivial
      cases hr : s.notLR.contains r <;>
      rs [inScope, encRct, marks_get, hr, ne_lrFalse, Bool.false_eq_true, to_string_lib, set_insert, unit]
    obtain ⟨rfl, -⟩ := K
    cases hE : A.isEmpty <;> rs [encRct, set_empty, hE, to_string_lib, set_insert, sets_insert, Bool.false_eq_true, unit]
  obtain ⟨rfl, -⟩ := K
  rfl

theorem call_count {U : List Bytes} (hU : U.length < 4294967296) (pass : Nat) {t : RuleCallTree} (ht : GoodMap U t.involved) {m : Nat} (hm : 1 ≤ m) :
    callN (World.gen ord) m Ast.RuleCallTree.involved_rule_count [encRct t] = .ok (.num false (involvedRuleCount (ordOf hord) pass t.involved)) [encRct t] := by
  rw [callN_succ rfl rfl (by omega)]
  rs [Ast.RuleCallTree.involved_rule_count, encRct, sets_values, ord_values hord pass, items]
  generalize hF : inScope _ _ = F
  have hb : ∀ (l : Map (List Bytes)) c, c + total l < 18446744073709551616 → forN F (l.map fun p => .set (p.2.map .str)) [(n!"count", .num false c), (n!"self", encRct t)] =
      .ok unit [(n!"count", .num false (l.foldl (fun c p => c + p.2.length) c)), (n!"self", encRct t)] := by
    intro l
    induction l with
    | nil => intro c _; rfl
    | cons q l ih =>
      intro c hc
      have e : total (q :: l) = q.2.length + total l := by simp [total]
      have hlt : c + q.2.length < numLimit false := by simp only [numLimit, Bool.false_eq_true, if_false]; omega
      have E : F (.set (q.2.map .str)) [(n!"count", .num false c), (n!"self", encRct t)] = .ok unit [(n!"count", .num false (c + q.2.length)), (n!"self", encRct t)] := by
        rw [← hF]
        rs [inScope, set_len, addTo, binop, hlt, Bool.or_false]
      rw [List.map_cons, forN, E, List.foldl_cons]
      exact ih _ (by omega)
  have K := hb ((ordOf hord).perm [6, pass] t.involved) 0 (by
    have h1 : total ((ordOf hord).perm [6, pass] t.involved) = total t.involved := (((ordOf hord).ok _ _).map _).sum_nat
    have h2 := ht.total
    have h3 : U.length * U.length ≤ 4294967295 * 4294967295 := Nat.mul_le_mul (by omega) (by omega)
    omega)
  simp only [encRct] at K
  rw [K]
  rfl

theorem call_merge {U : List Bytes} (pass : Nat) {t : RuleCallTree} (ht : GoodMap U t.involved) {m : Nat} (hm : 1 ≤ m) :
    (callN (World.gen ord) m Ast.RuleCallTree.merge_dependent_sets [encRct t]).Sim (mergeDependentSets (ordOf hord) pass t.involved)
      fun i => .ok unit [encRct { t with involved := i }] := by
  rw [callN_succ rfl rfl (by omega), mergeDependentSets]
  rs [Ast.RuleCallTree.merge_dependent_sets, encRct, sets_clone, items_sets, ord_pairs hord (lbl := [5, pass]) (.inr ⟨pass, .inr (.inr rfl)⟩)]
  generalize hL : forN _ _ _ = L
  generalize hO : (List.foldlM _ _ _ : Out _) = O
  have R : Loop L O (fun _ => True) fun i => [(n!"copied_involved_sets", encSets t.involved), (n!"self", encRct { t with involved := i })] := by
    rw [← hL, ← hO]
    refine forN_loop rfl trivial fun b _ i _ => ?_
    have S : ∀ L, forN (inScope (.var n!"subrule_name") fun env => ev (World.gen ord) ⟨callN (World.gen ord) (m - 1), cloN (World.gen ord) (m - 1)⟩ (m - 1)
        (.block (.letS (.var n!"subrule_involved_set") (.mtch (.meth (.path
      [n!"copied_involved_sets"]) n!"get" (.cons (.path [n!"subrule_name"]) .nil)) (.cons (.some n!"v") (.path [n!"v"]) (.cons .none (.mac
      n!"panic" .nil) .nil)))
    (.exprS (.assign (.path [n!"copied_set"]) (.meth (.meth (.meth (.path [n!"copied_set"]) n!"union" (.cons (.path
      [n!"subrule_involved_set"]) .nil)) n!"cloned" .nil) n!"collect" .nil))
    .nil))) env) (((ordOf hord).perm [5, pass, i.length] b.2).map .str) [(n!"copied_set", .set (b.2.map .str)), (n!"rule_name", .str b.1), (n!"involved_set", .set (b.2.map .str)),
          (n!"copied_involved_sets", encSets t.involved), (n!"self", encRct { t with involved := i })] = L →
        Loop L (((ordOf hord).perm [5, pass, i.length] b.2).foldlM (fun s r =>
      match t.involved.get r with
      | none => .panic .explicit
      | some i => .ok (setUnion s i)) b.2) (fun _ => True) fun c => [(n!"copied_set", .set (c.map .str)), (n!"rule_name", .str b.1), (n!"involved_set", .set (b.2.map .str)),
          (n!"copied_involved_sets", encSets t.involved), (n!"self", encRct { t with involved := i })] := by
      intro L hL
      rw [← hL]
      refine forN_loop rfl trivial fun r _ c _ => ?_
      cases hr : t.involved.get r with
      | none =>
        refine .panic ?_
        rs [inScope, sets_get, hr, optVal, macroCall]
      | some u =>
        refine .ok (v := unit) ?_ trivial
        rs [inScope, sets_get, hr, optVal, set_union _ _ _ (ht.get hr).1, set_cloned, set_collect]
    rs [inScope, pairVal, set_clone, items, ord_set3 hord 5 pass i.length]
    have K := S _ rfl
    generalize forN _ _ _ = L at K ⊢
    generalize (List.foldlM _ _ _ : Out _) = O at K ⊢
    cases O with
    | oof => trivial
    | panic q => obtain rfl := K; exact .panic rfl
    | ok s' =>
      obtain ⟨rfl, -⟩ := K
      refine .ok (v := unit) ?_ trivial
      rs [encRct, clone_lib, sets_insert]
  clear hL hO
  loop_end

theorem call_merge_loop {U : List Bytes} (hU : U.length < 4294967296) {t : RuleCallTree} (ht : GoodMap U t.involved) (n : Nat) {m : Nat} (hm : n + 2 ≤ m) :
    (callN (World.gen ord) m Ast.RuleCallTree.merge_dependent_sets_loop_until_no_change [encRct t]).Sim (mergeLoop (ordOf hord) n none 0 t.involved)
      fun i => .ok unit [encRct { t with involved := i }] := by
  rw [callN_succ rfl rfl (by omega)]
  have C := call_count hord hU 0 ht (m := m - 1) (by omega)
  simp only [encRct] at C
  rs [Ast.RuleCallTree.merge_dependent_sets_loop_until_no_change, encRct, C]
  generalize hf : (fun env => ev _ _ _ _ env) = f
  suffices H : ∀ n k pass l₀ i, n ≤ k → GoodMap U i → Ends (loopN f k [(n!"current_value", .num false (involvedRuleCount (ordOf hord) pass i)), (n!"last_value", .num false (countVal l₀)), (n!"self", encRct { t with involved := i })])
      (mergeLoop (ordOf hord) n l₀ pass i) fun i' => [(n!"current_value", .num false (total i')), (n!"last_value", .num false (total i')), (n!"self", encRct { t with involved := i' })] by
    have K := H n (m - 1) 0 none t.involved (by omega) ht
    have K : Ends (loopN f (m - 1) [(n!"current_value", .num false (involvedRuleCount (ordOf hord) 0 t.involved)), (n!"last_value", .num false 18446744073709551615), (n!"self", encRct t)]) _ _ := K
    simp only [encRct] at K
    simp only [List.cons_append, List.nil_append]
    generalize loopN _ _ _ = L at K ⊢
    generalize mergeLoop _ _ _ _ _ = O at K ⊢
    cases O with
    | oof => trivial
    | panic q => obtain rfl := K; show _ = _; rfl
    | ok i => rcases K with rfl | rfl <;> (show _ = _; rfl)
  intro n
  induction n with
  | zero => intro k pass l₀ i _ _; trivial
  | succ n ih =>
    intro k pass l₀ i hk hg
    obtain ⟨k, rfl⟩ : ∃ k', k = k' + 1 := ⟨k - 1, by omega⟩
    have htot := hg.total
    have h3 : U.length * U.length ≤ 4294967295 * 4294967295 := Nat.mul_le_mul (by omega) (by omega)
    rw [mergeLoop, loopN, ← hf]
    simp only [count_eq]
    have hne := countVal_ne (l := l₀) (k := total i) (by omega)
    rw [decide_eq_decide] at hne
    by_cases he : l₀ = some (total i)
    · rw [if_pos he]
      have he' : decide (total i ≠ countVal l₀) = false := by simp [he, countVal]
      rs [encRct, ne_num, he']
      exact .inl (by simp [he, countVal])
    · rw [if_neg he]
      have he' : decide (total i ≠ countVal l₀) = true := by
        have := hne.2 (by simpa using he)
        simp only [decide_eq_true_eq]
        exact this.symm
      have H := call_merge hord pass (t := { t with involved := i }) hg (m := m - 1) (by omega)
      cases ho : mergeDependentSets (ordOf hord) pass i with
      | oof => trivial
      | panic q =>
        rw [ho] at H
        simp only [CRes.Sim, encRct] at H
        rs [encRct, ne_num, he', H]
        rfl
      | ok i' =>
        rw [ho] at H
        simp only [CRes.Sim, encRct] at H
        have hg' := merge_good hg ho
        have C := call_count hord hU (pass + 1) (t := { t with involved := i' }) hg' (m := m - 1) (by omega)
        simp only [encRct] at C
        have K := ih k (pass + 1) (some (total i)) i' (by omega) hg'
        rs [encRct, ne_num, he', H, C, Out.bind_ok]
        rw [hf]
        exact K

/-! ## The detector -/

theorem markLoop_no_panic {o : HashOrd} {lbl : Nat} {mp : Map (List Bytes)} {q : Panic} (n : Nat) (l : Option Nat) (pass : Nat) (marked : List Bytes) :
    markLoop o lbl mp n l pass marked ≠ .panic q := by
  induction n generalizing l pass marked with
  | zero => simp [markLoop]
  | succ n ih =>
    rw [markLoop]
    split
    · simp
    · exact ih _ _ _

theorem call_rct (hs : ascii src = true) (hB : p.nodes.length < 4294967296) (n : Nat) {m : Nat} (hm : n + 5 ≤ m) :
    (callN (World.gen ord) m Ast.RuleCallTree.new [encTree p, .str src]).Sim (RuleCallTree.build p src (ordOf hord) n) fun t => .ok (encRct t) [encTree p, .str src] := by
  have hU : (univ p src).length < 4294967296 := Nat.lt_of_le_of_lt univ_length hB
  rw [callN_succ rfl rfl (by omega), RuleCallTree.build]
  rcases getNode_cases p 0 with ⟨nd, hn, _⟩ | ⟨q, hn⟩
  · rw [hn]
    simp only [Out.bind_ok]
    have W := call_walk ord p hs n nd .empty (m - 1) (by omega)
    cases hw : walkNodeChildren p src n nd .empty with
    | oof => trivial
    | panic q =>
      rw [hw] at W
      simp only [CRes.Sim, encRct, RuleCallTree.empty, encKeys, encSets, encMarks, List.map_nil] at W
      rs [Ast.RuleCallTree.new, callMeth_pub, key_fold, call_get_node ord hn, W]
      rfl
    | ok t1 =>
      rw [hw] at W
      simp only [CRes.Sim, RuleCallTree.empty] at W
      rw [encRct] at W
      simp only [encKeys, encSets, encMarks, List.map_nil] at W
      simp only [Out.bind_ok]
      have g1 := walk_good n nd _ t1 ⟨by simp [RuleCallTree.empty, Map.keys], .nil, .nil, .nil, .nil⟩ hw
      cases h2 : markLoop (ordOf hord) 1 t1.referenced n none 0 t1.notLR with
      | oof => trivial
      | panic q => exact absurd h2 (markLoop_no_panic _ _ _ _)
      | ok l2 =>
        have R2 := call_marks_refs hord hU g1 h2 (m := m - 1) (by omega)
        simp only [encRct, withMarks] at R2
        have g2 : GoodTree (univ p src) { t1 with notLR := l2 } := ⟨g1.rulesKeys, g1.referenced, markLoop_good g1.referenced n _ _ _ _ g1.notLR h2, g1.leftMost, g1.involved⟩
        simp only [Out.bind_ok]
        have R3 := call_left_all hord p hs n { t1 with notLR := l2 } (m := m - 1) (by omega)
        cases h3 : leftMostOfAll p src (ordOf hord) n { t1 with notLR := l2 } with
        | oof => trivial
        | panic q =>
          rw [h3] at R3
          simp only [CRes.Sim, encRct] at R3 W
          rs [Ast.RuleCallTree.new, callMeth_pub, key_fold, call_get_node ord hn, W, println_any, R2, R3]
          rfl
        | ok t3 =>
          rw [h3] at R3
          simp only [CRes.Sim] at R3
          have g3 := leftMostAll_good g2 h3
          simp only [Out.bind_ok]
          cases h4 : markLoop (ordOf hord) 3 t3.leftMost n none 0 t3.notLR with
          | oof => trivial
          | panic q => exact absurd h4 (markLoop_no_panic _ _ _ _)
          | ok l4 =>
            have R4 := call_marks_left hord hU g3 h4 (m := m - 1) (by omega)
            have g4 : GoodTree (univ p src) { t3 with notLR := l4 } := ⟨g3.rulesKeys, g3.referenced, markLoop_good g3.leftMost n _ _ _ _ g3.notLR h4, g3.leftMost, g3.involved⟩
            have R5 := call_create_sets hord { t3 with notLR := l4 } (m := m - 1) (by omega)
            have g5 := create_good (o := ordOf hord) g4
            simp only [Out.bind_ok]
            have R6 := call_merge_loop hord hU g5.involved n (m := m - 1) (by omega)
            generalize createInvolvedSets (ordOf hord) { t3 with notLR := l4 } = t5 at R5 R6 ⊢
            cases h6 : mergeLoop (ordOf hord) n none 0 t5.involved with
            | oof => trivial
            | panic q =>
              rw [h6] at R6
              simp only [CRes.Sim, encRct, withMarks] at W R2 R3 R4 R5 R6
              rs [Ast.RuleCallTree.new, callMeth_pub, key_fold, call_get_node ord hn, W, println_any, R2, R3, R4, R5, R6]
              rfl
            | ok i =>
              rw [h6] at R6
              simp only [CRes.Sim, encRct, withMarks] at W R2 R3 R4 R5 R6
              rs [Ast.RuleCallTree.new, callMeth_pub, key_fold, call_get_node ord hn, W, println_any, R2, R3, R4, R5, R6]
              rfl
  · rw [hn]
    rs [Ast.RuleCallTree.new, callMeth_pub, key_fold, call_get_node_panic ord hn]
    rfl

end PP.Rs
